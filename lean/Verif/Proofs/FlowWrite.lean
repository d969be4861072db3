import Verif.Proofs.Flow
import Verif.Model.Crypto

/-!
# A client that writes and does not read
-/

set_option autoImplicit false

namespace Goe2ee

section
variable {C : Crypto}

/-- How far the present `Write` is. -/
inductive Sending where
  /-- it has sent nothing -/
  | idle
  /-- `ps` (not empty) is still to be sent -/
  | part (ps : Bytes)
  /-- everything was sent -/
  | sent
  /-- the connection was closed meanwhile -/
  | failed
  deriving DecidableEq, Repr

namespace Sending

def todo : Sending → Bytes
  | part ps => ps
  | _ => []

def inFlight : Sending → Nat
  | part _ => 1
  | sent => 1
  | _ => 0

def ready : Sending → Nat
  | sent => 1
  | _ => 0

def begun : Sending → Nat
  | idle => 0
  | _ => 1

def after : Bytes → Sending
  | [] => sent
  | p :: ps => part (p :: ps)

theorem after_todo (ps : Bytes) : (after ps).todo = ps := by cases ps <;> rfl
theorem after_inFlight (ps : Bytes) : (after ps).inFlight = 1 := by cases ps <;> rfl
theorem after_begun (ps : Bytes) : (after ps).begun = 1 := by cases ps <;> rfl
theorem after_ne (ps : Bytes) : after ps ≠ failed := by cases ps <;> exact (fun h => by cases h)
theorem ready_le (st : Sending) : st.ready ≤ st.inFlight := by cases st <;> simp [ready, inFlight]

end Sending

/-- Results of the effects of the client. -/
def ClientGood : (o : COp) → o.Ret C → Prop
  | .aead key nonce plaintext, (r : Bytes) => r = C.aeadSeal key nonce plaintext
  | _, _ => True

/-- The application at the client sends whole requests, one for each `Write`, and reads nothing; it still has to call
`Write` `m` times. -/
def WriteOnly (er : Bool) : FlowProg C FlowLoop → Sending → Nat → Prop
  | .ret l, st, m => l = .ended ∧ st = .idle ∧ m = 0
  | .panic _, _, _ => False
  | .op (.send b) k, st, m => ∃ ps m',
    ((st = .idle ∧ m = m' + 1 ∧ FlowRequest er (b :: ps)) ∨ (st = .part (b :: ps) ∧ m = m')) ∧
    WriteOnly er (k true) (.after ps) m' ∧ WriteOnly er (k false) .failed m'
  | .op (.client o) k, st, m => st = .idle ∧ ∀ r, ClientGood o r → WriteOnly er (k r) .idle m
  | .op (.wrote r) k, st, m => ∃ m',
    ((st = .idle ∧ m = m' + 1 ∧ r.2 ≠ none) ∨ (st = .sent ∧ m = m') ∨ (st = .failed ∧ m = m' ∧ r.2 ≠ none)) ∧
    WriteOnly er (k ()) .idle m'
  | .op .recv _, _, _ => False
  | .op .hangUp _, _, _ => False
  | .op (.server _) _, _, _ => False
  | .op (.gotData _) _, _, _ => False

variable {er : Bool}

theorem writeOnly_sendAll {f : Nat × Option Err → FlowProg C FlowLoop} {m : Nat} (bs : Bytes) (n : Nat)
    (hs : ∀ r : Nat × Option Err, WriteOnly er (f r) .sent m)
    (hf : ∀ r : Nat × Option Err, r.2 ≠ none → WriteOnly er (f r) .failed m) :
    WriteOnly er ((sendAll bs n).bind f) (.after bs) m := by
  induction bs generalizing n with
  | nil => exact hs _
  | cons b bs ih => exact ⟨bs, m, .inr ⟨rfl, rfl⟩, ih (n + 1), hf _ (by simp)⟩

theorem writeOnly_request {f : Nat × Option Err → FlowProg C FlowLoop} {m : Nat} {req : Bytes}
    (hreq : FlowRequest er req) (hs : ∀ r : Nat × Option Err, WriteOnly er (f r) .sent m)
    (hf : ∀ r : Nat × Option Err, r.2 ≠ none → WriteOnly er (f r) .failed m) :
    WriteOnly er ((sendAll req 0).bind f) .idle (m + 1) := by
  obtain ⟨flags, id, counter, msg, -, -, rfl⟩ := flowRequest_bytes hreq
  exact ⟨_, m, .inl ⟨rfl, rfl, hreq⟩, writeOnly_sendAll _ _ hs hf, hf _ (by simp)⟩

theorem clientFlow_bind {α β : Type} (p : CProg C α) (g : α → CProg C β) :
    clientFlow (p.bind g) = (clientFlow p).bind fun a => clientFlow (g a) := lift_bind _ p g

/-- A client whose handshake is over. -/
def SetUp (c : Client) (er : Bool) : Prop := c.expectReply = er ∧ c.session.isSome = true

/-- `Write` sends one request, or nothing. -/
theorem writeOnly_write (hC : C.Lawful) (c : Client) (hc : SetUp c er) (p : Bytes) (hp : p.length + 16 ≤ 2 ^ 30)
    {f : (Nat × Option Err) × Client → FlowProg C FlowLoop} {m : Nat}
    (hs : ∀ r c', SetUp c' er → WriteOnly er (f (r, c')) .sent m)
    (hf : ∀ r c', SetUp c' er → r.2 ≠ none → WriteOnly er (f (r, c')) .failed m)
    (hi : ∀ r c', SetUp c' er → r.2 ≠ none → WriteOnly er (f (r, c')) .idle (m + 1)) :
    WriteOnly er ((clientFlow (c.write p)).bind f) .idle (m + 1) := by
  rw [Client.write, clientFlow_bind, Prog.bind_assoc]
  have hrest : ∀ r : Option Err, WriteOnly er ((clientFlow (match r with
      | some e => (.ret ((0, some (.wrap "failed to set connection write deadline" e)), c) :
          CProg C ((Nat × Option Err) × Client))
      | none =>
      match c.session with
      | none => .panic "nil pointer dereference"
      | some session =>
      match newGCM C session.secret with
      | .error e => .ret ((0, some e), c)
      | .ok gcm =>
      .op (.addCounter session.sendCounter) fun (counter : BitVec 64) =>
      if counter = 0 then .ret ((0, some (.other "message counter exhausted")), c)
      else
      (ofClientRes (nonce directionClientToServer counter gcmNonceSize)).bind fun nonce =>
      .op (.aead gcm nonce p) fun (sealed : Bytes) =>
      .op (.write (newProcessRequest session.id counter sealed c.expectReply).bytes)
        fun (r : Nat × Option Err) =>
      .ret (r, { c with lastSentCounter := counter }))).bind f) .idle (m + 1) := by
    intro r
    cases r with
    | some e => exact hi _ _ hc (by simp)
    | none =>
      obtain ⟨h1, h2⟩ := hc
      cases hsess : c.session with
      | none => simp [hsess] at h2
      | some session =>
        simp only []
        cases newGCM C session.secret with
        | error e => exact hi _ _ ⟨h1, h2⟩ (by simp)
        | ok gcm =>
          refine ⟨rfl, fun (counter : BitVec 64) _ => ?_⟩
          show WriteOnly er (Prog.bind (clientFlow (if counter = 0 then _ else _)) f) .idle (m + 1)
          split
          · exact hi _ _ ⟨h1, h2⟩ (by simp)
          · refine ⟨rfl, fun sealed hsealed => ?_⟩
            have hlen : sealed.length ≤ 2 ^ 30 := by
              rw [show sealed = _ from hsealed, hC.seal_length]; exact hp
            have hreq : FlowRequest er (newProcessRequest session.id counter sealed c.expectReply).bytes :=
              ⟨session.id, counter, sealed, hlen, by rw [h1]⟩
            refine Eq.mpr (congrArg (WriteOnly er · .idle (m + 1)) (Prog.bind_assoc (S := FlowSig C) (sendAll _ 0) _ f)) ?_
            refine writeOnly_request hreq (fun r => hs r _ ⟨h1, rfl⟩) (fun r hr => hf r _ ⟨h1, rfl⟩ hr)
  split
  · exact ⟨rfl, fun r _ => hrest r⟩
  · exact hrest none

theorem writeOnly_writeAll (hC : C.Lawful) (msgs : List Bytes) (hm : ∀ p ∈ msgs, p.length + 16 ≤ 2 ^ 30) (c : Client)
    (hc : SetUp c er) : WriteOnly (C := C) er (writeAll c msgs) .idle msgs.length := by
  induction msgs generalizing c with
  | nil => exact ⟨rfl, rfl, rfl⟩
  | cons p ps ih =>
    have hih := fun c' hc' => ih (fun q hq => hm q (List.mem_cons_of_mem _ hq)) c' hc'
    refine writeOnly_write hC c hc p (hm p List.mem_cons_self) ?_ ?_ ?_
    · exact fun r c' hc' => ⟨_, .inr (.inl ⟨rfl, rfl⟩), hih c' hc'⟩
    · exact fun r c' hc' hr => ⟨_, .inr (.inr ⟨rfl, rfl, hr⟩), hih c' hc'⟩
    · exact fun r c' hc' hr => ⟨_, .inl ⟨rfl, rfl, hr⟩, hih c' hc'⟩

/-! ## The server between and in passes -/

/-- The server has not begun to read a request. -/
def AtStart (P : Bytes → Prop) (er : Bool) (p : FlowProg C FlowLoop) : Prop :=
  p = .ret .serving ∨ ∀ req, FlowRequest er req → Pass P er p req []

/-- The server has not begun a request (`mid = 0`), or has still to read `rest` of it and has sent `out`. -/
def ServerAt (P : Bytes → Prop) (er : Bool) (p : FlowProg C FlowLoop) (mid : Nat) (rest out : Bytes) : Prop :=
  (mid = 0 ∧ rest = [] ∧ out = [] ∧ AtStart P er p) ∨ (mid = 1 ∧ Pass P er p rest out)

/-- The longest answer. -/
def ReplyBound (C : Crypto) (P : Bytes → Prop) (er : Bool) (R : Nat) : Prop :=
  ∀ out, FlowReply C P er out → out.length ≤ R

/-- The calls of `Write` that succeeded. -/
def FlowWorld.oks (w : FlowWorld) : Nat := w.written.countP (·.2.isNone)

/-- The connection is open: `k` requests were answered, the server is at another, and `queue` follow. -/
def OpenW (P : Bytes → Prop) (er : Bool) (n : Nat) (p : FlowProg C FlowLoop) (st : Sending) (m : Nat)
    (w : FlowWorld) : Prop :=
  ∃ (k mid : Nat) (rest out : Bytes) (queue : List Bytes), st ≠ .failed ∧ ServerAt P er p mid rest out ∧
    (∀ req ∈ queue, FlowRequest er req) ∧
    (queue = [] ∨ ∃ q l, queue = q ++ [l] ∧ st.todo.length ≤ l.length) ∧
    w.up ++ st.todo = rest ++ queue.flatten ∧
    (er = true → k + out.length ≤ w.down.length) ∧
    (∀ R, ReplyBound C P er R → w.down.length ≤ R * k + out.length) ∧
    k + mid + queue.length + m ≤ n ∧
    w.oks + st.inFlight ≤ k + mid + queue.length

/-- What holds at any time. -/
def InvW (P : Bytes → Prop) (er : Bool) (n roomUp roomDown : Nat) (q p : FlowProg C FlowLoop) (w : FlowWorld) : Prop :=
  ∃ st m, WriteOnly er q st m ∧ w.up.length ≤ roomUp ∧ w.down.length ≤ roomDown ∧
    w.written.length + m + st.begun = n ∧
    ((w.closed = true ∧ (p = .ret .ended ∨ ∃ e, p = .panic e) ∧ (er = true → w.oks + st.ready ≤ roomUp + roomDown + 2)) ∨
     (w.closed = false ∧ OpenW P er n p st m w))

variable {P : Bytes → Prop}

theorem flowRequest_ne {req : Bytes} (h : FlowRequest er req) : req ≠ [] := by
  obtain ⟨flags, id, counter, msg, -, -, rfl⟩ := flowRequest_bytes h
  simp

theorem length_le_flatten (queue : List Bytes) (h : ∀ req ∈ queue, FlowRequest er req) :
    queue.length ≤ queue.flatten.length := by
  induction queue with
  | nil => simp
  | cons r queue ih =>
    have h1 := ih fun req hreq => h req (List.mem_cons_of_mem _ hreq)
    have h2 : 0 < r.length := List.length_pos_iff.mpr (flowRequest_ne (h r List.mem_cons_self))
    simp only [List.length_cons, List.flatten_cons, List.length_append]
    omega

/-- As long as the connection is open, only so many requests can have been begun. -/
theorem open_bound {n roomUp roomDown : Nat} {p : FlowProg C FlowLoop} {st : Sending} {m : Nat} {w : FlowWorld}
    (h : OpenW P er n p st m w) (hu : w.up.length ≤ roomUp) (hd : w.down.length ≤ roomDown) (her : er = true) :
    w.oks + st.inFlight ≤ roomUp + roomDown + 2 := by
  obtain ⟨k, mid, rest, out, queue, -, hsrv, hq, hlast, hup, hlo, -, -, hok⟩ := h
  have hlo := hlo her
  have hmid : mid ≤ 1 := by
    rcases hsrv with ⟨h, -⟩ | ⟨h, -⟩ <;> omega
  rcases hlast with rfl | ⟨q, l, rfl, hl⟩
  · simp only [List.length_nil] at hok
    omega
  · have h1 := length_le_flatten q fun req hreq => hq req (List.mem_append_left _ hreq)
    have h2 := congrArg List.length hup
    simp only [List.length_append, List.flatten_append, List.flatten_cons, List.flatten_nil, List.append_nil,
      List.length_cons, List.length_nil] at h2 hok
    omega

theorem oks_append (w : FlowWorld) (r : Nat × Option Err) :
    ({ w with written := w.written ++ [r] } : FlowWorld).oks = w.oks + (if r.2.isNone then 1 else 0) := by
  simp [FlowWorld.oks, List.countP_append, List.countP_cons]

theorem clientGood_answer (env : FlowEnv C) (o : COp) : ClientGood o (clientAnswer env o) := by
  cases o <;> first | rfl | trivial

/-- A step of the client. -/
theorem InvW.client {n roomUp roomDown : Nat} {o : FlowOp} {k : o.Ret C → FlowProg C FlowLoop}
    {p : FlowProg C FlowLoop} {w w' : FlowWorld} (env : FlowEnv C) {r : o.Ret C}
    (h : InvW P er n roomUp roomDown (.op o k) p w)
    (hx : flowExec roomUp roomDown env 0 o w = some (r, w')) : InvW P er n roomUp roomDown (k r) p w' := by
  obtain ⟨st, m, hw, hu, hd, hn, hc⟩ := h
  cases o with
  | recv => exact hw.elim
  | hangUp => exact hw.elim
  | server o => exact hw.elim
  | gotData r => exact hw.elim
  | client o =>
    obtain ⟨rfl, hw⟩ := hw
    obtain ⟨rfl, rfl⟩ := Prod.mk.inj (Option.some.inj hx)
    exact ⟨.idle, m, hw _ (clientGood_answer env o), hu, hd, hn, hc⟩
  | send b =>
    obtain ⟨ps, m', hst, ht, hf⟩ := hw
    simp only [flowExec, if_true] at hx
    rcases hc with ⟨hcl, hp, hk⟩ | ⟨hcl, k0, mid, rest, out, queue, hnf, hsrv, hq, hlast, hup, hlo, hhi, hcount, hok⟩
    · rw [if_pos hcl] at hx
      obtain ⟨rfl, rfl⟩ := Prod.mk.inj (Option.some.inj hx)
      refine ⟨.failed, m', hf, hu, hd, ?_, .inl ⟨hcl, hp, fun h => ?_⟩⟩
      · rcases hst with ⟨rfl, rfl, -⟩ | ⟨rfl, rfl⟩ <;> simp only [Sending.begun] at hn ⊢ <;> omega
      · have := hk h
        simp only [Sending.ready]
        omega
    · rw [if_neg (by simp [hcl])] at hx
      split at hx
      · rename_i hroom
        obtain ⟨rfl, rfl⟩ := Prod.mk.inj (Option.some.inj hx)
        refine ⟨.after ps, m', ht, by simp; omega, hd, ?_, .inr ⟨hcl, ?_⟩⟩
        · rw [Sending.after_begun]
          rcases hst with ⟨rfl, rfl, -⟩ | ⟨rfl, rfl⟩ <;> simp only [Sending.begun] at hn ⊢ <;> omega
        · rcases hst with ⟨rfl, rfl, hreq⟩ | ⟨rfl, rfl⟩
          · refine ⟨k0, mid, rest, out, queue ++ [b :: ps], Sending.after_ne _, hsrv, ?_, .inr ⟨queue, b :: ps, rfl, ?_⟩,
              ?_, hlo, hhi, ?_, ?_⟩
            · intro req hr
              rcases List.mem_append.mp hr with hr | hr
              · exact hq req hr
              · rw [List.mem_singleton.mp hr]; exact hreq
            · rw [Sending.after_todo]; simp
            · simp only [Sending.todo, List.append_nil] at hup
              simp [Sending.after_todo, hup]
            · simp only [List.length_append, List.length_singleton]; omega
            · rw [Sending.after_inFlight]
              simp only [Sending.inFlight, List.length_append, List.length_singleton] at hok ⊢
              have : ({ w with up := w.up ++ [b] } : FlowWorld).oks = w.oks := rfl
              omega
          · refine ⟨k0, mid, rest, out, queue, Sending.after_ne _, hsrv, hq, ?_, ?_, hlo, hhi, hcount, ?_⟩
            · rcases hlast with h | ⟨q, l, h, hl⟩
              · exact .inl h
              · refine .inr ⟨q, l, h, ?_⟩
                rw [Sending.after_todo]
                simp only [Sending.todo, List.length_cons] at hl
                omega
            · rw [Sending.after_todo, ← hup]
              simp [Sending.todo]
            · rw [Sending.after_inFlight]
              exact hok
      · cases hx
  | wrote r =>
    obtain ⟨m', hst, hw⟩ := hw
    obtain ⟨rfl, rfl⟩ := Prod.mk.inj (Option.some.inj hx)
    have hoks := oks_append w r
    have hle : (if r.2.isNone then 1 else 0) ≤ st.ready := by
      rcases hst with ⟨rfl, -, hr⟩ | ⟨rfl, -⟩ | ⟨rfl, -, hr⟩
      · rw [if_neg (by simpa using hr)]; exact Nat.zero_le _
      · simp only [Sending.ready]; split <;> omega
      · rw [if_neg (by simpa using hr)]; exact Nat.zero_le _
    refine ⟨.idle, m', hw, hu, hd, ?_, ?_⟩
    · simp only [List.length_append, List.length_singleton]
      rcases hst with ⟨rfl, rfl, -⟩ | ⟨rfl, rfl⟩ | ⟨rfl, rfl, -⟩ <;> simp only [Sending.begun] at hn ⊢ <;> omega
    · rcases hc with ⟨hcl, hp, hk⟩ | ⟨hcl, k0, mid, rest, out, queue, hnf, hsrv, hq, hlast, hup, hlo, hhi, hcount, hok⟩
      · refine .inl ⟨hcl, hp, fun h => ?_⟩
        have := hk h
        rw [hoks]
        simp only [Sending.ready] at *
        omega
      · have htodo : st.todo = [] := by
          rcases hst with ⟨rfl, -⟩ | ⟨rfl, -⟩ | ⟨rfl, -⟩ <;> rfl
        have hm : m' ≤ m := by
          rcases hst with ⟨-, rfl, -⟩ | ⟨-, rfl⟩ | ⟨-, rfl, -⟩ <;> omega
        have hr := Sending.ready_le st
        refine .inr ⟨hcl, k0, mid, rest, out, queue, (fun h => by cases h), hsrv, hq, ?_, ?_, hlo, hhi, by omega, ?_⟩
        · rcases hlast with h | ⟨q, l, h, -⟩
          · exact .inl h
          · exact .inr ⟨q, l, h, by simp [Sending.todo]⟩
        · rw [← hup, htodo]
          rfl
        · rw [hoks]
          show _ + 0 ≤ _
          omega

/-- The application's replies satisfy `P`. -/
def EnvGood (P : Bytes → Prop) (env : FlowEnv C) : Prop :=
  ∀ r counter host id message bs, env.server (.invoke r counter host id message) = .reply bs → P bs

theorem flowGood_answer {env : FlowEnv C} (h : EnvGood P env) (o : SOp) : FlowGood P o (serverAnswer env o) := by
  cases o <;> first | exact (fun bs hbs => h _ _ _ _ _ bs hbs) | rfl | trivial

/-- Nothing is sent before a request was read. -/
theorem atStart_send {b : Byte} {k : Bool → FlowProg C FlowLoop} (h : AtStart P er (.op (.send b) k)) : False := by
  rcases h with h | h
  · cases h
  · have hreq : FlowRequest er (newProcessRequest ⟨List.replicate 16 0, rfl⟩ 1 [] er).bytes := ⟨_, _, _, by simp, rfl⟩
    exact flowRequest_ne hreq (h _ hreq).1

/-- A step of the server. -/
theorem InvW.server {n roomUp roomDown : Nat} {o : FlowOp} {k : o.Ret C → FlowProg C FlowLoop}
    {q : FlowProg C FlowLoop} {w w' : FlowWorld} {env : FlowEnv C} (henv : EnvGood P env) {r : o.Ret C}
    (h : InvW P er n roomUp roomDown q (.op o k) w)
    (hx : flowExec roomUp roomDown env 1 o w = some (r, w')) : InvW P er n roomUp roomDown q (k r) w' := by
  obtain ⟨st, m, hw, hu, hd, hn, hc⟩ := h
  rcases hc with ⟨-, hp | ⟨e, hp⟩, -⟩ | ⟨hcl, hopen⟩
  · cases hp
  · cases hp
  have hbound := open_bound hopen hu hd
  obtain ⟨k0, mid, rest, out, queue, hnf, hsrv, hq, hlast, hup, hlo, hhi, hcount, hok⟩ := hopen
  refine ⟨st, m, hw, ?_⟩
  cases o with
  | client o =>
    rcases hsrv with ⟨-, -, -, h | h⟩ | ⟨-, h⟩
    · cases h
    · exact (h _ ⟨⟨List.replicate 16 0, rfl⟩, 1, [], by simp, rfl⟩).elim
    · exact h.elim
  | wrote r =>
    rcases hsrv with ⟨-, -, -, h | h⟩ | ⟨-, h⟩
    · cases h
    · exact (h _ ⟨⟨List.replicate 16 0, rfl⟩, 1, [], by simp, rfl⟩).elim
    · exact h.elim
  | gotData r =>
    rcases hsrv with ⟨-, -, -, h | h⟩ | ⟨-, h⟩
    · cases h
    · exact (h _ ⟨⟨List.replicate 16 0, rfl⟩, 1, [], by simp, rfl⟩).elim
    · exact h.elim
  | server o =>
    obtain ⟨rfl, rfl⟩ := Prod.mk.inj (Option.some.inj hx)
    refine ⟨hu, hd, hn, .inr ⟨hcl, k0, mid, rest, out, queue, hnf, ?_, hq, hlast, hup, hlo, hhi, hcount, hok⟩⟩
    rcases hsrv with ⟨h1, h2, h3, h | h⟩ | ⟨h1, h⟩
    · cases h
    · exact .inl ⟨h1, h2, h3, .inr fun req hreq => h req hreq _ (flowGood_answer henv o)⟩
    · exact .inr ⟨h1, h _ (flowGood_answer henv o)⟩
  | hangUp =>
    obtain ⟨rfl, rfl⟩ := Prod.mk.inj (Option.some.inj hx)
    refine ⟨hu, hd, hn, .inl ⟨rfl, ?_, fun her => ?_⟩⟩
    · rcases hsrv with ⟨-, -, -, h | h⟩ | ⟨-, h⟩
      · cases h
      · exact h _ ⟨⟨List.replicate 16 0, rfl⟩, 1, [], by simp, rfl⟩
      · exact h
    · have h1 := hbound her
      have h2 := Sending.ready_le st
      show w.oks + _ ≤ _
      omega
  | send b =>
    rcases hsrv with ⟨-, -, -, h⟩ | ⟨hmid, hrest, hpre, h⟩
    · exact (atStart_send h).elim
    · simp only [flowExec, if_neg (show ¬ (1 : Nat) = 0 by omega)] at hx
      split at hx
      · rename_i hroom
        obtain ⟨rfl, rfl⟩ := Prod.mk.inj (Option.some.inj hx)
        refine ⟨hu, by simp; omega, hn, .inr ⟨hcl, k0, mid, rest, out ++ [b], queue, hnf, .inr ⟨hmid, h⟩, hq, hlast, hup,
          fun her => ?_, fun R hR => ?_, hcount, hok⟩⟩
        · have := hlo her
          simp only [List.length_append, List.length_singleton]
          omega
        · have := hhi R hR
          simp only [List.length_append, List.length_singleton]
          omega
      · cases hx
  | recv =>
    simp only [flowExec, if_neg (show ¬ (1 : Nat) = 0 by omega)] at hx
    split at hx
    · rename_i b up hb
      obtain ⟨rfl, rfl⟩ := Prod.mk.inj (Option.some.inj hx)
      rw [hb] at hup hu
      simp only [List.length_cons] at hu
      rcases hsrv with ⟨rfl, rfl, rfl, h | h⟩ | ⟨hmid, rfl, b', rest', rfl, h⟩
      · cases h
      · cases queue with
        | nil => simp at hup
        | cons req queue =>
          obtain ⟨-, b', req', hb', h'⟩ := h req (hq req List.mem_cons_self)
          subst hb'
          simp only [List.cons_append, List.nil_append, List.flatten_cons, List.cons.injEq] at hup
          obtain ⟨rfl, hup⟩ := hup
          refine ⟨by show up.length ≤ _; omega, hd, hn, .inr ⟨hcl, k0, 1, req', [], queue, hnf, .inr ⟨rfl, h'⟩,
            fun r hr => hq r (List.mem_cons_of_mem _ hr), ?_, hup, hlo, hhi, ?_, ?_⟩⟩
          · rcases hlast with h | ⟨q, l, h, hl⟩
            · cases h
            · cases q with
              | nil =>
                simp only [List.nil_append, List.cons.injEq] at h
                exact .inl h.2
              | cons x q =>
                simp only [List.cons_append, List.cons.injEq] at h
                exact .inr ⟨q, l, h.2, hl⟩
          · simp only [List.length_cons] at hcount; omega
          · have : ({ w with up := up } : FlowWorld).oks = w.oks := rfl
            simp only [List.length_cons] at hok; omega
      · simp only [List.cons_append, List.cons.injEq] at hup
        obtain ⟨rfl, hup⟩ := hup
        exact ⟨by show up.length ≤ _; omega, hd, hn, .inr ⟨hcl, k0, mid, rest', [], queue, hnf, .inr ⟨hmid, h⟩, hq, hlast,
          hup, hlo, hhi, hcount, hok⟩⟩
    · cases hx

theorem flowReply_pos {out : Bytes} (h : FlowReply C P true out) : 0 < out.length := by
  rcases h with ⟨h, -⟩ | ⟨code, text, -, rfl⟩ | ⟨counter, key, nonce, bs, -, rfl⟩
  · cases h
  · simp [ErrorResponse.bytes, newErrorResponse, ResponseCommon.bytes]
  · simp [ProcessResponse.bytes, newProcessResponse, ResponseCommon.bytes]

/-- The server begins its next pass. -/
theorem InvW.loop {M : Manager C} (hM : M.Passive) (host : Except Err Bytes) {n roomUp roomDown : Nat} {l : FlowLoop}
    {q : FlowProg C FlowLoop} {w : FlowWorld} (h : InvW P er n roomUp roomDown q (.ret l) w) :
    InvW P er n roomUp roomDown q (flowBody M host l) w := by
  obtain ⟨st, m, hw, hu, hd, hn, hc⟩ := h
  refine ⟨st, m, hw, hu, hd, hn, ?_⟩
  rcases hc with ⟨hcl, hp | ⟨e, hp⟩, hk⟩ | ⟨hcl, k0, mid, rest, out, queue, hnf, hsrv, hq, hlast, hup, hlo, hhi, hcount, hok⟩
  · cases hp
    exact .inl ⟨hcl, .inl rfl, hk⟩
  · cases hp
  · have hstart : AtStart P er (flowBody M host .serving) := .inr fun req hreq => pass_serverPass hM host hreq
    rcases hsrv with ⟨rfl, rfl, rfl, h⟩ | ⟨rfl, hl, rfl, hout⟩
    · have hl : l = .serving := by
        rcases h with h | h
        · exact Prog.ret.inj h
        · exact (h _ ⟨⟨List.replicate 16 0, rfl⟩, 1, [], by simp, rfl⟩).1
      subst hl
      exact .inr ⟨hcl, k0, 0, [], [], queue, hnf, .inl ⟨rfl, rfl, rfl, hstart⟩, hq, hlast, hup, hlo, hhi, hcount, hok⟩
    · subst hl
      refine .inr ⟨hcl, k0 + 1, 0, [], [], queue, hnf, .inl ⟨rfl, rfl, rfl, hstart⟩, hq, hlast, hup, fun her => ?_,
        fun R hR => ?_, by omega, by omega⟩
      · subst her
        have h1 := hlo rfl
        have h2 := flowReply_pos hout
        simp only [List.length_nil]
        omega
      · have h1 := hhi R hR
        have h2 := hR out hout
        simp only [List.length_nil]
        rw [Nat.mul_add]
        omega

end

end Goe2ee
