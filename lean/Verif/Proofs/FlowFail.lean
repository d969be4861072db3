import Verif.Proofs.FlowExchange

/-!
# When `Write` fails
-/

set_option autoImplicit false

namespace Goe2ee

section
variable {C : Crypto}

/-- The operating system accepts deadlines, and the counter of the session has not wrapped around. -/
def FlowEnv.Benign (env : FlowEnv C) : Prop :=
  env.client .setWriteDeadline = none ∧ ∀ r, env.client (.addCounter r) ≠ 0#64

/-- The same for single effects. -/
def BenignRet : (o : COp) → o.Ret C → Prop
  | .setWriteDeadline, (r : Option Err) => r = none
  | .addCounter _, (r : BitVec 64) => r ≠ 0
  | _, _ => True

theorem benign_answer {env : FlowEnv C} (h : env.Benign) (o : COp) : BenignRet o (clientAnswer env o) := by
  cases o <;> first | exact h.1 | exact h.2 _ | trivial

/-- `Write` reports an error only after the connection was found closed (`x`). -/
def FailsClosed : FlowProg C FlowLoop → Bool → Prop
  | .ret l, _ => l = .ended
  | .panic _, _ => True
  | .op (.send _) k, x => FailsClosed (k true) x ∧ FailsClosed (k false) true
  | .op (.client o) k, x => ∀ r, BenignRet o r → FailsClosed (k r) x
  | .op (.wrote r) k, x => (r.2 = none ∨ x = true) ∧ FailsClosed (k ()) x
  | .op .recv k, x => ∀ r, FailsClosed (k r) x
  | .op (.gotData _) k, x => FailsClosed (k ()) x
  | .op .hangUp _, _ => False
  | .op (.server _) _, _ => False

theorem failsClosed_sendAll {f : Nat × Option Err → FlowProg C FlowLoop} {x : Bool} (bs : Bytes) (n : Nat)
    (hs : ∀ r : Nat × Option Err, r.2 = none → FailsClosed (f r) x)
    (hf : ∀ r : Nat × Option Err, FailsClosed (f r) true) : FailsClosed ((sendAll bs n).bind f) x := by
  induction bs generalizing n with
  | nil => exact hs _ rfl
  | cons b bs ih => exact ⟨ih (n + 1), hf _⟩

theorem failsClosed_recvAll {f : Bytes × Bool → FlowProg C FlowLoop} {x : Bool} (hf : ∀ r, FailsClosed (f r) x)
    (n : Nat) (acc : Bytes) : FailsClosed ((recvAll n acc).bind f) x := by
  induction n generalizing acc with
  | zero => exact hf _
  | succ n ih =>
    intro (r : Option Byte)
    cases r with
    | none => exact hf _
    | some b => exact ih _

theorem failsClosed_parser {α : Type} {p : RProg α} {f : α → FlowProg C FlowLoop} {x : Bool}
    (hf : ∀ a, FailsClosed (f a) x) : FailsClosed ((parserFlow p).bind f) x := by
  induction p with
  | ret a => exact hf a
  | panic e => trivial
  | op o k ih =>
    show FailsClosed (((flowRead o).bind fun r => parserFlow (k r)).bind f) x
    rw [Prog.bind_assoc]
    cases o with
    | alloc n => exact ih _
    | readFull n =>
      show FailsClosed (((recvAll n []).bind _).bind _) x
      rw [Prog.bind_assoc]
      exact failsClosed_recvAll (fun r => ih _) _ _
    | copyLimit n =>
      show FailsClosed (((recvAll n.toNat []).bind _).bind _) x
      rw [Prog.bind_assoc]
      exact failsClosed_recvAll (fun r => ih _) _ _

/-- A client whose keys can be derived. -/
def UsableClient (C : Crypto) (c : Client) : Prop := ∃ s gcm, c.session = some s ∧ newGCM C s.secret = .ok gcm

theorem failsClosed_write (c : Client) (hc : UsableClient C c) (p : Bytes)
    {f : (Nat × Option Err) × Client → FlowProg C FlowLoop} {x : Bool}
    (hs : ∀ r c', UsableClient C c' → r.2 = none → FailsClosed (f (r, c')) x)
    (hf : ∀ r c', UsableClient C c' → FailsClosed (f (r, c')) true) :
    FailsClosed ((clientFlow (c.write p)).bind f) x := by
  obtain ⟨session, gcm, hsess, hgcm⟩ := id hc
  rw [Client.write, clientFlow_bind, Prog.bind_assoc]
  have hrest : FailsClosed ((clientFlow (match c.session with
      | none => (.panic "nil pointer dereference" : CProg C ((Nat × Option Err) × Client))
      | some session =>
      match newGCM C session.secret with
      | .error e => .ret ((0, some e), c)
      | .ok gcm =>
      .op (.addCounter session.sendCounter) fun (counter : BitVec 64) =>
      if counter = 0 then .ret ((0, some (.other "message counter exhausted")), c)
      else
      (ofClientRes (nonce directionClientToServer counter gcmNonceSize)).bind fun nonce =>
      .op (.aead gcm nonce p) fun (sealed : Bytes) =>
      .op (.write (newProcessRequest session.id counter sealed c.expectReply).bytes)
        fun (r : Nat × Option Err) =>
      .ret (r, { c with lastSentCounter := counter }))).bind f) x := by
    simp only [hsess, hgcm]
    intro (counter : BitVec 64) (hcounter : counter ≠ 0)
    show FailsClosed (Prog.bind (clientFlow (if counter = 0 then _ else _)) f) x
    rw [if_neg hcounter]
    intro sealed _
    refine Eq.mpr (congrArg (FailsClosed · x) (Prog.bind_assoc (S := FlowSig C) (sendAll _ 0) _ f)) ?_
    exact failsClosed_sendAll _ _ (fun r hr => hs r _ ⟨session, gcm, rfl, hgcm⟩ hr)
      (fun r => hf r _ ⟨session, gcm, rfl, hgcm⟩)
  split
  · intro (r : Option Err) (hr : r = none)
    subst hr
    exact hrest
  · exact hrest

theorem failsClosed_read (c : Client) (hc : UsableClient C c) (n : Nat)
    {f : (Bytes × Option Err) × Client → FlowProg C FlowLoop} {x : Bool}
    (hf : ∀ r c', UsableClient C c' → FailsClosed (f (r, c')) x) :
    FailsClosed ((clientFlow (c.read n)).bind f) x := by
  have hbuf : ∀ c' : Client, UsableClient C c' → FailsClosed (f (readBuffer c' n)) x := by
    intro c' hc'
    unfold readBuffer
    split
    · exact hf _ _ hc'
    · exact hf _ _ hc'
  rw [read_eq, clientFlow_bind, Prog.bind_assoc]
  have hmain : FailsClosed ((clientFlow (readBody c n)).bind f) x := by
    unfold readBody
    split
    · exact hbuf _ hc
    · rw [clientFlow_bind, Prog.bind_assoc, clientFlow_onConn]
      refine failsClosed_parser fun parsed => ?_
      cases parsed with
      | error e => exact hf _ _ hc
      | ok common =>
        simp only []
        split
        · rw [clientFlow_bind, Prog.bind_assoc, clientFlow_onConn]
          refine failsClosed_parser fun parsed => ?_
          cases parsed with
          | error e => exact hf _ _ hc
          | ok resp => exact hf _ _ hc
        · rw [clientFlow_bind, Prog.bind_assoc, clientFlow_onConn]
          refine failsClosed_parser fun parsed => ?_
          cases parsed with
          | error e => exact hf _ _ hc
          | ok resp =>
            simp only []
            split
            · exact hf _ _ hc
            · obtain ⟨session, gcm, hsess, hgcm⟩ := id hc
              simp only [hsess, hgcm]
              obtain ⟨x, hx⟩ : ∃ x, nonce directionServerToClient resp.counter gcmNonceSize = .val x := ⟨_, rfl⟩
              rw [hx]
              simp only [ofClientRes, Prog.bind]
              split
              · exact hf _ _ hc
              · exact hbuf _ ⟨session, gcm, rfl, hgcm⟩
  split
  · intro (r : Option Err) _
    cases r with
    | some e => exact hf _ _ hc
    | none => exact hmain
  · exact hmain

theorem failsClosed_writeAll (msgs : List Bytes) (c : Client) (hc : UsableClient C c) (x : Bool) :
    FailsClosed (C := C) (writeAll c msgs) x := by
  induction msgs generalizing c x with
  | nil => rfl
  | cons p ps ih =>
    exact failsClosed_write c hc p (fun r c' hc' hr => show FailsClosed (.op (.wrote _) _) _ from ⟨.inl hr, ih c' hc' x⟩)
      fun r c' hc' => show FailsClosed (.op (.wrote _) _) _ from ⟨.inr rfl, ih c' hc' true⟩

theorem failsClosed_exchangeAll (msgs : List Bytes) (c : Client) (hc : UsableClient C c) (x : Bool) :
    FailsClosed (C := C) (exchangeAll c msgs) x := by
  induction msgs generalizing c x with
  | nil => rfl
  | cons p ps ih =>
    have hrest : ∀ (r : Nat × Option Err) (c' : Client) (x : Bool), UsableClient C c' →
        FailsClosed (C := C) (if r.2.isSome then .ret .ended else
          (clientFlow (c'.read wholeReply)).bind fun q => .op (.gotData q.1) fun _ => exchangeAll q.2 ps) x := by
      intro r c' x hc'
      split
      · rfl
      · exact failsClosed_read c' hc' _ fun q c'' hc'' => show FailsClosed (.op (.gotData _) _) _ from ih c'' hc'' x
    exact failsClosed_write c hc p
      (fun r c' hc' hr => show FailsClosed (.op (.wrote _) _) _ from ⟨.inl hr, hrest r c' x hc'⟩)
      fun r c' hc' => show FailsClosed (.op (.wrote _) _) _ from ⟨.inr rfl, hrest r c' true hc'⟩

variable {M : Manager C} {host : Except Err Bytes} {roomUp roomDown : Nat}

/-- The server's program reports nothing on behalf of the client. -/
def ServerOps {α : Type} : FlowProg C α → Prop
  | .ret _ => True
  | .panic _ => True
  | .op (.wrote _) _ => False
  | .op (.gotData _) _ => False
  | .op (.client _) _ => False
  | .op (.send _) k => ∀ r, ServerOps (k r)
  | .op .recv k => ∀ r, ServerOps (k r)
  | .op .hangUp k => ∀ r, ServerOps (k r)
  | .op (.server _) k => ∀ r, ServerOps (k r)

theorem ServerOps.bind {α β : Type} {p : FlowProg C α} {f : α → FlowProg C β} (hp : ServerOps p)
    (hf : ∀ a, ServerOps (f a)) : ServerOps (p.bind f) := by
  induction p with
  | ret a => exact hf a
  | panic m => trivial
  | op o k ih =>
    cases o with
    | send b => exact fun r => ih r (hp r)
    | recv => exact fun r => ih r (hp r)
    | hangUp => exact fun r => ih r (hp r)
    | server o => exact fun r => ih r (hp r)
    | client o => exact hp.elim
    | wrote r => exact hp.elim
    | gotData r => exact hp.elim

theorem serverOps_sendAll (bs : Bytes) (n : Nat) : ServerOps (C := C) (sendAll bs n) := by
  induction bs generalizing n with
  | nil => trivial
  | cons b bs ih =>
    intro (ok : Bool)
    cases ok with
    | true => exact ih _
    | false => trivial

theorem serverOps_recvAll (n : Nat) (acc : Bytes) : ServerOps (C := C) (recvAll n acc) := by
  induction n generalizing acc with
  | zero => trivial
  | succ n ih =>
    intro (r : Option Byte)
    cases r with
    | none => trivial
    | some b => exact ih _

theorem serverOps_flow {α : Type} (p : SProg C α) : ServerOps (serverFlow p) := by
  induction p with
  | ret a => trivial
  | panic m => trivial
  | op o k ih =>
    refine ServerOps.bind ?_ fun r => ih r
    cases o with
    | read o =>
      cases o with
      | alloc n => trivial
      | readFull n => exact ServerOps.bind (serverOps_recvAll _ _) fun _ => trivial
      | copyLimit n => exact ServerOps.bind (serverOps_recvAll _ _) fun _ => trivial
    | write bs => exact serverOps_sendAll _ _
    | _ => exact fun _ => trivial

theorem serverOps_thenHangUp {p : FlowProg C Bool} (hp : ServerOps p) : ServerOps (thenHangUp p) := by
  induction p with
  | ret go =>
    cases go with
    | true => trivial
    | false => exact fun _ => trivial
  | panic m => exact fun _ => trivial
  | op o k ih =>
    cases o with
    | send b => exact fun r => ih r (hp r)
    | recv => exact fun r => ih r (hp r)
    | hangUp => exact fun r => ih r (hp r)
    | server o => exact fun r => ih r (hp r)
    | client o => exact hp.elim
    | wrote r => exact hp.elim
    | gotData r => exact hp.elim

theorem serverOps_body (l : FlowLoop) : ServerOps (flowBody M host l) := by
  cases l with
  | serving => exact serverOps_thenHangUp (serverOps_flow _)
  | ended => trivial

/-- A `Write` that failed found the connection closed. -/
def InvF (q p : FlowProg C FlowLoop) (w : FlowWorld) : Prop :=
  ∃ x, FailsClosed q x ∧ ServerOps p ∧ (x = true → w.closed = true) ∧ (w.failed → w.closed = true)

theorem trace_invF {app : FlowProg C FlowLoop} {σ : Nat → Nat × FlowEnv C} (hσ : ∀ m, (σ m).2.Benign)
    (happ : FailsClosed app false) (m : Nat) :
    InvF (flowTrace M host roomUp roomDown (atStart app) σ m).1 (flowTrace M host roomUp roomDown (atStart app) σ m).2.1
      (flowTrace M host roomUp roomDown (atStart app) σ m).2.2 := by
  refine trace_inv InvF ?_ ?_ ?_ m
  · intro n q p w h
    obtain ⟨x, hq, hp, hx, hw⟩ := h
    cases q with
    | ret l => obtain rfl := hq; exact ⟨x, rfl, hp, hx, hw⟩
    | panic e => exact ⟨x, hq, hp, hx, hw⟩
    | op o k =>
      cases o with
      | send b =>
        cases hc : w.closed with
        | true =>
          rw [turn_client_closed hc]
          exact ⟨true, hq.2, hp, fun _ => hc, hw⟩
        | false =>
          by_cases h : w.up.length < roomUp
          · rw [turn_client_send hc h]
            exact ⟨x, hq.1, hp, hx, hw⟩
          · rw [turn_client_full hc h]
            exact ⟨x, hq, hp, hx, hw⟩
      | recv =>
        cases h : w.down with
        | cons b up => rw [turn_client_recv h]; exact ⟨x, hq _, hp, hx, hw⟩
        | nil =>
          cases hc : w.closed with
          | true => rw [turn_client_over h hc]; exact ⟨x, hq _, hp, hx, hw⟩
          | false => rw [turn_client_empty h hc]; exact ⟨x, hq, hp, hx, hw⟩
      | hangUp => exact hq.elim
      | server o => exact hq.elim
      | client o => exact ⟨x, hq _ (benign_answer (hσ n) o), hp, hx, hw⟩
      | wrote r =>
        refine ⟨x, hq.2, hp, hx, fun hf => ?_⟩
        obtain ⟨r', hr', hne⟩ := hf
        rcases List.mem_append.mp hr' with h | h
        · exact hw ⟨r', h, hne⟩
        · obtain rfl := List.mem_singleton.mp h
          exact hx (hq.1.resolve_left hne)
      | gotData r => exact ⟨x, hq, hp, hx, hw⟩
  · intro n q p w h
    obtain ⟨x, hq, hp, hx, hw⟩ := h
    cases p with
    | ret l => exact ⟨x, hq, serverOps_body l, hx, hw⟩
    | panic e => exact ⟨x, hq, hp, hx, hw⟩
    | op o k =>
      cases o with
      | send b =>
        by_cases h : w.down.length < roomDown
        · rw [turn_server_send h]; exact ⟨x, hq, hp _, hx, hw⟩
        · rw [turn_server_full h]; exact ⟨x, hq, hp, hx, hw⟩
      | recv =>
        cases h : w.up with
        | nil => rw [turn_server_empty h]; exact ⟨x, hq, hp, hx, hw⟩
        | cons b up => rw [turn_server_recv h]; exact ⟨x, hq, hp _, hx, hw⟩
      | hangUp => exact ⟨x, hq, hp _, fun _ => rfl, fun _ => rfl⟩
      | server o => exact ⟨x, hq, hp _, hx, hw⟩
      | client o => exact hp.elim
      | wrote r => exact hp.elim
      | gotData r => exact hp.elim
  · exact ⟨false, happ, trivial, (fun h => by cases h), fun ⟨r, h, _⟩ => by cases h⟩

end

end Goe2ee
