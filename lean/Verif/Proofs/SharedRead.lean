import Verif.Proofs.SharedClient
import Verif.Proofs.Safe

/-!
# A client used by several goroutines: one waits in `Read` while another writes
-/

set_option autoImplicit false

namespace Goe2ee

/-- Effects of `Read`. -/
def DOp.ofRead : DOp → Prop
  | .setReadDeadline | .loadLast | .bufLen | .bufRead _ | .bufWrite _ => True
  | .connRead k => 0 < k
  | _ => False

/-- Effects of `Write`. -/
def DOp.ofWrite : DOp → Prop
  | .setWriteDeadline | .addCounter | .storeLast _ | .aead _ _ _ | .connWrite _ => True
  | _ => False

theorem uses_readFullFrom : ∀ (fuel r : Nat) (acc : Bytes), Uses (S := DSig) DOp.ofRead (readFullFrom fuel r acc)
  | fuel, 0, acc => by cases fuel <;> trivial
  | 0, r + 1, acc => trivial
  | fuel + 1, r + 1, acc => by
    refine ⟨Nat.succ_pos r, fun got => ?_⟩
    show Uses _ (if _ then _ else _)
    split
    · trivial
    · rcases got with ⟨bs, _ | e⟩
      · exact uses_readFullFrom fuel _ _
      · trivial

theorem uses_copyFrom : ∀ (fuel r : Nat) (acc : Bytes), Uses (S := DSig) DOp.ofRead (copyFrom fuel r acc)
  | fuel, 0, acc => by cases fuel <;> trivial
  | 0, r + 1, acc => trivial
  | fuel + 1, r + 1, acc => by
    refine ⟨Nat.succ_pos r, fun got => ?_⟩
    rcases got with ⟨bs, _ | e⟩
    · exact uses_copyFrom fuel _ _
    · cases e <;> trivial

theorem uses_onSharedConn {α : Type} (p : RProg α) : Uses (S := DSig) DOp.ofRead (onSharedConn p) := by
  induction p with
  | ret a => trivial
  | panic m => trivial
  | op o k ih =>
    refine Uses.bind (p := sharedReads o) ?_ fun r => ih r
    cases o with
    | alloc n => trivial
    | readFull n => exact uses_readFullFrom _ _ _
    | copyLimit n => exact uses_copyFrom _ _ _

theorem uses_sharedReadBuffer (n : Nat) : Uses (S := DSig) DOp.ofRead (sharedReadBuffer n) := by
  refine ⟨trivial, fun got => ?_⟩
  rcases got with ⟨bs, _ | e⟩
  · exact ⟨trivial, fun _ => trivial⟩
  · trivial

theorem uses_sharedRead (C : Crypto) (c : Client) (n : Nat) : Uses (S := DSig) DOp.ofRead (sharedRead C c n) := by
  refine Uses.bind ?_ fun r => ?_
  · split
    · exact ⟨trivial, fun _ => trivial⟩
    · trivial
  · cases r with
    | some e => trivial
    | none =>
      refine ⟨trivial, fun (len : Nat) => ?_⟩
      show Uses _ (if len > 0 then _ else _)
      split
      · exact uses_sharedReadBuffer n
      · refine (uses_onSharedConn _).bind fun parsed => ?_
        cases parsed with
        | error e => trivial
        | ok common =>
          show Uses _ (if _ then _ else _)
          split
          · refine (uses_onSharedConn _).bind fun parsed => ?_
            cases parsed <;> trivial
          · refine (uses_onSharedConn _).bind fun parsed => ?_
            cases parsed with
            | error e => trivial
            | ok response =>
              refine ⟨trivial, fun (last : BitVec 64) => ?_⟩
              show Uses _ (if response.counter ≠ last then _ else _)
              split
              · trivial
              · split
                · trivial
                · split
                  · trivial
                  · refine Uses.bind ?_ fun nonce => ?_
                    · rename_i gcm _
                      cases nonce directionServerToClient response.counter gcmNonceSize <;> trivial
                    · split
                      · trivial
                      · exact ⟨trivial, fun _ => uses_sharedReadBuffer n⟩

theorem uses_sharedWrite (C : Crypto) (c : Client) (p : Bytes) :
    Uses (S := DSig) DOp.ofWrite (sharedWrite C c p) := by
  refine Uses.bind ?_ fun r => ?_
  · split
    · exact ⟨trivial, fun _ => trivial⟩
    · trivial
  · cases r with
    | some e => trivial
    | none =>
      show Uses _ (match c.session with | none => _ | some _ => _)
      split
      · trivial
      · split
        · trivial
        · refine ⟨trivial, fun (counter : BitVec 64) => ?_⟩
          show Uses _ (if counter = 0 then _ else _)
          split
          · trivial
          · refine ⟨trivial, fun _ => Uses.bind ?_ fun nonce => ⟨trivial, fun _ => ⟨trivial, fun _ => trivial⟩⟩⟩
            cases nonce directionClientToServer counter gcmNonceSize <;> trivial

/-- A call of `Read` in progress. -/
def Reading (n : Nat) : DProg (List CCall) → Prop
  | .ret _ => False
  | .panic _ => True
  | .op (.returned call _ _) k => call = .read n ∧ k () = .ret []
  | .op o k => o.ofRead ∧ ∀ r, Reading n (k r)

theorem reading_bind {α : Type} {n : Nat} {p : DProg α} {q : α → DProg (List CCall)}
    (hp : Uses (S := DSig) DOp.ofRead p) (hq : ∀ a, Reading n (q a)) : Reading n (p.bind q) := by
  induction p with
  | ret a => exact hq a
  | panic m => trivial
  | op o k ih => cases o <;> first | exact hp.1.elim | exact ⟨hp.1, fun r => ih r (hp.2 r)⟩

theorem reading_start (C : Crypto) (c : Client) (n : Nat) : Reading n (sharedCalls C c [.read n]) :=
  reading_bind (uses_sharedRead C c n) fun _ => ⟨rfl, rfl⟩

theorem Reading.op {n : Nat} {o : DOp} {k : o.Ret → DProg (List CCall)} (h : Reading n (.op o k))
    (ho : ∀ call d e, o ≠ .returned call d e) : o.ofRead ∧ ∀ r, Reading n (k r) := by
  cases o <;> first | exact h | exact absurd rfl (ho _ _ _)

/-- A call of `Read` that looks at `lastSentCounter` only after having read from the connection. -/
def NoLoad : DProg (List CCall) → Prop
  | .op .loadLast _ => False
  | .op (.connRead _) _ => True
  | .op _ k => ∀ r, NoLoad (k r)
  | _ => True

theorem noLoad_readBuffer (n : Nat) :
    NoLoad ((sharedReadBuffer n).bind fun r => .op (.returned (.read n) r.1 r.2) fun _ => .ret []) := by
  intro got
  rcases got with ⟨bs, _ | e⟩
  · intro left r
    trivial
  · intro r
    trivial

theorem noLoad_start (C : Crypto) (c : Client) (n : Nat) : NoLoad (sharedCalls C c [.read n]) := by
  rw [sharedCalls, sharedRead]
  by_cases h : c.readTimeout > 0
  · rw [if_pos h]
    intro r
    cases r with
    | some e => intro _; trivial
    | none =>
      intro (len : Nat)
      cases len with
      | zero => trivial
      | succ m => exact noLoad_readBuffer n
  · rw [if_neg h]
    intro (len : Nat)
    cases len with
    | zero => trivial
    | succ m => exact noLoad_readBuffer n

/-- If what is in `rest` still arrives (and whatever else), this call of `Read` returns as expected; `b` is the
client's buffer, `x` its `lastSentCounter`, and once something has arrived `v` is. -/
def Expects (C : Crypto) (v : BitVec 64) (out : CCall × Bytes × Option Err) (p : DProg (List CCall))
    (rest : List Item) (b : Bytes) (x : BitVec 64) : Prop :=
  ∀ (tail : List Item) (w : DWorld), flatten w.input = rest ++ tail → w.buffer = b → w.last = x →
    ∃ w', p.run (soloI C (fun _ => v) {}) w = (.val [], w') ∧ w'.returns = w.returns ++ [(0, out)] ∧
      flatten w'.input = tail

section
variable {C : Crypto} {v : BitVec 64} {out : CCall × Bytes × Option Err}

theorem expects_start (hC : C.Lawful) {c : Client} {n : Nat} {session : ClientSession} {key ct message : Bytes}
    (hs : c.session = some session) (hk : deriveKey C session.secret kdfInfo aesKeySize = .ok key)
    (hl : ct.length ≤ 2 ^ 30) (ho : C.aeadOpen key (Wire.nonce12 1 v.toNat) ct = some message) (x : BitVec 64) :
    Expects C v (.read n, (readBuffer { c with buffer := message } n).1) (sharedCalls C c [.read n])
      ((Wire.processResponse v.toNat ct).map Sum.inl) [] x := by
  intro tail w h1 h2 h3
  obtain ⟨input, h4, h5⟩ := sharedRead_accepts (f := fun _ => v) (e := {}) (n := n) hC (fun _ => rfl) rfl h2 hs hk
    hl h1 ho
  exact ⟨_, by rw [sharedCalls, Prog.run_bind, h5]; rfl, rfl, h4⟩

theorem Expects.deadline {k : Option Err → DProg (List CCall)} {rest : List Item} {b : Bytes} {x : BitVec 64}
    (h : Expects C v out (.op .setReadDeadline k) rest b x) : Expects C v out (k none) rest b x :=
  fun tail w h1 h2 h3 => h tail w h1 h2 h3

theorem Expects.loadLast {k : BitVec 64 → DProg (List CCall)} {rest : List Item} {b : Bytes} {x : BitVec 64}
    (h : Expects C v out (.op .loadLast k) rest b x) : Expects C v out (k x) rest b x :=
  fun tail w h1 h2 h3 => by subst h3; exact h tail w h1 h2 rfl

theorem Expects.bufLen {k : Nat → DProg (List CCall)} {rest : List Item} {b : Bytes} {x : BitVec 64}
    (h : Expects C v out (.op .bufLen k) rest b x) : Expects C v out (k b.length) rest b x :=
  fun tail w h1 h2 h3 => by subst h2; exact h tail w h1 rfl h3

theorem Expects.bufRead {m : Nat} {k : Bytes × Option Err → DProg (List CCall)} {rest : List Item} {b : Bytes}
    {x : BitVec 64} (h : Expects C v out (.op (.bufRead m) k) rest b x) :
    Expects C v out (k (takeBuffer b m).1) rest (takeBuffer b m).2 x :=
  fun tail w h1 h2 h3 => by
    obtain ⟨w', h4⟩ := h tail { w with buffer := b } h1 rfl h3
    exact ⟨w', by rw [← h4.1]; simp only [Prog.run, soloI, ← h2], h4.2⟩

theorem Expects.bufWrite {bs : Bytes} {k : Unit → DProg (List CCall)} {rest : List Item} {b : Bytes}
    {x : BitVec 64} (h : Expects C v out (.op (.bufWrite bs) k) rest b x) :
    Expects C v out (k ()) rest (b ++ bs) x :=
  fun tail w h1 h2 h3 => by
    obtain ⟨w', h4⟩ := h tail { w with buffer := b } h1 rfl h3
    exact ⟨w', by rw [← h4.1]; simp only [Prog.run, soloI, ← h2], h4.2⟩

theorem readEv_data {bs : Bytes} (h0 : bs ≠ []) {m : Nat} (hm : bs.length ≤ m) (evs : List Ev) :
    readEv (.data bs :: evs) m = ((bs, none), evs) := by
  cases bs with
  | nil => exact absurd rfl h0
  | cons b bs => rw [readEv, if_pos hm, List.take_of_length_le hm]

theorem Expects.connRead {m : Nat} {k : Bytes × Option Err → DProg (List CCall)} {rest : List Item}
    {bs b : Bytes} {x : BitVec 64} (h0 : bs ≠ []) (hm : bs.length ≤ m)
    (h : Expects C v out (.op (.connRead m) k) (bs.map Sum.inl ++ rest) b x) :
    Expects C v out (k (bs, none)) rest b v :=
  fun tail w h1 h2 h3 => by
    obtain ⟨w', h4⟩ := h tail { w with input := .data bs :: w.input, last := x }
      (by simp [flatten, h1]) h2 rfl
    refine ⟨w', ?_, h4.2⟩
    rw [← h4.1]
    simp only [Prog.run, soloI, readEv_data h0 hm]
    rw [← h3]

/-- Events that deliver these octets and errors. -/
def unflatten : List Item → List Ev
  | [] => []
  | .inl b :: rest => .data [b] :: unflatten rest
  | .inr e :: rest => .fail e :: unflatten rest

theorem flatten_unflatten : ∀ rest : List Item, flatten (unflatten rest) = rest
  | [] => rfl
  | .inl b :: rest => congrArg _ (flatten_unflatten rest)
  | .inr e :: rest => congrArg _ (flatten_unflatten rest)

theorem Expects.returned {call : CCall} {d : Bytes} {er : Option Err} {k : Unit → DProg (List CCall)}
    {rest : List Item} {b : Bytes} {x : BitVec 64} (hk : k () = .ret [])
    (h : Expects C v out (.op (.returned call d er) k) rest b x) : out = (call, d, er) := by
  obtain ⟨w', h1, h2, -⟩ := h [] ⟨0, x, b, unflatten rest, [], [], [], []⟩
    (by rw [List.append_nil]; exact flatten_unflatten rest) rfl rfl
  simp only [Prog.run, soloI, hk] at h1
  cases h1
  simpa using h2.symm

theorem Expects.panic {m : String} {rest : List Item} {b : Bytes} {x : BitVec 64}
    (h : Expects C v out (.panic m) rest b x) : False := by
  obtain ⟨w', h1, -⟩ := h [] ⟨0, x, b, unflatten rest, [], [], [], []⟩
    (by rw [List.append_nil]; exact flatten_unflatten rest) rfl rfl
  cases h1

/-- Reading never gives input back. -/
theorem solo_input {f : BitVec 64 → BitVec 64} {e : DEnv} {n : Nat} {p : DProg (List CCall)} (hp : Reading n p)
    (w : DWorld) :
    (flatten (p.run (soloI C f e) w).2.input).length ≤ (flatten w.input).length := by
  induction p generalizing w with
  | ret a => exact hp.elim
  | panic m => exact Nat.le_refl _
  | op o k ih =>
    cases o with
    | returned call d er =>
      have h : k () = .ret [] := hp.2
      have h' : (Prog.op (S := DSig) (.returned call d er) k).run (soloI C f e) w =
          (k ()).run (soloI C f e) { w with returns := w.returns ++ [(0, call, d, er)] } := rfl
      rw [h', h]
      exact Nat.le_refl _
    | connRead m =>
      refine Nat.le_trans (ih _ (hp.2 _) _) ?_
      rcases readEv_spec w.input m hp.1 with ⟨h1, h2⟩ | ⟨e, evs, h1, h2⟩ | ⟨bs, evs, -, -, h1, h2⟩
      · simp [soloI, h2, flatten]
      · simp [soloI, h2, h1]
      · simp [soloI, h2, h1]
    | _ => first | exact hp.1.elim | exact ih _ (hp.2 _) _

/-- A call of `Read` does not want more than its reply. -/
theorem Expects.rest_ne {n m : Nat} {k : Bytes × Option Err → DProg (List CCall)} {b : Bytes} {x : BitVec 64}
    (hp : Reading n (.op (.connRead m) k)) (h : Expects C v out (.op (.connRead m) k) [] b x) : False := by
  obtain ⟨w', h1, -, h3⟩ := h [.inr .eof] ⟨0, x, b, [.fail .eof], [], [], [], []⟩ rfl rfl rfl
  have := solo_input (C := C) (f := fun _ => v) (e := {}) (hp.2 ([], some .eof))
    ⟨0, v, b, [], [], [], [], []⟩
  rw [show (k ([], some Err.eof)).run (soloI C (fun _ => v) {}) ⟨0, v, b, [], [], [], [], []⟩ = _ from h1, h3] at this
  simp [flatten] at this

end

/-- How far a call of `Write` has got. -/
inductive WPhase where
  | before
  | added (counter : BitVec 64)
  | stored
  | written

/-- The order of the effects of `Write`. -/
def writeAuto (p : Bytes) : Auto DSig WPhase where
  pre o g := match o, g with
    | .setWriteDeadline, .before => True
    | .addCounter, .before => True
    | .storeLast x, .added y => x = y
    | .aead _ _ _, .stored => True
    | .connWrite _, .stored => True
    | .returned call _ _, _ => call = .write p
    | _, _ => False
  next o r g := match o, r with
    | .addCounter, r => .added r
    | .storeLast _, _ => .stored
    | .connWrite _, _ => .written
    | _, _ => g

/-- Between calls. -/
def Idle (p : Bytes) (l : List CCall) (g : WPhase) : Prop := l = [] ∨ (l = [.write p] ∧ g = .before)

theorem writing_start (C : Crypto) (c : Client) (p : Bytes) :
    ∀ l g, Idle p l g → SafeE (writeAuto p) (sharedCalls C c l) g (Idle p) fun _ _ => True := by
  intro l g h
  rcases h with rfl | ⟨rfl, rfl⟩
  · exact .inl rfl
  · have hend : ∀ (r : Nat × Option Err) (g : WPhase), SafeE (writeAuto p)
        (.op (.returned (.write p) [] r.2) fun _ => .ret [] : DProg (List CCall)) g (Idle p) fun _ _ => True :=
      fun r g => ⟨rfl, fun _ => .inl rfl⟩
    refine SafeE.bind (SafeE.mono (Q := fun _ _ => True) (E := fun _ _ => True) ?_ (fun r g _ => hend r g)
      fun _ _ h => h)
    refine SafeE.bind (SafeE.mono (Q := fun _ g => g = .before) (E := fun _ _ => True) ?_ (fun r g hg => ?_)
      fun _ _ h => h)
    · split
      · exact ⟨trivial, fun _ => rfl⟩
      · rfl
    · subst hg
      cases r with
      | some e => trivial
      | none =>
        show SafeE _ (match c.session with | none => _ | some _ => _) _ _ _
        split
        · trivial
        · split
          · trivial
          · refine ⟨trivial, fun (counter : BitVec 64) => ?_⟩
            show SafeE _ (if counter = 0 then _ else _) _ _ _
            split
            · trivial
            · refine ⟨rfl, fun _ => ?_⟩
              show SafeE _ _ WPhase.stored _ _
              refine SafeE.bind (SafeE.mono (Q := fun _ g => g = .stored) (E := fun _ _ => True) ?_
                (fun nonce g hg => ?_) fun _ _ h => h)
              · cases nonce directionClientToServer counter gcmNonceSize
                · rfl
                · trivial
              · subst hg
                exact ⟨trivial, fun _ => ⟨trivial, fun _ => trivial⟩⟩

/-- What `Write` has done so far; the counter was `v`. -/
def WPhase.holds (v : BitVec 64) (w : DWorld) : WPhase → Prop
  | .before => w.counter = v ∧ w.writes = []
  | .added x => x = v + 1 ∧ w.writes = []
  | .stored => w.last = v + 1 ∧ w.writes = []
  | .written => w.last = v + 1

/-- `lastSentCounter` has its final value. -/
def WPhase.isStored : WPhase → Prop
  | .stored | .written => True
  | _ => False

/-- The goroutine that reads. -/
inductive ReaderAt (C : Crypto) (v : BitVec 64) (n : Nat) (out : Bytes × Option Err) (reply : List Item) (g : WPhase) :
    DProg (List CCall) → List Item → DWorld → Prop
  | before (w : DWorld) : w.buffer = [] → ReaderAt C v n out reply g (.ret [.read n]) reply w
  | during (p : DProg (List CCall)) (rest : List Item) (w : DWorld) : Reading n p →
      Expects C (v + 1) (.read n, out) p rest w.buffer w.last →
      (¬ g.isStored → NoLoad p ∧ ∀ x, Expects C (v + 1) (.read n, out) p rest w.buffer x) → ReaderAt C v n out reply g p rest w
  | after (rest : List Item) (w : DWorld) : (0, .read n, out) ∈ w.returns → ReaderAt C v n out reply g (.ret []) rest w

/-- One goroutine in `Read`, one in `Write`. -/
def PairInv (C : Crypto) (v : BitVec 64) (n : Nat) (p : Bytes) (out : Bytes × Option Err) (reply : List Item)
    (s : DSys) : Prop :=
  ∃ pr pw g consumed rest, s.threads = [pr, pw] ∧
    SafeE (writeAuto p) pw g (Idle p) (fun _ _ => True) ∧ g.holds v s.world ∧
    reply = consumed ++ rest ∧ flatten s.world.arrived = consumed ++ flatten s.world.input ∧
    ReaderAt C v n out reply g pr rest s.world ∧
    (∀ r ∈ s.world.returns, r = (0, .read n, out) ∨ r.1 = 1 ∧ r.2.1 = .write p)

theorem flatten_append_ev (a b : List Ev) : flatten (a ++ b) = flatten a ++ flatten b := by
  induction a with
  | nil => rfl
  | cons x a ih => cases x <;> simp [flatten, ih]

section
variable {C : Crypto} {v : BitVec 64} {c : Client} {n : Nat} {p : Bytes} {out : Bytes × Option Err}
  {reply : List Item}

theorem ReaderAt.other {g g' : WPhase} {pr : DProg (List CCall)} {rest : List Item} {w w' : DWorld}
    (h : ReaderAt C v n out reply g pr rest w) (hb : w'.buffer = w.buffer) (hg : ¬ g'.isStored → ¬ g.isStored)
    (hl : w'.last = w.last ∨ (¬ g.isStored)) (hr : ∀ r ∈ w.returns, r ∈ w'.returns) :
    ReaderAt C v n out reply g' pr rest w' := by
  cases h with
  | before _ h1 => exact .before _ (hb.trans h1)
  | during _ _ _ h1 h2 h3 =>
    refine .during _ _ _ h1 ?_ fun h => hb ▸ h3 (hg h)
    rcases hl with hl | hl
    · rw [hb, hl]; exact h2
    · rw [hb]; exact (h3 hl).2 _
  | after _ _ h1 => exact .after _ _ (hr _ h1)

/-- A step of the goroutine that writes. -/
theorem PairInv.writer {s : DSys} (h : PairInv C v n p out reply s) (e : DEnv) :
    PairInv C v n p out reply (Loops.step (sharedCalls C c) (dexec C) s (1, e)) := by
  obtain ⟨pr, pw, g, consumed, rest, h1, h2, h3, h4, h5, h6, h7⟩ := h
  have h8 : s.threads[1]? = some pw := by rw [h1]; rfl
  cases pw with
  | ret l =>
    have : Loops.step (sharedCalls C c) (dexec C) s (1, e) =
        { s with threads := s.threads.set 1 (sharedCalls C c l) } := by simp only [Loops.step, h8]
    rw [this]
    exact ⟨pr, sharedCalls C c l, g, consumed, rest, by rw [h1]; rfl, writing_start C c p l g h2, h3, h4, h5, h6, h7⟩
  | panic m =>
    have : Loops.step (sharedCalls C c) (dexec C) s (1, e) = s := by simp only [Loops.step, h8]
    rw [this]
    exact ⟨pr, .panic m, g, consumed, rest, h1, h2, h3, h4, h5, h6, h7⟩
  | op o k =>
    obtain ⟨hpre, hk⟩ := h2
    have key : ∀ (r : o.Ret) (w' : DWorld), dexec C e 1 o s.world = some (r, w') →
        ((writeAuto p).next o r g).holds v w' → flatten w'.arrived = consumed ++ flatten w'.input →
        ReaderAt C v n out reply ((writeAuto p).next o r g) pr rest w' →
        (∀ r ∈ w'.returns, r = (0, .read n, out) ∨ r.1 = 1 ∧ r.2.1 = .write p) →
        PairInv C v n p out reply (Loops.step (sharedCalls C c) (dexec C) s (1, e)) := by
      intro r w' hd a1 a2 a3 a4
      have : Loops.step (sharedCalls C c) (dexec C) s (1, e) =
          { world := w', threads := s.threads.set 1 (k r) } := by simp only [Loops.step, h8, hd]
      rw [this]
      exact ⟨pr, k r, _, consumed, rest, by rw [h1]; rfl, hk r, a1, h4, a2, a3, a4⟩
    have hin : flatten (s.world.arrived ++ e.arrives) = consumed ++ flatten (s.world.input ++ e.arrives) := by
      rw [flatten_append_ev, flatten_append_ev, h5, List.append_assoc]
    cases o with
    | setWriteDeadline =>
      cases g with
      | before => exact key _ _ rfl h3 hin (h6.other rfl id (.inl rfl) fun _ h => h) h7
      | _ => exact hpre.elim
    | addCounter =>
      cases g with
      | before =>
        exact key _ _ rfl ⟨congrArg (· + 1) h3.1, h3.2⟩ hin (h6.other rfl (fun _ h => h) (.inl rfl) fun _ h => h) h7
      | _ => exact hpre.elim
    | storeLast x =>
      cases g with
      | added y =>
        cases hpre
        exact key _ _ rfl ⟨h3.1, h3.2⟩ hin (h6.other rfl (fun h => absurd trivial h) (.inr id) fun _ h => h) h7
      | _ => exact hpre.elim
    | aead a b d =>
      cases g with
      | stored => exact key _ _ rfl h3 hin (h6.other rfl id (.inl rfl) fun _ h => h) h7
      | _ => exact hpre.elim
    | connWrite bs =>
      cases g with
      | stored => exact key _ _ rfl h3.1 hin (h6.other rfl id (.inl rfl) fun _ h => h) h7
      | _ => exact hpre.elim
    | returned call d er =>
      have hcall : call = .write p := by cases g <;> exact hpre
      refine key () _ rfl (by cases g <;> exact h3) hin (h6.other rfl id (.inl rfl) fun _ h => ?_) fun r hr => ?_
      · exact List.mem_append_left _ h
      · rcases List.mem_append.mp hr with hr | hr
        · exact h7 _ hr
        · cases List.mem_singleton.mp hr
          exact .inr ⟨rfl, hcall⟩
    | _ => cases g <;> exact hpre.elim

/-- The network delivers this reply only, and only once something was sent. -/
def ReplyOnly (reply : List Item) (w : DWorld) : Prop :=
  flatten w.arrived <+: reply ∧ (w.writes = [] → flatten w.arrived = [])

theorem WPhase.holds.stored_of {g : WPhase} {w : DWorld} (h : g.holds v w) (hw : w.writes ≠ []) :
    g.isStored ∧ w.last = v + 1 := by
  cases g with
  | before => exact absurd h.2 hw
  | added x => exact absurd h.2 hw
  | stored => exact absurd h.2 hw
  | written => exact ⟨trivial, h⟩

/-- A step of the goroutine that reads. -/
theorem PairInv.reader {s : DSys} (hstart : ∀ x, Expects C (v + 1) (.read n, out) (sharedCalls C c [.read n]) reply [] x)
    (h : PairInv C v n p out reply s) {e : DEnv} (he : e.deadline = none)
    (hnet : ReplyOnly reply (Loops.step (sharedCalls C c) (dexec C) s (0, e)).world) 
    (hreply : ∃ bs : Bytes, reply = bs.map Sum.inl) :
    PairInv C v n p out reply (Loops.step (sharedCalls C c) (dexec C) s (0, e)) := by
  obtain ⟨pr, pw, g, consumed, rest, h1, h2, h3, h4, h5, h6, h7⟩ := h
  have h8 : s.threads[0]? = some pr := by rw [h1]; rfl
  cases h6 with
  | before _ hb =>
    have : Loops.step (sharedCalls C c) (dexec C) s (0, e) =
        { s with threads := s.threads.set 0 (sharedCalls C c [.read n]) } := by simp only [Loops.step, h8]
    rw [this]
    exact ⟨sharedCalls C c [.read n], pw, g, consumed, reply, by rw [h1]; rfl, h2, h3, h4, h5,
      .during _ _ _ (reading_start C c n) (by rw [hb]; exact hstart _) (fun _ => ⟨noLoad_start C c n, fun x => by rw [hb]; exact hstart _⟩), h7⟩
  | after _ _ hr =>
    have : Loops.step (sharedCalls C c) (dexec C) s (0, e) =
        { s with threads := s.threads.set 0 (sharedCalls C c []) } := by simp only [Loops.step, h8]
    rw [this]
    exact ⟨.ret [], pw, g, consumed, rest, by rw [h1]; rfl, h2, h3, h4, h5, .after _ _ hr, h7⟩
  | during _ _ _ hread hx hall =>
  cases pr with
  | ret l => exact hread.elim
  | panic m => exact hx.panic.elim
  | op o k =>
    have key : ∀ (r : o.Ret) (w' : DWorld) (consumed' rest' : List Item), dexec C e 0 o s.world = some (r, w') →
        g.holds v w' → reply = consumed' ++ rest' → flatten w'.arrived = consumed' ++ flatten w'.input →
        ReaderAt C v n out reply g (k r) rest' w' →
        (∀ r ∈ w'.returns, r = (0, .read n, out) ∨ r.1 = 1 ∧ r.2.1 = .write p) →
        PairInv C v n p out reply (Loops.step (sharedCalls C c) (dexec C) s (0, e)) := by
      intro r w' consumed' rest' hd a1 a0 a2 a3 a4
      have : Loops.step (sharedCalls C c) (dexec C) s (0, e) =
          { world := w', threads := s.threads.set 0 (k r) } := by simp only [Loops.step, h8, hd]
      rw [this]
      exact ⟨k r, pw, _, consumed', rest', by rw [h1]; rfl, h2, a1, a0, a2, a3, a4⟩
    have hin : flatten (s.world.arrived ++ e.arrives) = consumed ++ flatten (s.world.input ++ e.arrives) := by
      rw [flatten_append_ev, flatten_append_ev, h5, List.append_assoc]
    have hw : ∀ w' : DWorld, w'.counter = s.world.counter → w'.last = s.world.last → w'.writes = s.world.writes →
        g.holds v w' := by
      intro w' b1 b2 b3
      cases g <;> simp only [WPhase.holds, b1, b2, b3] <;> exact h3
    cases o with
    | setReadDeadline =>
      refine key e.deadline _ consumed rest rfl (hw _ rfl rfl rfl) h4 hin ?_ h7
      rw [he]
      exact .during _ _ _ (hread.2 _) hx.deadline fun h => ⟨(hall h).1 _, fun x => ((hall h).2 x).deadline⟩
    | loadLast =>
      refine key s.world.last _ consumed rest rfl (hw _ rfl rfl rfl) h4 hin ?_ h7
      exact .during _ _ _ (hread.2 _) hx.loadLast fun h => (hall h).1.elim
    | bufLen =>
      exact key _ _ consumed rest rfl (hw _ rfl rfl rfl) h4 hin
        (.during _ _ _ (hread.2 _) hx.bufLen fun h => ⟨(hall h).1 _, fun x => ((hall h).2 x).bufLen⟩) h7
    | bufRead m =>
      exact key _ _ consumed rest rfl (hw _ rfl rfl rfl) h4 hin
        (.during _ _ _ (hread.2 _) hx.bufRead fun h => ⟨(hall h).1 _, fun x => ((hall h).2 x).bufRead⟩) h7
    | bufWrite bs =>
      exact key _ _ consumed rest rfl (hw _ rfl rfl rfl) h4 hin
        (.during _ _ _ (hread.2 _) hx.bufWrite fun h => ⟨(hall h).1 _, fun x => ((hall h).2 x).bufWrite⟩) h7
    | connRead m =>
      by_cases hempty : flatten (s.world.input ++ e.arrives) = []
      · have : Loops.step (sharedCalls C c) (dexec C) s (0, e) = s := by
          simp only [Loops.step, h8, dexec, if_pos hempty]
        rw [this]
        exact ⟨_, pw, g, consumed, rest, h1, h2, h3, h4, h5, .during _ _ _ hread hx hall, h7⟩
      · have hd : dexec C e 0 (.connRead m) s.world = some ((readEv (s.world.input ++ e.arrives) m).1,
            { s.world with input := (readEv (s.world.input ++ e.arrives) m).2,
                           arrived := s.world.arrived ++ e.arrives }) := by
          simp only [dexec, if_neg hempty]
          rfl
        have hstep : (Loops.step (sharedCalls C c) (dexec C) s (0, e)).world =
            { s.world with input := (readEv (s.world.input ++ e.arrives) m).2,
                           arrived := s.world.arrived ++ e.arrives } := by
          simp only [Loops.step, h8, hd]
        rw [hstep] at hnet
        obtain ⟨hpre, hwr⟩ := hnet
        have hwrites : s.world.writes ≠ [] := by
          intro h
          have := (hwr h)
          rw [hin] at this
          exact hempty (List.append_eq_nil_iff.mp this).2
        obtain ⟨hst, hlast⟩ := h3.stored_of hwrites
        rw [hin, h4, List.prefix_append_right_inj] at hpre
        obtain ⟨more, hmore⟩ := hpre
        rcases readEv_spec (s.world.input ++ e.arrives) m hread.1 with ⟨c1, -⟩ | ⟨er, evs, c1, -⟩ |
          ⟨bs, evs, c0, cm, c1, c2⟩
        · exact absurd c1 hempty
        · obtain ⟨bs, hbs⟩ := hreply
          rw [h4, ← hmore, c1] at hbs
          have : (.inr er : Item) ∈ bs.map Sum.inl := hbs ▸ by simp
          simp at this
        · rw [c2] at hd
          rw [c1] at hin
          rw [c1, List.append_assoc] at hmore
          rw [← hmore] at hx
          refine key _ _ (consumed ++ bs.map Sum.inl) (flatten evs ++ more) hd (hw _ rfl rfl rfl)
            (by rw [h4, ← hmore, List.append_assoc]) (by rw [List.append_assoc]; exact hin)
            (.during _ _ _ (hread.2 _) ?_ fun h => absurd hst h) h7
          exact hlast.symm ▸ hx.connRead c0 cm
    | returned call d er =>
      have hcall : call = .read n := hread.1
      have hout := hx.returned hread.2
      refine key () _ consumed rest rfl (hw _ rfl rfl rfl) h4 hin ?_ fun r hr => ?_
      · rw [hread.2]
        exact .after _ _ (List.mem_append_right _ (by rw [hout]; exact List.mem_singleton.mpr rfl))
      · rcases List.mem_append.mp hr with hr | hr
        · exact h7 _ hr
        · rw [List.mem_singleton.mp hr, hout]
          exact .inl rfl
    | _ => exact hread.1.elim

/-- Effects of a goroutine in `Read` that do not wait. -/
theorem dexec_reading {k : Nat} {o : DOp} {q : o.Ret → DProg (List CCall)} (h : Reading k (.op o q)) (w : DWorld)
    (hin : ∀ m, o = .connRead m → flatten w.input ≠ []) :
    ∃ r w', dexec C {} 0 o w = some (r, w') ∧ w'.arrived = w.arrived ∧ w'.writes = w.writes := by
  cases o with
  | connRead m =>
    have h0 := hin m rfl
    refine ⟨_, _, if_neg (by simpa using h0), ?_, rfl⟩
    exact List.append_nil _
  | returned call d e => exact ⟨_, _, rfl, List.append_nil _, rfl⟩
  | setReadDeadline => exact ⟨_, _, rfl, List.append_nil _, rfl⟩
  | loadLast => exact ⟨_, _, rfl, List.append_nil _, rfl⟩
  | bufLen => exact ⟨_, _, rfl, List.append_nil _, rfl⟩
  | bufRead m => exact ⟨_, _, rfl, List.append_nil _, rfl⟩
  | bufWrite bs => exact ⟨_, _, rfl, List.append_nil _, rfl⟩
  | _ => exact h.1.elim

/-- Once the reply has arrived, the goroutine that reads gets it without waiting any more. -/
theorem PairInv.finishes
    (hstart : ∀ x, Expects C (v + 1) (.read n, out) (sharedCalls C c [.read n]) reply [] x)
    (hreply : ∃ bs : Bytes, reply = bs.map Sum.inl) {s : DSys} (h : PairInv C v n p out reply s)
    (harr : flatten s.world.arrived = reply) (hnet : ReplyOnly reply s.world) :
    ∃ m, (0, .read n, out) ∈ (DSys.run C c s (List.replicate m (0, {}))).world.returns := by
  have during : ∀ (pr : DProg (List CCall)) (s : DSys), s.threads[0]? = some pr → Reading n pr →
      PairInv C v n p out reply s → flatten s.world.arrived = reply → ReplyOnly reply s.world →
      ∃ m, (0, .read n, out) ∈ (DSys.run C c s (List.replicate m (0, {}))).world.returns := by
    intro pr
    induction pr with
    | ret l => intro s h1 h2; exact h2.elim
    | panic m =>
      intro s h1 h2 h3
      obtain ⟨pr, pw, g, consumed, rest, h4, -, -, -, -, h5, -⟩ := h3
      rw [h4] at h1
      cases h1
      cases h5 with
      | during _ _ _ _ hx _ => exact hx.panic.elim
    | op o k ih =>
      intro s h1 h2 h3 harr hnet
      have h3' := h3
      obtain ⟨pr, pw, g, consumed, rest, h4, -, -, h5, h6, h7, -⟩ := h3
      have hpr : pr = .op o k := by rw [h4] at h1; exact Option.some.inj h1
      subst hpr
      have hx : Expects C (v + 1) (.read n, out) (.op o k) rest s.world.buffer s.world.last := by
        cases h7 with
        | during _ _ _ _ hx _ => exact hx
      have hrest : flatten s.world.input = rest := by
        rw [harr, h5] at h6
        exact (List.append_cancel_left h6).symm
      obtain ⟨r, w', hd, ha, hwr⟩ := dexec_reading (C := C) h2 s.world (fun m hm h => by
        subst hm
        rw [h] at hrest
        subst hrest
        exact hx.rest_ne h2)
      have hs : Loops.step (sharedCalls C c) (dexec C) s (0, {}) =
          { world := w', threads := s.threads.set 0 (k r) } := by simp only [Loops.step, h1, hd]
      have hnet' : ReplyOnly reply w' := by
        rw [ReplyOnly, ha, hwr]; exact hnet
      have hinv := h3'.reader (c := c) (e := {}) hstart rfl (by rw [hs]; exact hnet') hreply
      have hthread : (Loops.step (sharedCalls C c) (dexec C) s (0, {})).threads[0]? = some (k r) := by
        rw [hs, h4]; rfl
      by_cases hret : ∃ call d e, o = .returned call d e
      · obtain ⟨call, d, e, rfl⟩ := hret
        refine ⟨1, ?_⟩
        show (0, CCall.read n, out) ∈ (Loops.step (sharedCalls C c) (dexec C) s (0, {})).world.returns
        have hk : k () = .ret [] := h2.2
        have hout := hx.returned hk
        have : w'.returns = s.world.returns ++ [(0, call, d, e)] := by
          simp only [dexec, Option.some.injEq] at hd
          exact (congrArg (fun x => x.2.returns) hd).symm
        rw [hs]
        show _ ∈ w'.returns
        rw [this, hout]
        exact List.mem_append_right _ (List.mem_singleton.mpr rfl)
      · have hop := h2.op fun call d e he => hret ⟨call, d, e, he⟩
        obtain ⟨m, hm⟩ := ih r _ hthread (hop.2 r) hinv (by rw [hs]; exact ha ▸ harr) (by rw [hs]; exact hnet')
        exact ⟨m + 1, hm⟩
  have h' := h
  obtain ⟨pr, pw, g, consumed, rest, h1, -, -, -, -, h6, -⟩ := h
  have h8 : s.threads[0]? = some pr := by rw [h1]; rfl
  cases h6 with
  | after _ _ hr => exact ⟨0, hr⟩
  | during _ _ _ hread _ _ => exact during pr s h8 hread h' harr hnet
  | before _ hb =>
    have hs : Loops.step (sharedCalls C c) (dexec C) s (0, {}) =
        { s with threads := s.threads.set 0 (sharedCalls C c [.read n]) } := by simp only [Loops.step, h8]
    have hinv := h'.reader (c := c) (e := {}) hstart rfl (by rw [hs]; exact hnet) hreply
    obtain ⟨m, hm⟩ := during (sharedCalls C c [.read n]) _ (by rw [hs, h1]; rfl) (reading_start C c n) hinv
      (by rw [hs]; exact harr) (by rw [hs]; exact hnet)
    exact ⟨m + 1, hm⟩

end

end Goe2ee
