import Verif.Model.SlowPeer
import Verif.Props.Costs
import Verif.Props.Once

/-!
# C176: a client that takes its time

The read timeout limits the time the server waits for a request, however the octets are spread over it.
What happens when it expires depends on the write timeout.
-/

set_option autoImplicit false

namespace Goe2ee

section
variable {C : Crypto}

/-- **C176**: the server waits for the octets of one request no longer than its read timeout, and ends
the connection if they have not arrived by then. -/
def C176_claim : Prop :=
  ∀ (C : Crypto) (readTimeout writeTimeout : Nat), 0 < readTimeout → 0 < writeTimeout →
    ∀ (ans : Nat → Answer C) (host : Except Err Bytes) (s : SlowState), s.seq.conn.buffered = false →
    s.late = false →
    let r := (connPass (inMemory C) host).run (slowI C readTimeout writeTimeout ans) s
    r.2.waited ≤ s.waited + readTimeout + 1 ∧ (r.2.late = true → r.1 = .val false)

/-! ## How long -/

/-- Reading does not end before it begins, and if it takes time, not later than just after the deadline. -/
structure SlowConn.After (s s' : SlowConn) : Prop where
  readBy : s'.readBy = s.readBy
  mono : s.now ≤ s'.now
  bound : s'.now ≤ max s.now (s.readBy + 1)

theorem SlowConn.After.refl (s : SlowConn) : s.After s := ⟨rfl, Nat.le_refl _, Nat.le_max_left _ _⟩

theorem SlowConn.After.trans {s s' s'' : SlowConn} (h : s.After s') (h' : s'.After s'') : s.After s'' := by
  have h1 := h.bound
  have h2 := h'.bound
  rw [h.readBy] at h2
  exact ⟨h'.readBy.trans h.readBy, Nat.le_trans h.mono h'.mono, by omega⟩

theorem readSlow_after (s : SlowConn) (k : Nat) : s.After (readSlow s k).2 := by
  unfold readSlow
  split
  · exact ⟨rfl, Nat.le_refl _, Nat.le_max_left _ _⟩
  · split
    · exact ⟨rfl, by dsimp only; omega, by dsimp only; omega⟩
    · split
      · exact ⟨rfl, by dsimp only; omega, by dsimp only; omega⟩
      · exact ⟨rfl, by dsimp only; omega, by dsimp only; omega⟩

theorem readFullLoop_after (fuel remaining : Nat) (acc : Bytes) (s : SlowConn) :
    s.After (readFullLoop readSlow fuel remaining acc s).2 := by
  induction fuel generalizing remaining acc s with
  | zero => cases remaining <;> exact .refl s
  | succ fuel ih =>
    cases remaining with
    | zero => exact .refl s
    | succ r =>
      simp only [readFullLoop]
      have h := readSlow_after s (r + 1)
      split
      · exact h
      · split
        · exact h.trans (ih _ _ _)
        · exact h

theorem copyLoop_after (fuel remaining : Nat) (acc : Bytes) (s : SlowConn) :
    s.After (copyLoop readSlow fuel remaining acc s).2 := by
  induction fuel generalizing remaining acc s with
  | zero => cases remaining <;> exact .refl s
  | succ fuel ih =>
    cases remaining with
    | zero => exact .refl s
    | succ r =>
      simp only [copyLoop]
      have h := readSlow_after s (r + 1)
      split
      · exact h.trans (ih _ _ _)
      · exact h
      · exact h

theorem readInterp_after (o : ROp) (s : SlowConn) : s.After (readInterp readSlow o s).2 := by
  cases o with
  | alloc n => exact .refl s
  | readFull n => exact readFullLoop_after _ _ _ _
  | copyLimit n => exact copyLoop_after _ _ _ _

/-- Effects other than setting deadlines leave the connection's write deadline alone, and the clock does not
go back. -/
theorem exec_clock (timeout : Nat) (a : Answer C) (o : SOp) (ho : o ≠ .setDeadlines) (c : Conn) (w : World) :
    w.now ≤ (exec C timeout a o (c, w)).2.2.now ∧
      (exec C timeout a o (c, w)).2.1.deadline = c.deadline ∧
      (exec C timeout a o (c, w)).2.1.buffered = c.buffered := by
  cases o with
  | setDeadlines => exact absurd rfl ho
  | write bs =>
    refine ⟨?_, rfl, rfl⟩
    simp only [exec, execWrite]
    split
    · exact Nat.le_refl _
    · split
      · split <;> exact Nat.le_add_right _ _
      · exact Nat.le_add_right _ _
  | now => exact ⟨Nat.le_add_right _ _, rfl, rfl⟩
  | check r counter =>
    simp only [exec]
    split <;> exact ⟨Nat.le_refl _, rfl, rfl⟩
  | flush =>
    simp only [exec]
    split <;> exact ⟨Nat.le_add_right _ _, rfl, rfl⟩
  | _ => exact ⟨Nat.le_refl _, rfl, rfl⟩

/-- Weights that count everything that does not happen while a request is served, in particular setting
deadlines. -/
def otherOnly : Weights :=
  { read := 0, write := 0, genKey := 0, newSession := 0, now := 0, load := 0, store := 0, sign := 0,
    fetchKey := 0, check := 0, secret := 0, invoke := 0, aead := 0, other := 1 }

theorem slow_other (readTimeout writeTimeout : Nat) (ans : Nat → Answer C) (o : SOp) (s : SlowState)
    (hr : ∀ x, o ≠ .read x) (hd : o ≠ .setDeadlines) :
    s.seq.world.now ≤ (slowI C readTimeout writeTimeout ans o s).2.seq.world.now ∧
      (slowI C readTimeout writeTimeout ans o s).2.readBy = s.readBy ∧
      (slowI C readTimeout writeTimeout ans o s).2.waited = s.waited ∧
      (slowI C readTimeout writeTimeout ans o s).2.late = s.late ∧
      (slowI C readTimeout writeTimeout ans o s).2.seq.conn.deadline = s.seq.conn.deadline ∧
      (slowI C readTimeout writeTimeout ans o s).2.seq.conn.buffered = s.seq.conn.buffered := by
  have h := exec_clock writeTimeout (ans s.seq.pos) o hd s.seq.conn s.seq.world
  cases o with
  | read x => exact absurd rfl (hr x)
  | setDeadlines => exact absurd rfl hd
  | _ => exact ⟨h.1, rfl, rfl, rfl, h.2.1, h.2.2⟩

/-- While a request is served, the time spent in reads stays within the time since `start`, when the deadline
was set, and within the timeout. -/
theorem slow_bound {α : Type} (readTimeout writeTimeout : Nat) (ans : Nat → Answer C) (start before : Nat)
    (p : SProg C α) (hp : Costs otherOnly.of p 0) (s : SlowState) (hby : s.readBy = start + readTimeout)
    (h1 : start + s.waited ≤ s.seq.world.now + before) (h2 : s.waited ≤ before + readTimeout + 1) :
    (p.run (slowI C readTimeout writeTimeout ans) s).2.waited ≤ before + readTimeout + 1 := by
  induction p generalizing s with
  | ret a => exact h2
  | panic m => exact h2
  | op o k ih =>
    have ho : otherOnly.of o ≤ 0 := hp.1
    show SlowState.waited (Prog.run (slowI C readTimeout writeTimeout ans)
      (k (slowI C readTimeout writeTimeout ans o s).1) (slowI C readTimeout writeTimeout ans o s).2).2 ≤ _
    have hk := hp.2 (slowI C readTimeout writeTimeout ans o s).1
    by_cases hread : ∃ x, o = .read x
    · obtain ⟨x, rfl⟩ := hread
      have h := readInterp_after x ⟨s.seq.world.now, s.readBy, s.arrivals, s.late⟩
      have h3 := h.mono
      have h4 := h.bound
      dsimp only at h3 h4
      refine ih _ (Costs.mono hk (by omega)) _ hby ?_ ?_
      · show start + (s.waited + (_ - s.seq.world.now)) ≤ _ + before
        show start + (s.waited + ((readInterp readSlow x ⟨s.seq.world.now, s.readBy, s.arrivals, s.late⟩).2.now -
          s.seq.world.now)) ≤ (readInterp readSlow x ⟨s.seq.world.now, s.readBy, s.arrivals, s.late⟩).2.now + before
        omega
      · show s.waited + ((readInterp readSlow x ⟨s.seq.world.now, s.readBy, s.arrivals, s.late⟩).2.now -
          s.seq.world.now) ≤ before + readTimeout + 1
        omega
    · have hd : o ≠ .setDeadlines := by
        rintro rfl
        exact absurd ho (by decide)
      obtain ⟨h3, h4, h5, -⟩ := slow_other readTimeout writeTimeout ans o s (fun x h => hread ⟨x, h⟩) hd
      exact ih _ (Costs.mono hk (by omega)) _ (h4.trans hby) (by rw [h5]; omega) (by rw [h5]; exact h2)

/-- **C176**, the time: whatever the client sends, and when, the server waits for the octets of one request
no longer than its read timeout, whatever the write timeout is (`+ 1`: the error comes after the deadline). -/
theorem C176_time_partial (readTimeout writeTimeout : Nat) (ans : Nat → Answer C) (host : Except Err Bytes)
    (s : SlowState) :
    ((connPass (inMemory C) host).run (slowI C readTimeout writeTimeout ans) s).2.waited ≤
      s.waited + readTimeout + 1 := by
  show SlowState.waited (Prog.run (slowI C readTimeout writeTimeout ans)
    (if s.seq.world.quit then .ret false else _) _).2 ≤ _
  split
  · show s.waited ≤ _
    omega
  · exact slow_bound readTimeout writeTimeout ans _ s.waited _
      ((costs_serve otherOnly host).mono (by decide)) _ rfl (by
        show s.seq.world.now + (ans _).tick + s.waited ≤ s.seq.world.now + (ans _).tick + s.waited
        omega) (by
        show s.waited ≤ _
        omega)

/-! ## What then -/

/-- From here on the goroutine only writes, and gives up when writing fails by the deadline. -/
def LostCause : SProg C Bool → Prop
  | .ret b => b = false
  | .panic _ => False
  | .op (.write _) k => LostCause (k ((0, some .timeout) : Nat × Option Err))
  | .op _ _ => False

/-- A read that fails by the deadline is the last, and the goroutine gives up if it cannot write either. -/
def GivesUp : SProg C Bool → Prop
  | .ret _ => True
  | .panic _ => True
  | .op .setDeadlines _ => False
  | .op (.read (.alloc _)) k => ∀ r, GivesUp (k r)
  | .op (.read (.readFull _)) k => (∀ e, LostCause (k (Except.error e : Except Err Bytes))) ∧ ∀ r, GivesUp (k r)
  | .op (.read (.copyLimit _)) k => (∀ bs, LostCause (k ((bs, some .timeout) : Bytes × Option Err))) ∧ ∀ r, GivesUp (k r)
  | .op _ k => ∀ r, GivesUp (k r)

/-- Weights that count reads and setting deadlines. -/
def readOnly : Weights := { otherOnly with read := 1 }

theorem givesUp_of_costs (p : SProg C Bool) (h : Costs readOnly.of p 0) : GivesUp p := by
  induction p with
  | ret a => trivial
  | panic m => trivial
  | op o k ih =>
    have h1 : readOnly.of o ≤ 0 := h.1
    have h2 : ∀ r, GivesUp (k r) := fun r => ih r ((h.2 r).mono (by omega))
    cases o with
    | read x => exact absurd h1 (show ¬ (1 ≤ 0) by decide)
    | setDeadlines => exact absurd h1 (by decide)
    | _ => exact h2

/-- A parser that fails when a read fails. -/
def Propagates {α : Type} : RProg (Except Err α) → Prop
  | .ret _ => True
  | .panic _ => True
  | .op (.alloc _) k => ∀ r, Propagates (k r)
  | .op (.readFull _) k => (∀ e, ∃ e', k (Except.error e : Except Err Bytes) = .ret (.error e')) ∧ ∀ r, Propagates (k r)
  | .op (.copyLimit _) k =>
    (∀ bs, ∃ e', k ((bs, some .timeout) : Bytes × Option Err) = .ret (.error e')) ∧ ∀ r, Propagates (k r)

theorem propagates_readField {α : Type} (n : Nat) (what : String) (k : Bytes → RProg (Except Err α))
    (h : ∀ bs, Propagates (k bs)) : Propagates (readField n what k) := by
  refine ⟨fun e => ?_, fun r => ?_⟩
  · cases e <;> exact ⟨_, rfl⟩
  · show Propagates (match r with | .ok bs => k bs | .error .unexpectedEOF => _ | .error e => _)
    split
    · exact h _
    · trivial
    · trivial

theorem propagates_readOctet {α : Type} (what : String) (k : Byte → RProg (Except Err α))
    (h : ∀ b, Propagates (k b)) : Propagates (readOctet what k) := by
  refine ⟨fun bs => ⟨_, rfl⟩, fun r => ?_⟩
  show Propagates (match r with | (bs, some e) => _ | ([], none) => _ | ([b], none) => k b | (_, none) => _)
  split
  · split
    · trivial
    · split
      · trivial
      · exact h _
      · trivial
  · trivial
  · exact h _
  · trivial

theorem propagates_setup (common : RequestCommon) : Propagates (parseSetupRequest C common) := by
  refine propagates_readField _ _ _ fun _ => propagates_readField _ _ _ fun _ => ?_
  dsimp only
  split
  · trivial
  refine fun _ => propagates_readField _ _ _ fun _ => ?_
  unfold parseEPub
  split <;> trivial

theorem propagates_process (common : RequestCommon) : Propagates (parseProcessRequest common) := by
  refine propagates_readOctet _ _ fun _ => propagates_readField _ _ _ fun _ =>
    propagates_readField _ _ _ fun _ => propagates_readField _ _ _ fun _ => ?_
  dsimp only
  split
  · trivial
  exact fun _ => propagates_readField _ _ _ fun _ => trivial

/-- Parse, then go on; if the parser fails the goroutine gives up when it cannot write. -/
theorem givesUp_parse {α : Type} {p : RProg (Except Err α)} (hp : Propagates p) {f : Except Err α → SProg C Bool}
    (hd : ∀ e, LostCause (f (.error e))) (hf : ∀ a, GivesUp (f a)) : GivesUp ((onConn p).bind f) := by
  induction p with
  | ret a => exact hf a
  | panic m => trivial
  | op o k ih =>
    cases o with
    | alloc n => exact fun r => ih r (hp r)
    | readFull n =>
      refine ⟨fun e => ?_, fun r => ih r (hp.2 r)⟩
      obtain ⟨e', he'⟩ := hp.1 e
      show LostCause ((onConn (k (Except.error e : Except Err Bytes))).bind f)
      rw [he']
      exact hd e'
    | copyLimit n =>
      refine ⟨fun bs => ?_, fun r => ih r (hp.2 r)⟩
      obtain ⟨e', he'⟩ := hp.1 bs
      show LostCause ((onConn (k ((bs, some .timeout) : Bytes × Option Err))).bind f)
      rw [he']
      exact hd e'

/-- After reading failed the answer is an error response, whose failure ends the connection. -/
theorem lost_fail (code : ErrorCode) (text : String) : LostCause (C := C)
    ((failWith code text).bind fun err => match err with | some _ => .ret false | none => .ret true) := by
  show LostCause (.op (.write _) _)
  rfl

theorem givesUp_rest {p : SProg C (Option Err)} (h : Costs readOnly.of p 0) :
    GivesUp (p.bind fun err => match err with | some _ => .ret false | none => .ret true) :=
  givesUp_of_costs _ ((h.bind (m := 0) fun e => by cases e <;> trivial).mono (by omega))

theorem givesUp_setup (host : Except Err Bytes) (common : RequestCommon) :
    GivesUp ((setupHandler (inMemory C) host common).bind fun err =>
      match err with | some _ => .ret false | none => .ret true) := by
  unfold setupHandler
  rw [Prog.bind_assoc]
  refine givesUp_parse (propagates_setup common) (fun e => lost_fail _ _) fun parsed => givesUp_rest ?_
  rcases parsed with _ | request
  · exact costs_fail readOnly _ _
  refine .op (a := 0) (b := 0) (Nat.le_refl _) ?_
  rintro (_ | serverKey)
  · exact costs_fail readOnly _ _
  dsimp only
  split
  · exact costs_fail readOnly _ _
  split
  · exact costs_fail readOnly _ _
  refine .op (a := 0) (b := 0) (Nat.le_refl _) fun session => ?_
  refine Costs.bind (n := 0) (m := 0) ?_ fun stored => ?_
  · exact .op (a := 0) (b := 0) (Nat.le_refl _) fun _ => .op (a := 0) (b := 0) (Nat.le_refl _) fun _ => trivial
  rcases stored with _ | ⟨⟩
  · exact costs_fail readOnly _ _
  refine .op (a := 0) (b := 0) (Nat.le_refl _) ?_
  rintro (_ | signature)
  · exact costs_fail readOnly _ _
  · exact (costs_ofRes readOnly _).bind (m := 0) fun _ => costs_respond readOnly _

theorem givesUp_process (host : Except Err Bytes) (common : RequestCommon) :
    GivesUp ((processHandler (inMemory C) host common).bind fun err =>
      match err with | some _ => .ret false | none => .ret true) := by
  unfold processHandler
  rw [Prog.bind_assoc]
  refine givesUp_parse (propagates_process common) (fun e => lost_fail _ _) fun parsed => givesUp_rest ?_
  rcases parsed with _ | request
  · exact costs_fail readOnly _ _
  dsimp only
  split
  · exact costs_fail readOnly _ _
  refine Costs.bind (n := 0) (m := 0) ?_ fun loaded => ?_
  · refine .op (a := 0) (b := 0) (Nat.le_refl _) ?_
    rintro (_ | ⟨session, t⟩)
    · trivial
    · exact .op (a := 0) (b := 0) (Nat.le_refl _) fun _ => .op (a := 0) (b := 0) (Nat.le_refl _) fun _ => trivial
  rcases loaded with _ | session
  · exact costs_fail readOnly _ _
  refine .op (a := 0) (b := 0) (Nat.le_refl _) fun fresh => ?_
  split
  case isFalse => exact costs_fail readOnly _ _
  refine .op (a := 0) (b := 0) (Nat.le_refl _) fun secret => ?_
  split
  · exact costs_fail readOnly _ _
  split
  · exact costs_fail readOnly _ _
  split
  · exact costs_fail readOnly _ _
  refine (costs_ofRes readOnly _).bind (m := 0) fun nonce => ?_
  split
  · exact costs_fail readOnly _ _
  exact costs_run readOnly _ _ _ _ _

theorem givesUp_serve (host : Except Err Bytes) : GivesUp (serveRequest (inMemory C) host) := by
  refine givesUp_parse (p := parseRequestCommon)
    (propagates_readOctet _ (fun b => .ret (.ok _)) fun _ => trivial) (fun e => rfl) fun parsed => ?_
  rcases parsed with _ | common
  · trivial
  dsimp only
  split
  · trivial
  unfold handle
  split
  · exact givesUp_rest (costs_respond readOnly _)
  split
  · exact givesUp_setup host common
  split
  · exact givesUp_process host common
  split
  · exact givesUp_rest (costs_fetchKey readOnly)
  · trivial

/-! Reads that fail by the deadline. -/

theorem readSlow_late (s : SlowConn) (k : Nat) (h : s.late = false) :
    (readSlow s k).2.late = false ∨
      (readSlow s k).1 = ([], some .timeout) ∧ s.readBy < (readSlow s k).2.now := by
  unfold readSlow
  split
  · exact .inr ⟨rfl, by assumption⟩
  · split
    · exact .inr ⟨rfl, Nat.lt_succ_self _⟩
    · split
      · exact .inr ⟨rfl, Nat.lt_succ_self _⟩
      · exact .inl h

theorem readFullLoop_late (fuel remaining : Nat) (acc : Bytes) (s : SlowConn) (h : s.late = false) :
    (readFullLoop readSlow fuel remaining acc s).2.late = false ∨
      (∃ e, (readFullLoop readSlow fuel remaining acc s).1 = .error e) ∧
        s.readBy < (readFullLoop readSlow fuel remaining acc s).2.now := by
  induction fuel generalizing remaining acc s with
  | zero => cases remaining <;> exact .inl h
  | succ fuel ih =>
    cases remaining with
    | zero => exact .inl h
    | succ r =>
      simp only [readFullLoop]
      have h1 := readSlow_after s (r + 1)
      rcases readSlow_late s (r + 1) h with h2 | ⟨h2, h3⟩
      · split
        · exact .inl h2
        · split
          · rw [← h1.readBy]
            exact ih _ _ _ h2
          · exact .inl h2
      · generalize readSlow s (r + 1) = x at h2 h3
        obtain ⟨⟨bs, err⟩, s'⟩ := x
        cases h2
        exact .inr ⟨⟨_, rfl⟩, h3⟩

theorem copyLoop_late (fuel remaining : Nat) (acc : Bytes) (s : SlowConn) (h : s.late = false) :
    (copyLoop readSlow fuel remaining acc s).2.late = false ∨
      (∃ bs, (copyLoop readSlow fuel remaining acc s).1 = (bs, some .timeout)) ∧
        s.readBy < (copyLoop readSlow fuel remaining acc s).2.now := by
  induction fuel generalizing remaining acc s with
  | zero => cases remaining <;> exact .inl h
  | succ fuel ih =>
    cases remaining with
    | zero => exact .inl h
    | succ r =>
      simp only [copyLoop]
      have h1 := readSlow_after s (r + 1)
      rcases readSlow_late s (r + 1) h with h2 | ⟨h2, h3⟩
      · split
        · rw [← h1.readBy]
          exact ih _ _ _ h2
        · exact .inl h2
        · exact .inl h2
      · generalize readSlow s (r + 1) = x at h2 h3
        obtain ⟨⟨bs, err⟩, s'⟩ := x
        cases h2
        exact .inr ⟨⟨_, rfl⟩, h3⟩

/-- The mark says whether the deadline has passed. -/
def SlowConn.Marked (s : SlowConn) : Prop := s.late = true ↔ s.readBy < s.now

theorem readSlow_marked (s : SlowConn) (k : Nat) (h : s.Marked) : (readSlow s k).2.Marked := by
  unfold SlowConn.Marked at h ⊢
  unfold readSlow
  split
  · exact ⟨fun _ => by assumption, fun _ => rfl⟩
  · split
    · exact ⟨fun _ => Nat.lt_succ_self _, fun _ => rfl⟩
    · split
      · exact ⟨fun _ => Nat.lt_succ_self _, fun _ => rfl⟩
      · dsimp only
        rw [h]
        omega

theorem readFullLoop_marked (fuel remaining : Nat) (acc : Bytes) (s : SlowConn) (h : s.Marked) :
    (readFullLoop readSlow fuel remaining acc s).2.Marked := by
  induction fuel generalizing remaining acc s with
  | zero => cases remaining <;> exact h
  | succ fuel ih =>
    cases remaining with
    | zero => exact h
    | succ r =>
      simp only [readFullLoop]
      have h1 := readSlow_marked s (r + 1) h
      split
      · exact h1
      · split
        · exact ih _ _ _ h1
        · exact h1

theorem copyLoop_marked (fuel remaining : Nat) (acc : Bytes) (s : SlowConn) (h : s.Marked) :
    (copyLoop readSlow fuel remaining acc s).2.Marked := by
  induction fuel generalizing remaining acc s with
  | zero => cases remaining <;> exact h
  | succ fuel ih =>
    cases remaining with
    | zero => exact h
    | succ r =>
      simp only [copyLoop]
      have h1 := readSlow_marked s (r + 1) h
      split
      · exact ih _ _ _ h1
      · exact h1
      · exact h1

/-- **C176**, what "late" means: whatever a parser reads, when it has ended the connection is marked as late if and
only if the parser has waited until the deadline passed. -/
theorem C176_late_partial {α : Type} (p : RProg α) (s : SlowConn) (hl : s.late = false) (h : s.now ≤ s.readBy) :
    (p.run (readInterp readSlow) s).2.late = true ↔ s.readBy < (p.run (readInterp readSlow) s).2.now := by
  have hm : s.Marked := by
    unfold SlowConn.Marked
    rw [hl]
    exact ⟨fun h' => absurd h' (by decide), fun h' => absurd h (Nat.not_le.mpr h')⟩
  clear hl h
  induction p generalizing s with
  | ret a => exact hm
  | panic m => exact hm
  | op o k ih =>
    have hby := (readInterp_after o s).readBy
    have h1 : (readInterp readSlow o s).2.Marked := by
      cases o with
      | alloc n => exact hm
      | readFull n => exact readFullLoop_marked _ _ _ _ hm
      | copyLimit n => exact copyLoop_marked _ _ _ _ hm
    have h2 := ih (readInterp readSlow o s).1 (readInterp readSlow o s).2 h1
    rw [hby] at h2
    exact h2

/-- Once the write deadline has passed, a goroutine that only writes gives up. -/
theorem lost_run (readTimeout writeTimeout : Nat) (ans : Nat → Answer C) (p : SProg C Bool) (hp : LostCause p)
    (s : SlowState) (d : Nat) (hb : s.seq.conn.buffered = false) (hd : s.seq.conn.deadline = some d)
    (hlate : d < s.seq.world.now) :
    (p.run (slowI C readTimeout writeTimeout ans) s).1 = .val false := by
  induction p generalizing s with
  | ret b => exact congrArg Res.val hp
  | panic m => exact hp.elim
  | op o k ih =>
    cases o with
    | write bs =>
      have h1 := slow_other readTimeout writeTimeout ans (.write bs) s (fun x h => by cases h) (by intro h; cases h)
      have hr : (slowI C readTimeout writeTimeout ans (.write bs) s).1 = ((0, some .timeout) : Nat × Option Err) := by
        show (execWrite C (ans s.seq.pos) bs s.seq.conn s.seq.world).1 = _
        have : d < s.seq.world.now + (ans s.seq.pos).tick := by omega
        simp [execWrite, hb, hd, this]
      show (Prog.run (slowI C readTimeout writeTimeout ans) (k (slowI C readTimeout writeTimeout ans (.write bs) s).1) _).1 = _
      rw [hr]
      exact ih _ hp _ (h1.2.2.2.2.2.trans hb) (h1.2.2.2.2.1.trans hd) (Nat.lt_of_lt_of_le hlate h1.1)
    | _ => exact hp.elim

theorem givesUp_run (readTimeout writeTimeout : Nat) (ans : Nat → Answer C) (p : SProg C Bool) (hp : GivesUp p)
    (s : SlowState) (d : Nat) (hb : s.seq.conn.buffered = false) (hd : s.seq.conn.deadline = some d)
    (hby : d ≤ s.readBy) (hl : s.late = false) :
    (p.run (slowI C readTimeout writeTimeout ans) s).2.late = false ∨
      (p.run (slowI C readTimeout writeTimeout ans) s).1 = .val false := by
  induction p generalizing s with
  | ret b => exact .inl hl
  | panic m => exact .inl hl
  | op o k ih =>
    show SlowState.late (Prog.run (slowI C readTimeout writeTimeout ans)
        (k (slowI C readTimeout writeTimeout ans o s).1) (slowI C readTimeout writeTimeout ans o s).2).2 = false ∨
      (Prog.run (slowI C readTimeout writeTimeout ans)
        (k (slowI C readTimeout writeTimeout ans o s).1) (slowI C readTimeout writeTimeout ans o s).2).1 = .val false
    by_cases hread : ∃ x, o = .read x
    · obtain ⟨x, rfl⟩ := hread
      cases x with
      | alloc n => exact ih _ (hp _) _ hb hd hby hl
      | readFull n =>
        rcases readFullLoop_late n n [] ⟨s.seq.world.now, s.readBy, s.arrivals, s.late⟩ hl with h | ⟨⟨e, h⟩, h'⟩
        · exact ih _ (hp.2 _) _ hb hd hby h
        · refine .inr ?_
          have hr : (slowI C readTimeout writeTimeout ans (.read (.readFull n)) s).1 =
            (Except.error e : Except Err Bytes) := h
          rw [hr]
          exact lost_run readTimeout writeTimeout ans _ (hp.1 e) _ d hb hd (Nat.lt_of_le_of_lt hby h')
      | copyLimit n =>
        rcases copyLoop_late n.toNat n.toNat [] ⟨s.seq.world.now, s.readBy, s.arrivals, s.late⟩ hl with h | ⟨⟨bs, h⟩, h'⟩
        · exact ih _ (hp.2 _) _ hb hd hby h
        · refine .inr ?_
          have hr : (slowI C readTimeout writeTimeout ans (.read (.copyLimit n)) s).1 =
            ((bs, some .timeout) : Bytes × Option Err) := h
          rw [hr]
          exact lost_run readTimeout writeTimeout ans _ (hp.1 bs) _ d hb hd (Nat.lt_of_le_of_lt hby h')
    · have hset : o ≠ .setDeadlines := by
        rintro rfl
        exact hp
      obtain ⟨-, h4, -, h5, h6, h7⟩ := slow_other readTimeout writeTimeout ans o s (fun x h => hread ⟨x, h⟩) hset
      refine ih _ ?_ _ (h7.trans hb) (h6.trans hd) (by rw [h4]; exact hby) (h5.trans hl)
      cases o with
      | read x => exact absurd ⟨x, rfl⟩ hread
      | setDeadlines => exact absurd rfl hset
      | _ => exact hp _

/-- **C176**, the end: if the write timeout is not longer than the read timeout (by default it is 5 s, and the
read timeout 60 s), a client whose request is not complete by the read deadline loses its connection. -/
theorem C176_disconnected_partial (readTimeout writeTimeout : Nat) (hw : 0 < writeTimeout)
    (hle : writeTimeout ≤ readTimeout) (ans : Nat → Answer C) (host : Except Err Bytes) (s : SlowState)
    (hb : s.seq.conn.buffered = false) (hl : s.late = false)
    (hlate : ((connPass (inMemory C) host).run (slowI C readTimeout writeTimeout ans) s).2.late = true) :
    ((connPass (inMemory C) host).run (slowI C readTimeout writeTimeout ans) s).1 = .val false := by
  have key : SlowState.late (Prog.run (slowI C readTimeout writeTimeout ans) (connPass (inMemory C) host) s).2 = false ∨
      (Prog.run (slowI C readTimeout writeTimeout ans) (connPass (inMemory C) host) s).1 = .val false := by
    show SlowState.late (Prog.run (slowI C readTimeout writeTimeout ans) (if s.seq.world.quit then .ret false else _) _).2 = false ∨
      (Prog.run (slowI C readTimeout writeTimeout ans) (if s.seq.world.quit then .ret false else _) _).1 = .val false
    split
    · exact .inl hl
    · refine givesUp_run readTimeout writeTimeout ans _ (givesUp_serve host) _
        (s.seq.world.now + (ans (s.seq.pos + 1)).tick + writeTimeout) hb ?_ ?_ hl
      · show (if writeTimeout > 0 then _ else _) = _
        rw [if_pos hw]
        rfl
      · show _ ≤ s.seq.world.now + (ans (s.seq.pos + 1)).tick + readTimeout
        omega
  rcases key with h | h
  · rw [h] at hlate
    cases hlate
  · exact h

end

namespace SlowExample

/-- A connection on which the octets arrive at these times. -/
def slowStart (arrivals : List (Nat × Byte)) : SlowState :=
  { seq := ⟨.none, { heap := [], table := fun _ => none, now := 0, quit := false, wg := 1, spawned := [], log := [] }, 0⟩,
    readBy := 0, arrivals, late := false, waited := 0 }

def pass (readTimeout writeTimeout : Nat) (s : SlowState) : Res Bool × SlowState :=
  (connPass (inMemory Toy.crypto) (.ok (str "10.0.0.1"))).run
    (slowI Toy.crypto readTimeout writeTimeout fun _ => OnceExample.answer (.error .eof)) s

/-- The first octet of a setup request at once; at the time 90 an octet that looks like a hello request. -/
def lateOctets : List (Nat × Byte) := [(0, 0x12#8), (90, 0x11#8)]

/-- With a read timeout of 50 and a write timeout of 80 the server answers with an error, goes on, and takes
the late octet for a request. -/
theorem goes_on : (pass 50 80 (slowStart lateOctets)).1 = .val true ∧ (pass 50 80 (slowStart lateOctets)).2.late = true ∧
    (pass 50 80 (slowStart lateOctets)).2.seq.conn.output =
      errorBytes codeMalformedRequest "failed to parse data of the request" ∧
    (pass 50 80 (pass 50 80 (slowStart lateOctets)).2).2.seq.conn.output =
      errorBytes codeMalformedRequest "failed to parse data of the request" ++ Wire.helloResponse := by
  decide +kernel

/-- With a write timeout of 50 it ends the connection, having waited 50. -/
example : (pass 50 50 (slowStart lateOctets)).1 = .val false ∧ (pass 50 50 (slowStart lateOctets)).2.late = true ∧
    (pass 50 50 (slowStart lateOctets)).2.waited = 51 := by
  decide +kernel

/-- In time, octet by octet, a request is served. -/
example : (pass 50 50 (slowStart [(40, 0x11#8)])).1 = .val true ∧
    (pass 50 50 (slowStart [(40, 0x11#8)])).2.seq.conn.output = Wire.helloResponse ∧
    (pass 50 50 (slowStart [(40, 0x11#8)])).2.waited = 39 := by
  decide +kernel

end SlowExample

/-- **C176 is refuted**: with a write timeout longer than the read timeout the server goes on. -/
theorem C176_refuted : ¬ C176_claim := by
  intro h
  have h1 := (h Toy.crypto 50 80 (by decide) (by decide) (fun _ => OnceExample.answer (.error .eof))
    (.ok (str "10.0.0.1")) (SlowExample.slowStart SlowExample.lateOctets) rfl rfl).2 SlowExample.goes_on.2.1
  have h2 := SlowExample.goes_on.1
  unfold SlowExample.pass at h2
  rw [h1] at h2
  exact absurd (Res.val.inj h2) (by decide)

end Goe2ee
