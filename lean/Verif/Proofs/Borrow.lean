import Verif.Spec.Borrow
import Verif.Proofs.Client

/-!
# Programs that set no deadlines
-/

set_option autoImplicit false

namespace Goe2ee

/-- Every effect the program may perform satisfies `Q`, every result `P`. -/
def Prog.Does {S : Sig} {α : Type} (Q : S.Op → Prop) (P : α → Prop) : Prog S α → Prop
  | .ret a => P a
  | .panic _ => True
  | .op o k => Q o ∧ ∀ r, (k r).Does Q P

namespace Prog.Does
variable {S : Sig} {α β : Type} {Q : S.Op → Prop}

theorem bind {P : α → Prop} {P' : β → Prop} {p : Prog S α} {f : α → Prog S β} (hp : p.Does Q P)
    (hf : ∀ a, P a → (f a).Does Q P') : (p.bind f).Does Q P' := by
  induction p with
  | ret a => exact hf a hp
  | panic m => trivial
  | op o k ih => exact ⟨hp.1, fun r => ih r (hp.2 r)⟩

theorem mono {Q' : S.Op → Prop} {P : α → Prop} {p : Prog S α} (hp : p.Does Q P) (h : ∀ o, Q o → Q' o) :
    p.Does Q' P := by
  induction p with
  | ret a => exact hp
  | panic m => trivial
  | op o k ih => exact ⟨h o hp.1, fun r => ih r (hp.2 r)⟩

theorem run_val {σ : Type} {I : Interp S σ} {P : α → Prop} {p : Prog S α} {s s' : σ} {a : α}
    (hp : p.Does Q P) (h : p.run I s = (.val a, s')) : P a := by
  induction p generalizing s with
  | ret b => cases h; exact hp
  | panic m => cases h
  | op o k ih => exact ih _ (hp.2 _) h

/-- A relation with the initial state that effects satisfying `Q` preserve. -/
theorem run_inv {σ : Type} {I : Interp S σ} {P : α → Prop} {p : Prog S α} {s : σ} {R : σ → Prop}
    (hp : p.Does Q P) (hI : ∀ o s, Q o → R s → R (I o s).2) (hs : R s) : R (p.run I s).2 := by
  induction p generalizing s with
  | ret b => exact hs
  | panic m => exact hs
  | op o k ih => exact ih _ (hp.2 _) (hI o s hp.1 hs)

end Prog.Does

/-! ## Parsers keep what every `Read` keeps -/

theorem readFullLoop_keeps {σ : Type} {rd : ReadFn σ} {R : σ → Prop}
    (h : ∀ s k, R s → R (rd s k).2) (fuel remaining : Nat) (acc : Bytes) (s : σ) (hs : R s) :
    R (readFullLoop rd fuel remaining acc s).2 := by
  induction fuel generalizing remaining acc s with
  | zero => cases remaining <;> exact hs
  | succ fuel ih =>
    cases remaining with
    | zero => exact hs
    | succ r =>
      have h1 := h s (r + 1) hs
      rw [readFullLoop]
      dsimp only
      split
      · exact h1
      split
      · exact ih _ _ _ h1
      · exact h1

theorem copyLoop_keeps {σ : Type} {rd : ReadFn σ} {R : σ → Prop}
    (h : ∀ s k, R s → R (rd s k).2) (fuel remaining : Nat) (acc : Bytes) (s : σ) (hs : R s) :
    R (copyLoop rd fuel remaining acc s).2 := by
  induction fuel generalizing remaining acc s with
  | zero => cases remaining <;> exact hs
  | succ fuel ih =>
    cases remaining with
    | zero => exact hs
    | succ r =>
      have h1 := h s (r + 1) hs
      rw [copyLoop]
      dsimp only
      split
      · exact ih _ _ _ h1
      · exact h1
      · exact h1

theorem run_keeps {α σ : Type} {rd : ReadFn σ} {R : σ → Prop} (h : ∀ s k, R s → R (rd s k).2)
    (p : RProg α) (s : σ) (hs : R s) : R (p.run (readInterp rd) s).2 := by
  induction p generalizing s with
  | ret a => exact hs
  | panic m => exact hs
  | op o k ih =>
    refine ih _ _ ?_
    cases o with
    | alloc n => exact hs
    | readFull n => exact readFullLoop_keeps h _ _ _ _ hs
    | copyLimit n => exact copyLoop_keeps h _ _ _ _ hs

/-- A TCP connection stays one. -/
theorem runNet_tcp {α : Type} (p : RProg α) (input : List Ev) :
    ∃ input', (runNet p (.tcp input)).2 = .tcp input' := by
  refine run_keeps (rd := readNet) (R := fun t => ∃ i, t = .tcp i) ?_ p _ ⟨input, rfl⟩
  rintro _ k ⟨i, rfl⟩
  exact ⟨_, rfl⟩

section
variable {C : Crypto}

/-- The effect sets a deadline only if the timeout is positive. -/
def deadlineOp (rt wt : Int) (o : COp) : Prop :=
  (o = .setReadDeadline → rt > 0) ∧ (o = .setWriteDeadline → wt > 0)

theorem does_parse {α : Type} (rt wt : Int) (p : RProg α) :
    (onClientConn (C := C) p).Does (deadlineOp rt wt) (fun _ => True) := by
  induction p with
  | ret a => trivial
  | panic m => trivial
  | op o k ih => exact ⟨⟨by simp, by simp⟩, fun r => ih r⟩

theorem does_ofClientRes {α : Type} (rt wt : Int) (r : Res α) :
    (ofClientRes (C := C) r).Does (deadlineOp rt wt) (fun _ => True) := by
  cases r <;> trivial

/-- The client's timeouts. -/
def Timeouts (c c' : Client) : Prop :=
  c'.readTimeout = c.readTimeout ∧ c'.writeTimeout = c.writeTimeout

theorem timeouts_readBuffer (c : Client) (n : Nat) : Timeouts c (readBuffer c n).2 := by
  unfold readBuffer
  split <;> exact ⟨rfl, rfl⟩

theorem does_read (c : Client) (n : Nat) :
    (c.read (C := C) n).Does (deadlineOp c.readTimeout c.writeTimeout) (fun r => Timeouts c r.2) := by
  unfold Client.read
  refine Prog.Does.bind (P := fun _ => True) ?_ ?_
  · split
    · exact ⟨⟨fun _ => by assumption, by simp⟩, fun _ => trivial⟩
    · trivial
  intro r _
  split
  · exact ⟨rfl, rfl⟩
  split
  · exact timeouts_readBuffer c n
  refine (does_parse _ _ _).bind fun a _ => ?_
  split
  · exact ⟨rfl, rfl⟩
  split
  · refine (does_parse _ _ _).bind fun a _ => ?_
    split <;> exact ⟨rfl, rfl⟩
  refine (does_parse _ _ _).bind fun a _ => ?_
  split
  · exact ⟨rfl, rfl⟩
  split
  · exact ⟨rfl, rfl⟩
  split
  · trivial
  split
  · exact ⟨rfl, rfl⟩
  refine (does_ofClientRes _ _ _).bind fun a _ => ?_
  split
  · exact ⟨rfl, rfl⟩
  · rename_i message _
    exact timeouts_readBuffer { c with buffer := c.buffer ++ message } n

theorem does_write (c : Client) (p : Bytes) :
    (c.write (C := C) p).Does (deadlineOp c.readTimeout c.writeTimeout) (fun r => Timeouts c r.2) := by
  unfold Client.write
  refine Prog.Does.bind (P := fun _ => True) ?_ ?_
  · split
    · exact ⟨⟨by simp, fun _ => by assumption⟩, fun _ => trivial⟩
    · trivial
  intro r _
  split
  · exact ⟨rfl, rfl⟩
  split
  · trivial
  split
  · exact ⟨rfl, rfl⟩
  refine ⟨⟨by simp, by simp⟩, fun (r : BitVec 64) => ?_⟩
  dsimp only
  split
  · exact ⟨rfl, rfl⟩
  refine (does_ofClientRes _ _ _).bind fun a _ => ?_
  exact ⟨⟨by simp, by simp⟩, fun r => ⟨⟨by simp, by simp⟩, fun r => ⟨rfl, rfl⟩⟩⟩

theorem does_call (c : Client) (call : CCall) :
    (c.call (C := C) call).Does (deadlineOp c.readTimeout c.writeTimeout) (Timeouts c) := by
  cases call with
  | write p => exact (does_write c p).bind fun r h => h
  | read n => exact (does_read c n).bind fun r h => h

theorem does_handshake (rt wt : Int) (host : Except Err Bytes) :
    (handshake (C := C) host).Does (deadlineOp rt wt) (fun _ => True) := by
  unfold handshake
  split
  · trivial
  refine ⟨⟨by simp, by simp⟩, fun r => ?_⟩
  dsimp only
  split
  · trivial
  refine ⟨⟨by simp, by simp⟩, fun r => ?_⟩
  dsimp only
  split
  · trivial
  refine ⟨⟨by simp, by simp⟩, fun r => ?_⟩
  dsimp only
  split
  · trivial
  refine ⟨⟨by simp, by simp⟩, fun r => ?_⟩
  dsimp only
  split
  · trivial
  split
  · trivial
  refine (does_parse _ _ _).bind fun a _ => ?_
  split
  · trivial
  split
  · refine (does_parse _ _ _).bind fun a _ => ?_
    split <;> trivial
  refine (does_parse _ _ _).bind fun a _ => ?_
  split
  · trivial
  refine (does_ofClientRes _ _ _).bind fun a _ => ?_
  refine (does_ofClientRes _ _ _).bind fun a _ => ?_
  split
  · trivial
  · trivial
  split
  · trivial
  exact ⟨⟨by simp, by simp⟩, fun r => trivial⟩

theorem does_dialTCP (rt wt : Int) (host : Except Err Bytes) (options : ClientOptions) :
    (dialTCP (C := C) host options).Does (deadlineOp rt wt) (fun _ => True) := by
  unfold dialTCP
  refine ⟨⟨by simp, by simp⟩, fun r => ?_⟩
  dsimp only
  split
  · trivial
  refine ⟨⟨by simp, by simp⟩, fun r => ?_⟩
  dsimp only
  split
  · trivial
  refine (does_handshake _ _ _).bind fun a _ => ?_
  split
  · refine Prog.Does.bind (P := fun _ => True) ?_ fun _ _ => trivial
    refine ⟨⟨by simp, by simp⟩, fun r => ?_⟩
    dsimp only
    split <;> trivial
  · trivial

theorem does_test (rt wt : Int) :
    (testOnBorrow (C := C)).Does (deadlineOp rt wt) (fun _ => True) := by
  unfold testOnBorrow
  refine ⟨⟨by simp, by simp⟩, fun r => ?_⟩
  dsimp only
  split
  · trivial
  split
  · trivial
  refine (does_parse _ _ _).bind fun a _ => ?_
  split <;> trivial

theorem run_readOp {α σ : Type} {I : Interp (CSig C) σ} {o : ROp} {k : o.Ret → RProg α} {s s' : σ}
    {r : o.Ret} (h : I (.read o) s = (r, s')) :
    (onClientConn (C := C) (.op o k)).run I s = (onClientConn (k r)).run I s' := by
  show (onClientConn (k (I (.read o) s).1)).run I (I (.read o) s).2 = _
  rw [h]

/-- Effects that set no deadline leave the deadlines and the clock alone. -/
theorem texec_deadlines {rt wt : Int} {env : CEnv C} (o : COp) (s : Timed) :
    (texec rt wt env o s).2.now = s.now ∧
    (o ≠ .setReadDeadline → (texec rt wt env o s).2.readBy = s.readBy) ∧
    (o ≠ .setWriteDeadline → (texec rt wt env o s).2.writeBy = s.writeBy) := by
  cases o <;> simp only [texec] <;> (repeat' split) <;> simp

/-- No deadlines, and no timeouts that would set any. -/
theorem texec_none {rt wt : Int} {env : CEnv C} (hr : rt ≤ 0) (hw : wt ≤ 0) (o : COp) (s : Timed)
    (ho : deadlineOp rt wt o) (h : s.readBy = none ∧ s.writeBy = none) :
    (texec rt wt env o s).2.readBy = none ∧ (texec rt wt env o s).2.writeBy = none := by
  obtain ⟨-, h1, h2⟩ := texec_deadlines (rt := rt) (wt := wt) (env := env) o s
  rw [h1 (fun h => absurd (ho.1 h) (by omega)), h2 (fun h => absurd (ho.2 h) (by omega))]
  exact h

/-- While no deadline has passed, the deadlines make no difference to a program that sets none. -/
theorem run_texec {α : Type} {rt wt : Int} {env : CEnv C} {P : α → Prop} {p : CProg C α} {s : Timed}
    (hp : p.Does (deadlineOp 0 0) P)
    (hr : passed s.now s.readBy = false) (hw : passed s.now s.writeBy = false) :
    p.run (texec rt wt env) s =
      ((p.run (cexec env) (s.conn, s.shared)).1,
        { s with conn := (p.run (cexec env) (s.conn, s.shared)).2.1,
                 shared := (p.run (cexec env) (s.conn, s.shared)).2.2 }) := by
  induction p generalizing s with
  | ret a => rfl
  | panic m => rfl
  | op o k ih =>
    have h1 : texec rt wt env o s = ((cexec env o (s.conn, s.shared)).1,
        { s with conn := (cexec env o (s.conn, s.shared)).2.1,
                 shared := (cexec env o (s.conn, s.shared)).2.2 }) := by
      have hq := hp.1
      cases o with
      | setReadDeadline => exact absurd (hq.1 rfl) (by decide)
      | setWriteDeadline => exact absurd (hq.2 rfl) (by decide)
      | read o => simp only [texec, hr, Bool.false_eq_true, ↓reduceIte]
      | write bs => simp only [texec, hw, Bool.false_eq_true, ↓reduceIte]
      | _ => rfl
    simp only [Prog.run]
    rw [h1]
    exact ih _ (hp.2 _) hr hw

theorem usedT_none {c : Client} {s : Timed} (h : UsedT (C := C) c s) (hr : c.readTimeout ≤ 0)
    (hw : c.writeTimeout ≤ 0) : s.readBy = none ∧ s.writeBy = none := by
  induction h with
  | @dialled rt wt env host options conn shared now c s' h =>
    have := (does_dialTCP (C := C) 0 0 host options).run_inv (I := texec rt wt env)
      (s := ⟨conn, shared, now, none, none⟩)
      (R := fun s => s.readBy = none ∧ s.writeBy = none) (fun o s ho hs => by
        obtain ⟨-, h1, h2⟩ := texec_deadlines (rt := rt) (wt := wt) (env := env) o s
        rw [h1 (fun h => absurd (ho.1 h) (by decide)), h2 (fun h => absurd (ho.2 h) (by decide))]
        exact hs) ⟨rfl, rfl⟩
    have h' : (dialTCP host options).run (texec rt wt env) ⟨conn, shared, now, none, none⟩ =
      (.val (.ok c), s') := h
    rw [h'] at this
    exact this
  | @called env call c c' s s' hu h ih =>
    obtain ⟨h1, h2⟩ := (does_call (C := C) c call).run_val h
    have := (does_call (C := C) c call).run_inv (I := texec c.readTimeout c.writeTimeout env) (s := s)
      (R := fun s => s.readBy = none ∧ s.writeBy = none)
      (fun o s ho hs => texec_none (h1 ▸ hr) (h2 ▸ hw) o s ho hs) (ih (h1 ▸ hr) (h2 ▸ hw))
    rw [h] at this
    exact this
  | @tested env c s hu ih =>
    exact (does_test (C := C) c.readTimeout c.writeTimeout).run_inv
      (R := fun s => s.readBy = none ∧ s.writeBy = none)
      (fun o s ho hs => texec_none hr hw o s ho hs) (ih hr hw)
  | idle time hu ih => exact ih hr hw

end

end Goe2ee
