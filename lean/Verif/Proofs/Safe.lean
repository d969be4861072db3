import Verif.Model.ServerExec

/-!
# A program logic for effect trees

An automaton with ghost state `G` says which effects are allowed when, and how the ghost state
changes with their results.  `Safe` says that a program respects it on every path.
-/

set_option autoImplicit false

namespace Goe2ee

/-- Which effects are allowed in which ghost state. -/
structure Auto (S : Sig) (G : Type) where
  pre : S.Op → G → Prop
  next : (o : S.Op) → S.Ret o → G → G

variable {S : Sig} {G α β : Type}

/-- Every path of the program respects the automaton, `Q` holds of its results and `E` of its
panics. -/
def SafeE (A : Auto S G) : Prog S α → G → (α → G → Prop) → (String → G → Prop) → Prop
  | .ret a, g, Q, _ => Q a g
  | .panic m, g, _, E => E m g
  | .op o k, g, Q, E => A.pre o g ∧ ∀ r, SafeE A (k r) (A.next o r g) Q E

theorem SafeE.bind {A : Auto S G} {p : Prog S α} {f : α → Prog S β} {g : G} {Q : β → G → Prop}
    {E : String → G → Prop}
    (h : SafeE A p g (fun a g' => SafeE A (f a) g' Q E) E) : SafeE A (p.bind f) g Q E := by
  induction p generalizing g with
  | ret a => exact h
  | panic m => exact h
  | op o k ih => exact ⟨h.1, fun r => ih r (h.2 r)⟩

theorem SafeE.mono {A : Auto S G} {p : Prog S α} {g : G} {Q Q' : α → G → Prop}
    {E E' : String → G → Prop} (h : SafeE A p g Q E) (hQ : ∀ a g', Q a g' → Q' a g')
    (hE : ∀ m g', E m g' → E' m g') : SafeE A p g Q' E' := by
  induction p generalizing g with
  | ret a => exact hQ _ _ h
  | panic m => exact hE _ _ h
  | op o k ih => exact ⟨h.1, fun r => ih r (h.2 r)⟩

/-- A program that respects the automaton, run by an interpreter that the ghost state follows. -/
theorem SafeE.run {σ : Type} {A : Auto S G} {p : Prog S α} {g : G} {Q : α → G → Prop}
    {E : String → G → Prop} (h : SafeE A p g Q E) (I : Interp S σ) (R : G → σ → Prop)
    (hstep : ∀ o g s, A.pre o g → R g s → R (A.next o (I o s).1 g) (I o s).2) (s : σ) (hR : R g s) :
    ∃ g', R g' (p.run I s).2 ∧
      match (p.run I s).1 with
      | .val a => Q a g'
      | .panic m => E m g' := by
  induction p generalizing g s with
  | ret a => exact ⟨g, hR, h⟩
  | panic m => exact ⟨g, hR, h⟩
  | op o k ih => exact ih _ (h.2 _) _ (hstep o g s h.1 hR)

/-- Every path of the program respects the automaton, and `Q` holds of its results. -/
def Safe (A : Auto S G) : Prog S α → G → (α → G → Prop) → Prop
  | .ret a, g, Q => Q a g
  | .panic _, _, _ => True
  | .op o k, g, Q => A.pre o g ∧ ∀ r, Safe A (k r) (A.next o r g) Q

theorem Safe.toE {A : Auto S G} {p : Prog S α} {g : G} {Q : α → G → Prop} (h : Safe A p g Q) :
    SafeE A p g Q fun _ _ => True := by
  induction p generalizing g with
  | ret a => exact h
  | panic m => trivial
  | op o k ih => exact ⟨h.1, fun r => ih r (h.2 r)⟩

theorem Safe.bind {A : Auto S G} {p : Prog S α} {f : α → Prog S β} {g : G} {Q : β → G → Prop}
    (h : Safe A p g (fun a g' => Safe A (f a) g' Q)) : Safe A (p.bind f) g Q := by
  induction p generalizing g with
  | ret a => exact h
  | panic m => trivial
  | op o k ih => exact ⟨h.1, fun r => ih r (h.2 r)⟩

theorem Safe.mono {A : Auto S G} {p : Prog S α} {g : G} {Q Q' : α → G → Prop}
    (h : Safe A p g Q) (hQ : ∀ a g', Q a g' → Q' a g') : Safe A p g Q' := by
  induction p generalizing g with
  | ret a => exact hQ _ _ h
  | panic m => trivial
  | op o k ih => exact ⟨h.1, fun r => ih r (h.2 r)⟩

/-- The program performs only effects that satisfy `P`. -/
def Uses (P : S.Op → Prop) : Prog S α → Prop
  | .ret _ => True
  | .panic _ => True
  | .op o k => P o ∧ ∀ r, Uses P (k r)

/-- A program whose effects are always allowed and do not change the ghost state. -/
theorem Safe.of_uses {A : Auto S G} {P : S.Op → Prop} {p : Prog S α}
    (hp : Uses P p) (hpre : ∀ o g, P o → A.pre o g) (hnext : ∀ o r g, P o → A.next o r g = g)
    {g : G} {Q : α → G → Prop} (hQ : ∀ a, Q a g) : Safe A p g Q := by
  induction p with
  | ret a => exact hQ a
  | panic m => trivial
  | op o k ih =>
    refine ⟨hpre _ _ hp.1, fun r => ?_⟩
    rw [hnext _ _ _ hp.1]
    exact ih r (hp.2 r)

theorem SafeE.of_uses {A : Auto S G} {P : S.Op → Prop} {p : Prog S α}
    (hp : Uses P p) (hpre : ∀ o g, P o → A.pre o g) (hnext : ∀ o r g, P o → A.next o r g = g)
    {g : G} {Q : α → G → Prop} {E : String → G → Prop} (hQ : ∀ a, Q a g) (hE : ∀ m, E m g) :
    SafeE A p g Q E := by
  induction p with
  | ret a => exact hQ a
  | panic m => exact hE m
  | op o k ih =>
    refine ⟨hpre _ _ hp.1, fun r => ?_⟩
    rw [hnext _ _ _ hp.1]
    exact ih r (hp.2 r)

/-- What the effects of a program preserve, a run of it preserves. -/
theorem Uses.run {σ : Type} {P : S.Op → Prop} {p : Prog S α} (hp : Uses P p) (I : Interp S σ)
    (R : σ → Prop) (hstep : ∀ o s, P o → R s → R (I o s).2) (s : σ) (hR : R s) :
    R (p.run I s).2 := by
  induction p generalizing s with
  | ret a => exact hR
  | panic m => exact hR
  | op o k ih => exact ih _ (hp.2 _) _ (hstep o s hp.1 hR)

theorem Uses.bind {P : S.Op → Prop} {p : Prog S α} {f : α → Prog S β} (hp : Uses P p)
    (hf : ∀ a, Uses P (f a)) : Uses P (p.bind f) := by
  induction p with
  | ret a => exact hf a
  | panic m => trivial
  | op o k ih => exact ⟨hp.1, fun r => ih r (hp.2 r)⟩

theorem Uses.mono {P P' : S.Op → Prop} {p : Prog S α} (hp : Uses P p) (h : ∀ o, P o → P' o) :
    Uses P' p := by
  induction p with
  | ret a => trivial
  | panic m => trivial
  | op o k ih => exact ⟨h _ hp.1, fun r => ih r (hp.2 r)⟩

/-- Read effects. -/
def SOp.isRead : SOp → Prop
  | .read _ => True
  | _ => False

theorem uses_onConn {C : Crypto} {α : Type} (p : RProg α) :
    Uses (S := SSig C) SOp.isRead (onConn p) := by
  unfold onConn
  induction p with
  | ret a => trivial
  | panic m => trivial
  | op o k ih => exact ⟨trivial, fun r => ih r⟩

/-- Effects a session manager may perform: its table, the clock, its own choices. -/
def SOp.isTable : SOp → Prop
  | .now => True
  | .mapLoad _ => True
  | .mapStore _ _ => True
  | .mapDelete _ => True
  | .choose => True
  | _ => False

/-- A session manager that only uses its own table, the clock and choices of its own: it never looks
inside a session, talks to a connection or calls the application. -/
structure Manager.Passive {C : Crypto} (M : Manager C) : Prop where
  store : ∀ k r, Uses (S := SSig C) SOp.isTable (M.store k r)
  load : ∀ k, Uses (S := SSig C) SOp.isTable (M.load k)

theorem inMemory_passive (C : Crypto) : (inMemory C).Passive where
  store k r := ⟨trivial, fun _ => ⟨trivial, fun _ => trivial⟩⟩
  load k := by
    refine ⟨trivial, fun v => ?_⟩
    match v with
    | none => trivial
    | some (r, t) => exact ⟨trivial, fun _ => ⟨trivial, fun _ => trivial⟩⟩

/-- Effects that write to or close the goroutine's connection. -/
def SOp.isWrite : SOp → Prop
  | .write _ => True
  | _ => False

theorem uses_writeErrorResponse {C : Crypto} (bs : Bytes) :
    Uses (S := SSig C) SOp.isWrite (writeErrorResponse bs) := by
  refine ⟨trivial, fun r => ?_⟩
  rcases r with ⟨n, _ | e⟩
  · show Uses _ (if _ then _ else _)
    split <;> trivial
  · trivial

theorem uses_failWith {C : Crypto} (code : ErrorCode) (text : String) :
    Uses (S := SSig C) SOp.isWrite (failWith code text) := by
  refine (uses_writeErrorResponse _).bind fun ok => ?_
  split <;> trivial

theorem uses_writeResponse {C : Crypto} (bs : Bytes) :
    Uses (S := SSig C) SOp.isWrite (writeResponse bs) := by
  refine ⟨trivial, fun r => ?_⟩
  rcases r with ⟨n, _ | e⟩
  · show Uses _ (if _ then _ else _)
    split <;> trivial
  · show Uses _ (if _ then _ else if _ then _ else _)
    split
    · trivial
    · split
      · trivial
      · exact uses_writeErrorResponse _

theorem uses_respondWith {C : Crypto} (bs : Bytes) :
    Uses (S := SSig C) SOp.isWrite (respondWith bs) := by
  refine (uses_writeResponse _).bind fun ok => ?_
  split <;> trivial

end Goe2ee
