import Verif.Model.Loops
import Verif.Proofs.Safe

/-!
# Invariants of goroutines that may loop and block
-/

set_option autoImplicit false

namespace Goe2ee

section
variable {S : Sig} {L W E G : Type}

/-- Every goroutine respects the automaton, `P` holds whenever it is between two rounds of its loops
and `X` if it has panicked; the shared memory satisfies the invariant. -/
structure LoopsOK (A : Auto S G) (P : L → G → Prop) (X : String → G → Prop) (I : W → List G → Prop)
    (s : Loops S L W) (gs : List G) : Prop where
  len : gs.length = s.threads.length
  safe : ∀ (i : Nat) (p : Prog S L) (g : G), s.threads[i]? = some p → gs[i]? = some g →
    SafeE A p g P X
  inv : I s.world gs

theorem LoopsOK.step {A : Auto S G} {P : L → G → Prop} {X : String → G → Prop}
    {I : W → List G → Prop} {body : L → Prog S L}
    {exec : E → Nat → (o : S.Op) → W → Option (S.Ret o × W)}
    (hbody : ∀ l g, P l g → SafeE A (body l) g P X)
    (hexec : ∀ (e : E) (i : Nat) (o : S.Op) (w : W) (gs : List G) (g : G) (r : S.Ret o) (w' : W),
      gs[i]? = some g → A.pre o g → I w gs → exec e i o w = some (r, w') →
      I w' (gs.set i (A.next o r g)))
    {s : Loops S L W} {gs : List G} (h : LoopsOK A P X I s gs) (act : Nat × E) :
    ∃ gs', LoopsOK A P X I (s.step body exec act) gs' := by
  unfold Loops.step
  split
  · rename_i l hl
    refine ⟨gs, by simp [h.len], ?_, h.inv⟩
    intro j p g hp hg
    by_cases hij : act.1 = j
    · subst hij
      rw [List.getElem?_set_self (List.getElem?_eq_some_iff.mp hl).1] at hp
      cases hp
      exact hbody _ _ (h.safe _ _ _ hl hg)
    · rw [List.getElem?_set_ne hij] at hp
      exact h.safe j p g hp hg
  · rename_i o k hk
    have hi : act.1 < gs.length := by
      rw [h.len]; exact (List.getElem?_eq_some_iff.mp hk).1
    have hg : gs[act.1]? = some gs[act.1] := List.getElem?_eq_getElem hi
    have hs := h.safe _ _ _ hk hg
    split
    · rename_i r hr
      refine ⟨gs.set act.1 (A.next o r.1 gs[act.1]), by simp [h.len], ?_,
        hexec _ _ _ _ _ _ _ _ hg hs.1 h.inv hr⟩
      intro j p g hp hgj
      by_cases hij : act.1 = j
      · subst hij
        rw [List.getElem?_set_self (by rw [← h.len]; exact hi)] at hp
        rw [List.getElem?_set_self hi] at hgj
        cases hp; cases hgj
        exact hs.2 _
      · rw [List.getElem?_set_ne hij] at hp hgj
        exact h.safe j p g hp hgj
    · exact ⟨gs, h⟩
  · exact ⟨gs, h⟩

theorem LoopsOK.run {A : Auto S G} {P : L → G → Prop} {X : String → G → Prop}
    {I : W → List G → Prop} {body : L → Prog S L}
    {exec : E → Nat → (o : S.Op) → W → Option (S.Ret o × W)}
    (hbody : ∀ l g, P l g → SafeE A (body l) g P X)
    (hexec : ∀ (e : E) (i : Nat) (o : S.Op) (w : W) (gs : List G) (g : G) (r : S.Ret o) (w' : W),
      gs[i]? = some g → A.pre o g → I w gs → exec e i o w = some (r, w') →
      I w' (gs.set i (A.next o r g)))
    (acts : List (Nat × E)) {s : Loops S L W} {gs : List G} (h : LoopsOK A P X I s gs) :
    ∃ gs', LoopsOK A P X I (s.run body exec acts) gs' := by
  induction acts generalizing s gs with
  | nil => exact ⟨gs, h⟩
  | cons act acts ih =>
    obtain ⟨gs', h'⟩ := h.step hbody hexec act
    exact ih h'

end

/-! ## Sums over goroutines -/

section
variable {G : Type}

/-- The sum of `f` over all goroutines. -/
def tot (f : G → Nat) (gs : List G) : Nat := (gs.map f).sum

/-- The sum of `f` over all goroutines. -/
def totI (f : G → Int) (gs : List G) : Int := (gs.map f).sum

theorem tot_set (f : G → Nat) {gs : List G} {i : Nat} {g : G} (h : gs[i]? = some g) (g' : G) :
    tot f (gs.set i g') + f g = tot f gs + f g' := by
  induction gs generalizing i with
  | nil => cases h
  | cons a gs ih =>
    cases i with
    | zero => cases h; simp [tot]; omega
    | succ i =>
      have := ih (i := i) (by simpa using h)
      simp [tot] at this ⊢
      omega

theorem totI_set (f : G → Int) {gs : List G} {i : Nat} {g : G} (h : gs[i]? = some g) (g' : G) :
    totI f (gs.set i g') + f g = totI f gs + f g' := by
  induction gs generalizing i with
  | nil => cases h
  | cons a gs ih =>
    cases i with
    | zero => cases h; simp [totI]; omega
    | succ i =>
      have := ih (i := i) (by simpa using h)
      simp [totI] at this ⊢
      omega

theorem le_tot (f : G → Nat) {gs : List G} {i : Nat} {g : G} (h : gs[i]? = some g) :
    f g ≤ tot f gs := by
  induction gs generalizing i with
  | nil => cases h
  | cons a gs ih =>
    cases i with
    | zero => cases h; simp [tot]
    | succ i =>
      have := ih (i := i) (by simpa using h)
      simp [tot] at this ⊢
      omega

theorem add_le_tot (f : G → Nat) {gs : List G} {i j : Nat} {g g' : G} (hi : gs[i]? = some g)
    (hj : gs[j]? = some g') (hij : i ≠ j) : f g + f g' ≤ tot f gs := by
  induction gs generalizing i j with
  | nil => cases hi
  | cons a gs ih =>
    cases i with
    | zero =>
      cases j with
      | zero => exact absurd rfl hij
      | succ j =>
        cases hi
        have := le_tot f (gs := gs) (i := j) (by simpa using hj)
        simp [tot] at this ⊢
        omega
    | succ i =>
      cases j with
      | zero =>
        cases hj
        have := le_tot f (gs := gs) (i := i) (by simpa using hi)
        simp [tot] at this ⊢
        omega
      | succ j =>
        have := ih (i := i) (j := j) (by simpa using hi) (by simpa using hj) (by omega)
        simp [tot] at this ⊢
        omega

theorem tot_pos (f : G → Nat) {gs : List G} (h : 0 < tot f gs) :
    ∃ (i : Nat) (g : G), gs[i]? = some g ∧ 0 < f g := by
  induction gs with
  | nil => simp [tot] at h
  | cons a gs ih =>
    by_cases ha : 0 < f a
    · exact ⟨0, a, rfl, ha⟩
    · obtain ⟨i, g, h1, h2⟩ := ih (by simp [tot] at h ⊢; omega)
      exact ⟨i + 1, g, by simpa using h1, h2⟩

theorem tot_zero (f : G → Nat) {gs : List G} (h : ∀ g ∈ gs, f g = 0) : tot f gs = 0 := by
  induction gs with
  | nil => rfl
  | cons a gs ih =>
    have h1 := h a (by simp)
    have h2 := ih fun g hg => h g (by simp [hg])
    simp [tot] at h2 ⊢
    simp [h1]
    exact h2

theorem totI_zero (f : G → Int) {gs : List G} (h : ∀ g ∈ gs, f g = 0) : totI f gs = 0 := by
  induction gs with
  | nil => rfl
  | cons a gs ih =>
    have h1 := h a (by simp)
    have h2 := ih fun g hg => h g (by simp [hg])
    simp [totI] at h2 ⊢
    simp [h1]
    exact h2

end

end Goe2ee
