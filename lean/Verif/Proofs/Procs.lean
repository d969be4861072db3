import Verif.Model.Procs
import Verif.Proofs.Safe

/-!
# Invariants of goroutines that share memory
-/

set_option autoImplicit false

namespace Goe2ee

section
variable {S : Sig} {W E G : Type}

/-- Every goroutine respects the automaton, and the shared memory satisfies the invariant. -/
structure ProcsOK (A : Auto S G) (Inv : W → List G → Prop) (s : Procs S W) (gs : List G) : Prop where
  len : gs.length = s.threads.length
  safe : ∀ (i : Nat) (p : Prog S Unit) (g : G), s.threads[i]? = some p → gs[i]? = some g →
    SafeE A p g (fun _ _ => True) (fun _ _ => True)
  inv : Inv s.world gs

theorem ProcsOK.step {A : Auto S G} {Inv : W → List G → Prop} {exec : E → Nat → Interp S W}
    (hexec : ∀ (e : E) (i : Nat) (o : S.Op) (w : W) (gs : List G) (g : G), gs[i]? = some g →
      A.pre o g → Inv w gs → Inv (exec e i o w).2 (gs.set i (A.next o (exec e i o w).1 g)))
    {s : Procs S W} {gs : List G} (h : ProcsOK A Inv s gs) (act : Nat × E) :
    ∃ gs', ProcsOK A Inv (s.step exec act) gs' := by
  unfold Procs.step
  split
  · rename_i o k hk
    have hi : act.1 < gs.length := by
      rw [h.len]; exact (List.getElem?_eq_some_iff.mp hk).1
    have hg : gs[act.1]? = some gs[act.1] := List.getElem?_eq_getElem hi
    have hs := h.safe _ _ _ hk hg
    refine ⟨gs.set act.1 (A.next o (exec act.2 act.1 o s.world).1 gs[act.1]), by simp [h.len], ?_,
      hexec _ _ _ _ _ _ hg hs.1 h.inv⟩
    intro j p g hp hgj
    by_cases hij : act.1 = j
    · subst hij
      rw [List.getElem?_set_self (by rw [← h.len]; exact hi)] at hp
      rw [List.getElem?_set_self hi] at hgj
      cases hp; cases hgj
      exact hs.2 _
    · rw [List.getElem?_set_ne hij] at hp hgj
      exact h.safe j p g hp hgj
  · exact ⟨gs, h⟩

theorem ProcsOK.run {A : Auto S G} {Inv : W → List G → Prop} {exec : E → Nat → Interp S W}
    (hexec : ∀ (e : E) (i : Nat) (o : S.Op) (w : W) (gs : List G) (g : G), gs[i]? = some g →
      A.pre o g → Inv w gs → Inv (exec e i o w).2 (gs.set i (A.next o (exec e i o w).1 g)))
    (acts : List (Nat × E)) {s : Procs S W} {gs : List G} (h : ProcsOK A Inv s gs) :
    ∃ gs', ProcsOK A Inv (s.run exec acts) gs' := by
  induction acts generalizing s gs with
  | nil => exact ⟨gs, h⟩
  | cons act acts ih =>
    obtain ⟨gs', h'⟩ := h.step hexec act
    exact ih h'

end

end Goe2ee
