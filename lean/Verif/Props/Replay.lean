import Verif.Proofs.Replay

/-!
# C17: the replay filter
-/

set_option autoImplicit false

namespace Goe2ee

/-- The answers of consecutive `CheckAndUpdate` calls on one window. -/
def filterAnswers : ReplayWindow → List (BitVec 64) → List Bool
  | _, [] => []
  | w, c :: cs => (w.checkAndUpdate c).1 :: filterAnswers (w.checkAndUpdate c).2 cs

theorem filterAnswers_ideal (cs : List (BitVec 64)) (w : ReplayWindow) (acc : List Nat)
    (h : Represents w acc) : filterAnswers w cs = idealAnswers acc (cs.map BitVec.toNat) := by
  induction cs generalizing w acc with
  | nil => rfl
  | cons c cs ih =>
    obtain ⟨h1, h2, h3⟩ := checkAndUpdate_spec w acc h c
    simp only [filterAnswers, List.map_cons, idealAnswers]
    by_cases hf : Fresh acc c.toNat
    · rw [if_pos hf, h1.mpr hf, ih _ _ (h2 (h1.mpr hf))]
    · have hb : (w.checkAndUpdate c).1 = false := by
        cases hh : (w.checkAndUpdate c).1
        · rfl
        · exact absurd (h1.mp hh) hf
      rw [if_neg hf, hb, h3 hb, ih _ _ h]

/-- **C17.** For every sequence of counters the answers of a fresh replay filter are those of the
ideal filter, which remembers every accepted counter and accepts exactly the fresh ones: non-zero,
never accepted before, less than 64 behind the largest accepted. -/
theorem C17_replay_filter_exact (cs : List (BitVec 64)) :
    filterAnswers .fresh cs = idealAnswers [] (cs.map BitVec.toNat) :=
  filterAnswers_ideal cs _ _ represents_fresh

example : filterAnswers .fresh [5, 3, 5, 0, 70, 6, 7, 3, 69, 70, 0xFFFFFFFFFFFFFFFF, 71] =
    [true, true, false, false, true, false, true, false, true, false, true, false] := by decide

end Goe2ee
