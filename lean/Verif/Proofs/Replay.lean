import Verif.Model.Replay
import Verif.Spec.Replay

/-!
# Helper lemmas about the replay window
-/

set_option autoImplicit false

namespace Goe2ee

theorem le_largest {l : List Nat} {c : Nat} (h : c ∈ l) : c ≤ largest l := by
  induction l with
  | nil => simp at h
  | cons a l ih =>
    simp only [largest]
    rcases List.mem_cons.mp h with rfl | h
    · exact Nat.le_max_left _ _
    · exact Nat.le_trans (ih h) (Nat.le_max_right _ _)

theorem largest_mem {l : List Nat} (h : largest l ≠ 0) : largest l ∈ l := by
  induction l with
  | nil => simp [largest] at h
  | cons a l ih =>
    simp only [largest] at h ⊢
    by_cases h2 : largest l ≤ a
    · rw [Nat.max_eq_left h2]; simp
    · rw [Nat.max_eq_right (by omega)] at h ⊢
      exact List.mem_cons_of_mem _ (ih h)

/-- The window `w` represents the set of accepted counters. -/
structure Represents (w : ReplayWindow) (accepted : List Nat) : Prop where
  highest : w.highest.toNat = largest accepted
  pos : ∀ c ∈ accepted, c ≠ 0
  bits : ∀ d, d < 64 → (w.bitmap.getLsbD d = true ↔ ∃ c ∈ accepted, c + d = largest accepted)

theorem represents_fresh : Represents .fresh [] where
  highest := rfl
  pos := by simp
  bits := by
    intro d hd
    simp [ReplayWindow.fresh]

theorem mask_bit (x : BitVec 64) (d : Nat) (hd : d < 64) :
    (x &&& ((1 : BitVec 64) <<< BitVec.ofNat 64 d) ≠ 0) ↔ x.getLsbD d = true := by
  have hm : (1 : BitVec 64) <<< BitVec.ofNat 64 d = BitVec.twoPow 64 d := by
    rw [BitVec.shiftLeft_eq', BitVec.toNat_ofNat, Nat.mod_eq_of_lt (by omega)]
    exact (BitVec.twoPow_eq 64 d).symm
  rw [hm, BitVec.and_twoPow]
  split
  · rename_i h
    simp only [h, iff_true]
    intro h0
    have := congrArg BitVec.toNat h0
    rw [BitVec.toNat_twoPow] at this
    have h2 : 2 ^ d < 2 ^ 64 := Nat.pow_lt_pow_right (by decide) hd
    rw [Nat.mod_eq_of_lt h2] at this
    have : 0 < 2 ^ d := Nat.two_pow_pos d
    simp_all
  · rename_i h
    simp [h]

theorem largest_cons_of_lt {l : List Nat} {c : Nat} (h : largest l ≤ c) : largest (c :: l) = c := by
  simp [largest]; omega

theorem largest_cons_of_le {l : List Nat} {c : Nat} (h : c ≤ largest l) :
    largest (c :: l) = largest l := by
  simp [largest]; omega

/-- One step of the window against the ideal filter. -/
theorem checkAndUpdate_spec (w : ReplayWindow) (accepted : List Nat) (h : Represents w accepted)
    (c : BitVec 64) :
    ((w.checkAndUpdate c).1 = true ↔ Fresh accepted c.toNat) ∧
    ((w.checkAndUpdate c).1 = true → Represents (w.checkAndUpdate c).2 (c.toNat :: accepted)) ∧
    ((w.checkAndUpdate c).1 = false → (w.checkAndUpdate c).2 = w) := by
  have hc := c.isLt
  have hh := w.highest.isLt
  unfold ReplayWindow.checkAndUpdate
  by_cases h0 : c = 0
  · subst h0; simp [Fresh]
  have h0' : c.toNat ≠ 0 := by
    intro he; apply h0; exact BitVec.eq_of_toNat_eq (by simpa using he)
  rw [if_neg h0]
  by_cases h1 : c > w.highest
  · -- ahead of everything seen
    rw [if_pos h1]
    have h1' : largest accepted < c.toNat := by rw [← h.highest]; exact h1
    have hnot : c.toNat ∉ accepted := fun hm => by have := le_largest hm; omega
    refine ⟨by simp [Fresh, h0', hnot]; omega, fun _ => ?_, by simp⟩
    have hl : largest (c.toNat :: accepted) = c.toNat := largest_cons_of_lt (by omega)
    have hs : (c - w.highest).toNat = c.toNat - largest accepted := by
      rw [BitVec.toNat_sub_of_le (BitVec.le_of_lt h1), h.highest]
    refine ⟨by simp [hl], ?_, ?_⟩
    · intro x hx
      rcases List.mem_cons.mp hx with rfl | hx
      · exact h0'
      · exact h.pos x hx
    · intro d hd
      rw [hl]
      by_cases h2 : c - w.highest ≥ replayWindowSize
      · have h2' : 64 ≤ c.toNat - largest accepted := by
          have : replayWindowSize.toNat ≤ (c - w.highest).toNat := h2
          rw [hs] at this; exact this
        simp only [h2, if_true]
        constructor
        · intro hb
          have : d = 0 := by
            by_cases hd0 : d = 0
            · exact hd0
            · simp [BitVec.getLsbD_one, hd0] at hb
          subst this
          exact ⟨c.toNat, by simp, rfl⟩
        · rintro ⟨x, hx, hxd⟩
          rcases List.mem_cons.mp hx with rfl | hx
          · have : d = 0 := by omega
            subst this; decide
          · have := le_largest hx; omega
      · have h2' : c.toNat - largest accepted < 64 := by
          have : ¬ (replayWindowSize.toNat ≤ (c - w.highest).toNat) := h2
          rw [hs] at this; simpa [replayWindowSize] using this
        simp only [h2, if_false]
        rw [BitVec.getLsbD_or, BitVec.shiftLeft_eq', BitVec.getLsbD_shiftLeft, hs]
        have h1b : (1 : BitVec 64).getLsbD d = decide (d = 0) := by
          rw [show (1 : BitVec 64) = 1#64 from rfl, BitVec.getLsbD_one]; simp
        rw [h1b]
        constructor
        · intro hb
          by_cases hd0 : d = 0
          · subst hd0; exact ⟨c.toNat, by simp, rfl⟩
          · simp only [hd0, decide_false, Bool.or_false, Bool.and_eq_true, decide_eq_true_eq,
              Bool.not_eq_true', decide_eq_false_iff_not] at hb
            obtain ⟨x, hx, hxd⟩ := (h.bits _ (by omega)).mp hb.2
            exact ⟨x, List.mem_cons_of_mem _ hx, by omega⟩
        · rintro ⟨x, hx, hxd⟩
          rcases List.mem_cons.mp hx with rfl | hx
          · have : d = 0 := by omega
            subst this; simp
          · have hle := le_largest hx
            have := (h.bits (d - (c.toNat - largest accepted)) (by omega)).mpr
              ⟨x, hx, by omega⟩
            rw [this]
            simp [hd]
            omega
  · -- inside or behind the window
    rw [if_neg h1]
    have h1' : c.toNat ≤ largest accepted := by
      rw [← h.highest]; exact Nat.le_of_not_lt h1
    have hs : (w.highest - c).toNat = largest accepted - c.toNat := by
      rw [BitVec.toNat_sub_of_le (Nat.le_of_not_lt h1), h.highest]
    by_cases h2 : w.highest - c ≥ replayWindowSize
    · have h2' : 64 ≤ largest accepted - c.toNat := by
        have : replayWindowSize.toNat ≤ (w.highest - c).toNat := h2
        rw [hs] at this; exact this
      simp only [h2, if_true]
      refine ⟨by simp [Fresh]; omega, by simp, by simp⟩
    · have h2' : largest accepted - c.toNat < 64 := by
        have : ¬ (replayWindowSize.toNat ≤ (w.highest - c).toNat) := h2
        rw [hs] at this; simpa [replayWindowSize] using this
      simp only [h2, if_false]
      have hd : w.highest - c = BitVec.ofNat 64 (largest accepted - c.toNat) := by
        apply BitVec.eq_of_toNat_eq
        rw [hs, BitVec.toNat_ofNat, Nat.mod_eq_of_lt (by omega)]
      have hiff : w.bitmap &&& ((1 : BitVec 64) <<< (w.highest - c)) ≠ 0 ↔ c.toNat ∈ accepted := by
        rw [hd, mask_bit w.bitmap (largest accepted - c.toNat) h2', h.bits _ h2']
        constructor
        · rintro ⟨x, hx, hxe⟩
          have hxl := le_largest hx
          have : x = c.toNat := by clear hs hd; omega
          rwa [← this]
        · intro hm; exact ⟨_, hm, by clear hs hd; omega⟩
      by_cases h3 : w.bitmap &&& ((1 : BitVec 64) <<< (w.highest - c)) ≠ 0
      · simp only [h3, ne_eq, not_false_iff, if_true]
        have : c.toNat ∈ accepted := hiff.mp h3
        refine ⟨by simp [Fresh, this], by simp, by simp⟩
      · have hnot : c.toNat ∉ accepted := fun hm => h3 (hiff.mpr hm)
        simp only [h3, if_false]
        refine ⟨by simp [Fresh, h0', hnot]; omega, fun _ => ?_, by simp⟩
        have hl : largest (c.toNat :: accepted) = largest accepted := largest_cons_of_le h1'
        refine ⟨by simp [hl, h.highest], ?_, ?_⟩
        · intro x hx
          rcases List.mem_cons.mp hx with rfl | hx
          · exact h0'
          · exact h.pos x hx
        · intro d hdd
          rw [hl]
          have hm : (1 : BitVec 64) <<< (w.highest - c) =
              BitVec.twoPow 64 (largest accepted - c.toNat) := by
            rw [BitVec.shiftLeft_eq', hs]; exact (BitVec.twoPow_eq 64 _).symm
          rw [hm, BitVec.getLsbD_or, BitVec.getLsbD_twoPow]
          simp only [Bool.or_eq_true, Bool.and_eq_true, decide_eq_true_eq]
          rw [h.bits d hdd]
          constructor
          · rintro (⟨x, hx, hxd⟩ | ⟨_, hxd⟩)
            · exact ⟨x, List.mem_cons_of_mem _ hx, hxd⟩
            · exact ⟨c.toNat, by simp, by omega⟩
          · rintro ⟨x, hx, hxd⟩
            rcases List.mem_cons.mp hx with rfl | hx
            · exact .inr ⟨by omega, by omega⟩
            · exact .inl ⟨x, hx, hxd⟩

end Goe2ee
