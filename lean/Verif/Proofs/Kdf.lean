import Verif.Model.Kdf
import Verif.Spec.Hkdf

/-!
# Helper lemmas about key derivation
-/

set_option autoImplicit false

namespace Goe2ee

variable {C : Crypto}

theorem hkdfT_length (hl : ∀ k m, (C.hmac k m).length = 32) (prk info : Bytes) (i : Nat) :
    (hkdfT C.hmac prk info (i + 1)).length = 32 := by simp [hkdfT, hl]

theorem hkdfBlocks_length (hl : ∀ k m, (C.hmac k m).length = 32) (prk info : Bytes) (n : Nat) :
    (hkdfBlocks C.hmac prk info n).length = 32 * n := by
  induction n with
  | zero => rfl
  | succ n ih => simp [hkdfBlocks, ih, hkdfT_length hl]; omega

theorem hkdfBlocks_prefix (prk info : Bytes) (m n : Nat) (h : m ≤ n) :
    hkdfBlocks C.hmac prk info m <+: hkdfBlocks C.hmac prk info n := by
  induction n with
  | zero => have : m = 0 := by omega
            subst this; exact List.prefix_refl _
  | succ n ih =>
    by_cases hm : m = n + 1
    · subst hm; exact List.prefix_refl _
    · exact (ih (by omega)).trans (by simp [hkdfBlocks])

theorem take_prefix_eq {α : Type} {a b : List α} (h : a <+: b) (n : Nat) (hn : n ≤ a.length) :
    b.take n = a.take n := by
  obtain ⟨c, rfl⟩ := h
  rw [List.take_append_of_le_length hn]

/-- The loop invariant of `hkdf.Expand`. -/
theorem hkdfExpandLoop_eq (hl : ∀ k m, (C.hmac k m).length = 32) (prk info : Bytes) (length : Nat)
    (hlen : length ≤ 255 * 32) (fuel i : Nat)
    (hf : length ≤ fuel + 32 * i) :
    hkdfExpandLoop C prk info length fuel (BitVec.ofNat 8 i) (hkdfT C.hmac prk info i)
        ((hkdfBlocks C.hmac prk info i).take length) =
      (hkdfBlocks C.hmac prk info 255).take length := by
  induction fuel generalizing i with
  | zero =>
    simp only [hkdfExpandLoop]
    have hb := hkdfBlocks_length hl prk info i
    rcases Nat.le_total i 255 with h | h
    · exact (take_prefix_eq (hkdfBlocks_prefix prk info i 255 h) length (by omega)).symm
    · exact take_prefix_eq (hkdfBlocks_prefix prk info 255 i h) length
        (by rw [hkdfBlocks_length hl]; omega)
  | succ fuel ih =>
    have hb := hkdfBlocks_length hl prk info i
    simp only [hkdfExpandLoop]
    by_cases hlt : ((hkdfBlocks C.hmac prk info i).take length).length < length
    · rw [if_pos hlt]
      have hi : 32 * i < length := by
        simp only [List.length_take, hb] at hlt; omega
      have h1 : BitVec.ofNat 8 i + 1 = BitVec.ofNat 8 (i + 1) := by
        rw [show (1 : BitVec 8) = BitVec.ofNat 8 1 from rfl, BitVec.ofNat_add]
      rw [h1]
      have h2 : C.hmac prk (hkdfT C.hmac prk info i ++ info ++ [BitVec.ofNat 8 (i + 1)]) =
          hkdfT C.hmac prk info (i + 1) := rfl
      rw [h2]
      have h3 : (hkdfBlocks C.hmac prk info i).take length ++
            (hkdfT C.hmac prk info (i + 1)).take
              (length - ((hkdfBlocks C.hmac prk info i).take length).length) =
          (hkdfBlocks C.hmac prk info (i + 1)).take length := by
        rw [hkdfBlocks, List.take_append, List.length_take, hb, Nat.min_eq_right (by omega)]
      rw [h3]
      exact ih (i + 1) (by omega)
    · rw [if_neg hlt]
      have hi : length ≤ 32 * i := by
        simp only [List.length_take, hb] at hlt; omega
      rcases Nat.le_total i 255 with h | h
      · exact (take_prefix_eq (hkdfBlocks_prefix prk info i 255 h) length (by omega)).symm
      · exact take_prefix_eq (hkdfBlocks_prefix prk info 255 i h) length
          (by rw [hkdfBlocks_length hl]; omega)

theorem hkdfKey_eq (hl : ∀ k m, (C.hmac k m).length = 32) (secret info : Bytes) (length : Nat)
    (hlen : length ≤ 255 * 32) :
    hkdfKey C secret info length = .ok (hkdfRFC C.hmac secret info length) := by
  have h := hkdfExpandLoop_eq hl (C.hmac (List.replicate 32 0) secret) info length hlen length 0
    (by omega)
  change hkdfExpandLoop C _ info length length 0 [] (List.take length []) = _ at h
  rw [List.take_nil] at h
  rw [hkdfKey, if_neg (by omega)]
  exact congrArg Except.ok h

theorem hkdfRFC_length (hl : ∀ k m, (C.hmac k m).length = 32) (secret info : Bytes) (length : Nat)
    (hlen : length ≤ 255 * 32) : (hkdfRFC C.hmac secret info length).length = length := by
  rw [hkdfRFC, List.length_take, hkdfBlocks_length hl]; omega

end Goe2ee
