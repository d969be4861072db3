import Verif.Model.Base64

/-!
# Base64 is injective
-/

set_option autoImplicit false

namespace Goe2ee

theorem b64Char_inj : ∀ v, v < 64 → ∀ w, w < 64 → b64Char v = b64Char w → v = w := by decide

theorem b64Char_ne_pad : ∀ v, v < 64 → b64Char v ≠ 61#8 := by decide

theorem b64Encode_inj (a b : Bytes) (h : b64Encode a = b64Encode b) : a = b := by
  have lt : ∀ x : Byte, x.toNat < 256 := fun x => x.isLt
  have eqb : ∀ x y : Byte, x.toNat = y.toNat → x = y := fun x y h => BitVec.eq_of_toNat_eq h
  induction a using b64Encode.induct generalizing b with
  | case1 =>
    match b with
    | [] => rfl
    | [_] => simp [b64Encode] at h
    | [_, _] => simp [b64Encode] at h
    | _ :: _ :: _ :: _ => simp [b64Encode] at h
  | case2 a =>
    match b with
    | [] => simp [b64Encode] at h
    | [x] =>
      simp only [b64Encode, List.cons.injEq, and_true] at h
      have := lt a; have := lt x
      have h1 := b64Char_inj _ (by omega) _ (by omega) h.1
      have h2 := b64Char_inj _ (by omega) _ (by omega) h.2
      rw [eqb a x (by omega)]
    | [x, y] =>
      simp only [b64Encode, List.cons.injEq, and_true] at h
      exact absurd h.2.2.symm (b64Char_ne_pad _ (by omega))
    | x :: y :: z :: r =>
      simp only [b64Encode, List.cons.injEq] at h
      exact absurd h.2.2.1.symm (b64Char_ne_pad _ (by omega))
  | case3 a a2 =>
    match b with
    | [] => simp [b64Encode] at h
    | [x] =>
      simp only [b64Encode, List.cons.injEq, and_true] at h
      exact absurd h.2.2 (b64Char_ne_pad _ (by omega))
    | [x, y] =>
      simp only [b64Encode, List.cons.injEq, and_true] at h
      have := lt a; have := lt x; have := lt a2; have := lt y
      have h1 := b64Char_inj _ (by omega) _ (by omega) h.1
      have h2 := b64Char_inj _ (by omega) _ (by omega) h.2.1
      have h3 := b64Char_inj _ (by omega) _ (by omega) h.2.2
      rw [eqb a x (by omega), eqb a2 y (by omega)]
    | x :: y :: z :: r =>
      simp only [b64Encode, List.cons.injEq] at h
      exact absurd h.2.2.2.1.symm (b64Char_ne_pad _ (by omega))
  | case4 a a2 a3 r ih =>
    match b with
    | [] => simp [b64Encode] at h
    | [x] =>
      simp only [b64Encode, List.cons.injEq] at h
      exact absurd h.2.2.1 (b64Char_ne_pad _ (by omega))
    | [x, y] =>
      simp only [b64Encode, List.cons.injEq] at h
      exact absurd h.2.2.2.1 (b64Char_ne_pad _ (by omega))
    | x :: y :: z :: r' =>
      simp only [b64Encode, List.cons.injEq] at h
      have := lt a; have := lt x; have := lt a2; have := lt y; have := lt a3; have := lt z
      have h1 := b64Char_inj _ (by omega) _ (by omega) h.1
      have h2 := b64Char_inj _ (by omega) _ (by omega) h.2.1
      have h3 := b64Char_inj _ (by omega) _ (by omega) h.2.2.1
      have h4 := b64Char_inj _ (by omega) _ (by omega) h.2.2.2.1
      rw [ih r' h.2.2.2.2, eqb a x (by omega), eqb a2 y (by omega), eqb a3 z (by omega)]

end Goe2ee
