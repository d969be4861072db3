import Verif.Spec.Dns
import Verif.Proofs.Codec
import Verif.Proofs.Base64

/-!
# DNSKEY records
-/

set_option autoImplicit false

namespace Goe2ee

/-! ### Base64 -/

theorem b64Value_char : ∀ v, v < 64 → b64Value (b64Char v) = some v := by decide

theorem b64Char_plain : ∀ v, v < 64 → b64Char v ≠ 10#8 ∧ b64Char v ≠ 13#8 ∧ b64Char v ≠ 32#8 := by
  decide

theorem b64Encode_plain (raw : Bytes) : ∀ c ∈ b64Encode raw, c ≠ 10#8 ∧ c ≠ 13#8 ∧ c ≠ 32#8 := by
  induction raw using b64Encode.induct with
  | case1 => intro c hc; cases hc
  | case2 a =>
    intro c hc
    have := a.isLt
    simp only [b64Encode, List.mem_cons, List.not_mem_nil, or_false] at hc
    rcases hc with rfl | rfl | rfl | rfl
    · exact b64Char_plain _ (by omega)
    · exact b64Char_plain _ (by omega)
    · decide
    · decide
  | case3 a b =>
    intro c hc
    have := a.isLt
    have := b.isLt
    simp only [b64Encode, List.mem_cons, List.not_mem_nil, or_false] at hc
    rcases hc with rfl | rfl | rfl | rfl
    · exact b64Char_plain _ (by omega)
    · exact b64Char_plain _ (by omega)
    · exact b64Char_plain _ (by omega)
    · decide
  | case4 a b d r ih =>
    intro c hc
    have := a.isLt
    have := b.isLt
    have := d.isLt
    simp only [b64Encode, List.mem_cons] at hc
    rcases hc with rfl | rfl | rfl | rfl | hc
    · exact b64Char_plain _ (by omega)
    · exact b64Char_plain _ (by omega)
    · exact b64Char_plain _ (by omega)
    · exact b64Char_plain _ (by omega)
    · exact ih c hc

theorem ofNat_toNat_eq {a : Byte} {n : Nat} (h : n % 256 = a.toNat) : BitVec.ofNat 8 n = a := by
  apply BitVec.eq_of_toNat_eq
  simpa using h

theorem b64Quanta_encode (raw : Bytes) : b64Quanta (b64Encode raw) = some raw := by
  have lt : ∀ x : Byte, x.toNat < 256 := fun x => x.isLt
  induction raw using b64Encode.induct with
  | case1 => rfl
  | case2 a =>
    have := lt a
    simp only [b64Encode, b64Quanta]
    rw [b64Value_char _ (by omega), b64Value_char _ (by omega)]
    simp only [and_self, if_true]
    congr 2
    exact ofNat_toNat_eq (by omega)
  | case3 a b =>
    have := lt a
    have := lt b
    simp only [b64Encode, b64Quanta]
    rw [b64Value_char _ (by omega), b64Value_char _ (by omega), b64Value_char _ (by omega)]
    simp only
    rw [if_neg (fun h => b64Char_ne_pad _ (by omega) h.1), if_pos (by simp)]
    rw [ofNat_toNat_eq (a := a) (by omega), ofNat_toNat_eq (a := b) (by omega)]
  | case4 a b c r ih =>
    have := lt a
    have := lt b
    have := lt c
    simp only [b64Encode, b64Quanta]
    rw [b64Value_char _ (by omega), b64Value_char _ (by omega), b64Value_char _ (by omega),
      b64Value_char _ (by omega), ih]
    simp only
    rw [if_neg (fun h => b64Char_ne_pad _ (by omega) h.1),
      if_neg (fun h => b64Char_ne_pad _ (by omega) h.1)]
    rw [ofNat_toNat_eq (a := a) (by omega), ofNat_toNat_eq (a := b) (by omega),
      ofNat_toNat_eq (a := c) (by omega)]

theorem b64Decode_encode (raw : Bytes) : b64Decode (b64Encode raw) = some raw := by
  unfold b64Decode
  rw [List.filter_eq_self.mpr, b64Quanta_encode]
  intro c hc
  have := b64Encode_plain raw c hc
  simp [this.1, this.2.1]

theorem sextet_char : ∀ v, v < 64 →
    (str "ABCDEFGHIJKLMNOPQRSTUVWXYZabcdefghijklmnopqrstuvwxyz0123456789+/")[v]? = some (b64Char v) := by decide +kernel

theorem sextet_iff {c : Byte} {v : Nat} : Sextet c v ↔ b64Value c = some v := by
  have hlen : (str "ABCDEFGHIJKLMNOPQRSTUVWXYZabcdefghijklmnopqrstuvwxyz0123456789+/").length = 64 := by decide +kernel
  constructor
  · intro h
    have hv : v < 64 := by
      have := (List.getElem?_eq_some_iff.1 h).1
      omega
    have : some c = some (b64Char v) := h.symm.trans (sextet_char v hv)
    cases this
    exact b64Value_char v hv
  · intro h
    have hc : v < 64 ∧ c = b64Char v := by
      have : ∀ n, n < 256 → ∀ w, b64Value (BitVec.ofNat 8 n) = some w → w < 64 ∧ BitVec.ofNat 8 n = b64Char w := by
        have hdec : ∀ n, n < 256 → ∀ w ∈ b64Value (BitVec.ofNat 8 n), w < 64 ∧ BitVec.ofNat 8 n = b64Char w := by
          decide +kernel
        exact fun n hn w hw => hdec n hn w hw
      have h' := this c.toNat c.isLt v (by rwa [BitVec.ofNat_toNat, BitVec.setWidth_eq])
      rwa [BitVec.ofNat_toNat, BitVec.setWidth_eq] at h'
    rw [hc.2]
    exact sextet_char v hc.1

theorem b64Value_lt {c : Byte} {v : Nat} (h : b64Value c = some v) : v < 64 := by
  have h := (List.getElem?_eq_some_iff.1 (sextet_iff.2 h)).1
  have hlen : (str "ABCDEFGHIJKLMNOPQRSTUVWXYZabcdefghijklmnopqrstuvwxyz0123456789+/").length = 64 := by decide +kernel
  omega

theorem b64Value_pad : b64Value 61#8 = none := by decide

/-- Decoding, as RFC 4648 says. -/
theorem b64Quanta_iff (text raw : Bytes) : b64Quanta text = some raw ↔ Base64 text raw := by
  constructor
  · intro h
    induction text using b64Quanta.induct generalizing raw with
    | case1 => cases h; exact .nil
    | case2 a b c d rest x y hy hx hpad =>
      simp only [b64Quanta, hx, hy, if_pos hpad] at h
      obtain ⟨rfl, rfl, rfl⟩ := hpad
      cases h
      have := b64Value_lt hx
      have := b64Value_lt hy
      refine .two (u := y % 16) (sextet_iff.2 hx) (sextet_iff.2 hy) (by omega) ?_
      simp only [BitVec.toNat_ofNat]
      omega
    | case3 a b c d rest x y hy hx hpad z hz hpad' =>
      simp only [b64Quanta, hx, hy, hz, if_neg hpad, if_pos hpad'] at h
      obtain ⟨rfl, rfl⟩ := hpad'
      cases h
      have := b64Value_lt hx
      have := b64Value_lt hy
      have := b64Value_lt hz
      refine .three (u := z % 4) (sextet_iff.2 hx) (sextet_iff.2 hy) (sextet_iff.2 hz) (by omega) ?_
      simp only [BitVec.toNat_ofNat]
      omega
    | case4 a b c d rest x y hy hx hpad z hz hpad' w out hout hw ih =>
      simp only [b64Quanta, hx, hy, hz, hw, hout, if_neg hpad, if_neg hpad'] at h
      cases h
      have := b64Value_lt hx
      have := b64Value_lt hy
      have := b64Value_lt hz
      have := b64Value_lt hw
      refine .four (sextet_iff.2 hx) (sextet_iff.2 hy) (sextet_iff.2 hz) (sextet_iff.2 hw) ?_ (ih _ hout)
      simp only [BitVec.toNat_ofNat]
      omega
    | case5 a b c d rest x y hy hx hpad z hz hpad' hno ih =>
      simp only [b64Quanta, hx, hy, hz, if_neg hpad, if_neg hpad'] at h
      cases h
    | case6 => simp_all [b64Quanta]
    | case7 => simp_all [b64Quanta]
    | case8 => simp_all [b64Quanta]
  · intro h
    induction h with
    | nil => rfl
    | @two a b x y u p ha hb hu h =>
      rw [sextet_iff] at ha hb
      simp only [b64Quanta, ha, hb, and_self, if_true]
      rw [ofNat_toNat_eq (a := p) (n := (x * 64 + y) / 16) (by have := p.isLt; omega)]
    | @three a b c x y z u p q ha hb hc hu h =>
      rw [sextet_iff] at ha hb hc
      have hne : c ≠ 61#8 := by rintro rfl; rw [b64Value_pad] at hc; cases hc
      have := p.isLt
      have := q.isLt
      have := b64Value_lt ha
      have := b64Value_lt hb
      have := b64Value_lt hc
      simp only [b64Quanta, ha, hb, hc, if_neg (fun h : c = 61#8 ∧ _ => hne h.1), and_self, if_true]
      rw [ofNat_toNat_eq (a := p) (n := (x * 64 + y) / 16) (by omega),
        ofNat_toNat_eq (a := q) (n := (y * 64 + z) / 4) (by omega)]
    | @four a b c d x y z w p q r text out ha hb hc hd h _ ih =>
      rw [sextet_iff] at ha hb hc hd
      have hc' : c ≠ 61#8 := by rintro rfl; rw [b64Value_pad] at hc; cases hc
      have hd' : d ≠ 61#8 := by rintro rfl; rw [b64Value_pad] at hd; cases hd
      have := p.isLt
      have := q.isLt
      have := r.isLt
      have := b64Value_lt ha
      have := b64Value_lt hb
      have := b64Value_lt hc
      have := b64Value_lt hd
      simp only [b64Quanta, ha, hb, hc, hd, ih, if_neg (fun h : c = 61#8 ∧ _ => hc' h.1),
        if_neg (fun h : d = 61#8 ∧ _ => hd' h.1)]
      rw [ofNat_toNat_eq (a := p) (n := (x * 64 + y) / 16) (by omega),
        ofNat_toNat_eq (a := q) (n := (y * 64 + z) / 4) (by omega), ofNat_toNat_eq (a := r) (n := z * 64 + w) (by omega)]

theorem b64Decode_iff (text raw : Bytes) : b64Decode text = some raw ↔ Base64Text text raw := by
  have : (fun c : Byte => decide (c ≠ 10#8 ∧ c ≠ 13#8)) = fun c => decide (c ∉ str "\r\n") := by
    funext c
    have : str "\r\n" = [13#8, 10#8] := by decide +kernel
    rw [this]
    simp [and_comm]
  rw [b64Decode, b64Quanta_iff, Base64Text, this]

/-! ### Fields and numerals -/

theorem splitSpace_none {s : Bytes} (h : (32 : Byte) ∉ s) : splitSpace s = [s] := by
  induction s with
  | nil => rfl
  | cons b s ih =>
    have hb : b ≠ 32#8 := fun hb => h (by rw [hb]; simp)
    have hs : (32 : Byte) ∉ s := fun hs => h (List.mem_cons_of_mem _ hs)
    simp [splitSpace, hb, ih hs]

theorem splitSpace_cons {f rest : Bytes} (h : (32 : Byte) ∉ f) :
    splitSpace (f ++ [32] ++ rest) = f :: splitSpace rest := by
  induction f with
  | nil => simp [splitSpace]
  | cons b f ih =>
    have hb : b ≠ 32#8 := fun hb => h (by rw [hb]; simp)
    have hs : (32 : Byte) ∉ f := fun hs => h (List.mem_cons_of_mem _ hs)
    have ih := ih hs
    show splitSpace (b :: (f ++ [32] ++ rest)) = _
    rw [splitSpace, if_neg hb, ih]

theorem splitSpace_ne_nil (s : Bytes) : splitSpace s ≠ [] := by
  cases s with
  | nil => simp [splitSpace]
  | cons b s =>
    simp only [splitSpace]
    split
    · simp
    · split <;> simp

/-- One part: no space; more parts: the first ends at the first space. -/
theorem splitSpace_inv {s p : Bytes} {ps : List Bytes} (h : splitSpace s = p :: ps) :
    (32 : Byte) ∉ p ∧ ((ps = [] ∧ s = p) ∨ ∃ rest, s = p ++ [32] ++ rest ∧ splitSpace rest = ps) := by
  induction s generalizing p ps with
  | nil =>
    simp [splitSpace] at h
    obtain ⟨rfl, rfl⟩ := h
    exact ⟨by simp, Or.inl ⟨rfl, rfl⟩⟩
  | cons b s ih =>
    simp only [splitSpace] at h
    split at h
    · rename_i hb
      injection h with h1 h2
      subst h1 hb
      exact ⟨by simp, Or.inr ⟨s, rfl, h2⟩⟩
    · rename_i hb
      split at h
      · rename_i hs
        exact absurd hs (splitSpace_ne_nil s)
      · rename_i q qs hs
        injection h with h1 h2
        subst h1 h2
        obtain ⟨h1, h2⟩ := ih hs
        refine ⟨?_, ?_⟩
        · intro hm
          rcases List.mem_cons.mp hm with hm | hm
          · exact hb hm.symm
          · exact h1 hm
        · rcases h2 with ⟨rfl, rfl⟩ | ⟨rest, rfl, hr⟩
          · exact Or.inl ⟨rfl, rfl⟩
          · exact Or.inr ⟨rest, by simp, hr⟩

theorem fields_iff {text f p a k : Bytes} : splitSpace text = [f, p, a, k] ↔ Fields text f p a k := by
  constructor
  · intro h
    obtain ⟨h1, ⟨hc, _⟩ | ⟨r1, e1, g1⟩⟩ := splitSpace_inv h
    · cases hc
    obtain ⟨h2, ⟨hc, _⟩ | ⟨r2, e2, g2⟩⟩ := splitSpace_inv g1
    · cases hc
    obtain ⟨h3, ⟨hc, _⟩ | ⟨r3, e3, g3⟩⟩ := splitSpace_inv g2
    · cases hc
    obtain ⟨h4, ⟨_, e4⟩ | ⟨r4, e4, g4⟩⟩ := splitSpace_inv g3
    · subst e1 e2 e3 e4
      exact ⟨by simp, h1, h2, h3, h4⟩
    · exact absurd g4 (splitSpace_ne_nil _)
  · rintro ⟨rfl, h1, h2, h3, h4⟩
    have e : f ++ [32] ++ p ++ [32] ++ a ++ [32] ++ k
        = f ++ [32] ++ (p ++ [32] ++ (a ++ [32] ++ k)) := by simp
    rw [e, splitSpace_cons h1, splitSpace_cons h2, splitSpace_cons h3, splitSpace_none h4]

theorem decDigits_iff {s : Bytes} {a v : Nat} : decDigits a s = some v ↔
    (∀ c ∈ s, 48 ≤ c.toNat ∧ c.toNat ≤ 57) ∧ s.foldl (fun a c => a * 10 + (c.toNat - 48)) a = v := by
  induction s generalizing a with
  | nil => simp [decDigits]
  | cons b s ih =>
    simp only [decDigits, List.foldl_cons, List.mem_cons, forall_eq_or_imp]
    by_cases hb : 48 ≤ b.toNat ∧ b.toNat ≤ 57
    · rw [if_pos hb, ih]
      simp [hb]
    · rw [if_neg hb]
      constructor
      · intro h; cases h
      · intro h; exact absurd h.1.1 hb

theorem parseUint_iff {s : Bytes} {bits v : Nat} :
    parseUint s bits = some v ↔ Numeral s v ∧ v < 2 ^ bits := by
  unfold Numeral
  cases s with
  | nil => simp [parseUint]
  | cons b s =>
    unfold parseUint
    simp only [ne_eq, reduceCtorEq, not_false_eq_true, true_and]
    rw [← decDigits_iff]
    cases hd : decDigits 0 (b :: s) with
    | none => simp
    | some w =>
      simp only [Option.some.injEq]
      split
      · rename_i hw
        simp only [Option.some.injEq]
        constructor
        · rintro rfl; exact ⟨rfl, hw⟩
        · exact fun h => h.1
      · rename_i hw
        constructor
        · intro h; cases h
        · rintro ⟨rfl, h⟩; exact absurd h hw

/-! ### RSA material -/

theorem getElem?_append_at {α : Type} (a : List α) (x : α) (b : List α) :
    (a ++ x :: b)[a.length]? = some x := by simp

theorem rsa_accepts {raw : Bytes} {n e : Nat} (h : RsaMaterial raw n e) :
    publicKeyRSA raw = .val (some ⟨some n, e⟩) := by
  obtain ⟨exp, modulus, hraw, h1, h4, hh, he, hlt, h64, h512, hm, hn⟩ := h
  obtain ⟨x, xs, rfl⟩ : ∃ x xs, exp = x :: xs := by
    cases exp with
    | nil => simp at h1
    | cons x xs => exact ⟨x, xs, rfl⟩
  obtain ⟨m, ms, rfl⟩ : ∃ m ms, modulus = m :: ms := by
    cases modulus with
    | nil => simp at h64
    | cons m ms => exact ⟨m, ms, rfl⟩
  have hx : x.toNat ≠ 0 := fun h => hh (by simp; exact BitVec.eq_of_toNat_eq (by simpa using h))
  have hm0 : m.toNat ≠ 0 := fun h => hm (by simp; exact BitVec.eq_of_toNat_eq (by simpa using h))
  have hlen : (BitVec.ofNat 8 (x :: xs).length).toNat = (x :: xs).length := by
    rw [BitVec.toNat_ofNat]; exact Nat.mod_eq_of_lt (by omega)
  generalize hL : (x :: xs).length = L at *
  unfold publicKeyRSA
  rcases hraw with rfl | rfl
  · have hl : ([BitVec.ofNat 8 L] ++ (x :: xs) ++ (m :: ms)).length = 1 + L + (m :: ms).length := by
      simp [← hL]; omega
    have g0 : ([BitVec.ofNat 8 L] ++ (x :: xs) ++ (m :: ms))[0]? = some (BitVec.ofNat 8 L) := rfl
    have g1 : ([BitVec.ofNat 8 L] ++ (x :: xs) ++ (m :: ms))[1]? = some x := rfl
    obtain ⟨b2, g2⟩ : ∃ b, ([BitVec.ofNat 8 L] ++ (x :: xs) ++ (m :: ms))[2]? = some b :=
      ⟨_, List.getElem?_eq_getElem (by omega)⟩
    have gm : ([BitVec.ofNat 8 L] ++ (x :: xs) ++ (m :: ms))[1 + L]? = some m := by
      have := getElem?_append_at ([BitVec.ofNat 8 L] ++ (x :: xs)) m ms
      rwa [show ([BitVec.ofNat 8 L] ++ (x :: xs)).length = 1 + L by simp [← hL]; omega] at this
    have tk : (([BitVec.ofNat 8 L] ++ (x :: xs) ++ (m :: ms)).take (1 + L)).drop 1 = x :: xs := by
      rw [show 1 + L = ([BitVec.ofNat 8 L] ++ (x :: xs)).length by simp [← hL]; omega,
        List.take_left]
      rfl
    have dr : ([BitVec.ofNat 8 L] ++ (x :: xs) ++ (m :: ms)).drop (1 + L) = m :: ms := by
      rw [show 1 + L = ([BitVec.ofNat 8 L] ++ (x :: xs)).length by simp [← hL]; omega,
        List.drop_left]
    rw [if_neg (by omega), g0, g1, g2]
    simp only [hlen]
    rw [if_neg (by omega), if_neg (by omega), g1]
    simp only
    rw [if_neg (by omega), if_neg (by omega), gm]
    simp only
    rw [if_neg hm0, tk, dr, he, hn, if_neg (by omega)]
  · have hl : ([0, 0, BitVec.ofNat 8 L] ++ (x :: xs) ++ (m :: ms)).length
        = 3 + L + (m :: ms).length := by
      simp [← hL]; omega
    have g0 : ([0, 0, BitVec.ofNat 8 L] ++ (x :: xs) ++ (m :: ms))[0]? = some (0 : Byte) := rfl
    have g1 : ([0, 0, BitVec.ofNat 8 L] ++ (x :: xs) ++ (m :: ms))[1]? = some (0 : Byte) := rfl
    have g2 : ([0, 0, BitVec.ofNat 8 L] ++ (x :: xs) ++ (m :: ms))[2]? = some (BitVec.ofNat 8 L) := rfl
    have g3 : ([0, 0, BitVec.ofNat 8 L] ++ (x :: xs) ++ (m :: ms))[3]? = some x := rfl
    have gm : ([0, 0, BitVec.ofNat 8 L] ++ (x :: xs) ++ (m :: ms))[3 + L]? = some m := by
      have := getElem?_append_at ([0, 0, BitVec.ofNat 8 L] ++ (x :: xs)) m ms
      rwa [show ([0, 0, BitVec.ofNat 8 L] ++ (x :: xs)).length = 3 + L by simp [← hL]; omega] at this
    have tk : (([0, 0, BitVec.ofNat 8 L] ++ (x :: xs) ++ (m :: ms)).take (3 + L)).drop 3 = x :: xs := by
      rw [show 3 + L = ([0, 0, BitVec.ofNat 8 L] ++ (x :: xs)).length by simp [← hL]; omega,
        List.take_left]
      rfl
    have dr : ([0, 0, BitVec.ofNat 8 L] ++ (x :: xs) ++ (m :: ms)).drop (3 + L) = m :: ms := by
      rw [show 3 + L = ([0, 0, BitVec.ofNat 8 L] ++ (x :: xs)).length by simp [← hL]; omega,
        List.drop_left]
    have z : (0 : Byte).toNat = 0 := rfl
    rw [if_neg (by omega), g0, g1, g2]
    simp only [z, if_true, hlen]
    rw [g3]
    simp only [Nat.zero_mul, Nat.zero_add]
    rw [if_neg (by omega), if_neg (by omega), gm]
    simp only
    rw [if_neg hm0, tk, dr, he, hn, if_neg (by omega)]

/-- A list cut at two places. -/
theorem cut {raw : Bytes} {i j : Nat} (hij : i ≤ j) :
    raw = raw.take i ++ (raw.take j).drop i ++ raw.drop j := by
  have h1 : raw.take i = (raw.take j).take i := by rw [List.take_take, Nat.min_eq_left hij]
  rw [h1, List.take_append_drop, List.take_append_drop]

theorem rsa_inv {raw : Bytes} {k : RSAPub} (h : publicKeyRSA raw = .val (some k)) :
    ∃ n e : Nat, k = ⟨some n, e⟩ ∧ RsaMaterial raw n e := by
  unfold publicKeyRSA at h
  split at h
  · cases h
  rename_i hl
  split at h
  · rename_i b0 b1 b2 g0 g1 g2
    by_cases hz : b0.toNat = 0
    · simp only [if_pos hz] at h
      split at h
      · cases h
      rename_i x gx
      split at h
      · cases h
      rename_i hexp
      split at h
      · cases h
      rename_i hmod
      split at h
      · cases h
      rename_i m gm
      split at h
      · cases h
      rename_i hm0
      split at h
      · cases h
      rename_i hexpo
      cases h
      have hb1 : b1.toNat = 0 := by omega
      generalize hL : b2.toNat = L at *
      have hL' : b1.toNat * 256 + L = L := by omega
      simp only [hL'] at hexpo gm hexp hmod ⊢
      refine ⟨_, _, rfl, (raw.take (3 + L)).drop 3, raw.drop (3 + L), Or.inr ?_, ?_, ?_, ?_, rfl, ?_,
        ?_, ?_, ?_, rfl⟩
      · have hlen : ((raw.take (3 + L)).drop 3).length = L := by simp; omega
        rw [hlen]
        have hcut := cut (raw := raw) (i := 3) (j := 3 + L) (by omega)
        have h3 : raw.take 3 = [0, 0, BitVec.ofNat 8 L] := by
          obtain ⟨a, b, c, r, rfl⟩ : ∃ a b c r, raw = a :: b :: c :: r := by
            match raw, hl with
            | a :: b :: c :: r, _ => exact ⟨a, b, c, r, rfl⟩
            | [], h => simp at h
            | [_], h => simp at h
            | [_, _], h => simp at h
          simp only [List.getElem?_cons_zero, List.getElem?_cons_succ, Option.some.injEq] at g0 g1 g2
          subst g0 g1 g2
          simp only [List.take_succ_cons, List.take_zero]
          rw [BitVec.eq_of_toNat_eq (x := a) (y := 0#8) (by simpa using hz),
            BitVec.eq_of_toNat_eq (x := b) (y := 0#8) (by simpa using hb1), ← hL]
          simp
        rw [h3] at hcut
        exact hcut
      · simp; omega
      · simp; omega
      · rw [List.head?_drop, List.getElem?_take_of_lt (by omega), gx]
        simp only [Option.some.injEq, ne_eq]
        rintro rfl
        exact hexp (Or.inr (Or.inr rfl))
      · omega
      · simp; omega
      · simp; omega
      · rw [List.head?_drop, gm]
        simp only [Option.some.injEq, ne_eq]
        rintro rfl
        exact hm0 rfl
    · simp only [if_neg hz] at h
      split at h
      · cases h
      rename_i x gx
      split at h
      · cases h
      rename_i hexp
      split at h
      · cases h
      rename_i hmod
      split at h
      · cases h
      rename_i m gm
      split at h
      · cases h
      rename_i hm0
      split at h
      · cases h
      rename_i hexpo
      cases h
      generalize hL : b0.toNat = L at *
      refine ⟨_, _, rfl, (raw.take (1 + L)).drop 1, raw.drop (1 + L), Or.inl ?_, ?_, ?_, ?_, rfl, ?_,
        ?_, ?_, ?_, rfl⟩
      · have hlen : ((raw.take (1 + L)).drop 1).length = L := by simp; omega
        rw [hlen]
        have hcut := cut (raw := raw) (i := 1) (j := 1 + L) (by omega)
        have h3 : raw.take 1 = [BitVec.ofNat 8 L] := by
          obtain ⟨a, r, rfl⟩ : ∃ a r, raw = a :: r := by
            match raw, hl with
            | a :: r, _ => exact ⟨a, r, rfl⟩
            | [], h => simp at h
          simp only [List.getElem?_cons_zero, Option.some.injEq] at g0
          subst g0
          simp only [List.take_succ_cons, List.take_zero]
          rw [← hL]
          simp
        rw [h3] at hcut
        exact hcut
      · simp; omega
      · simp; omega
      · rw [List.head?_drop, List.getElem?_take_of_lt (by omega), gx]
        simp only [Option.some.injEq, ne_eq]
        rintro rfl
        exact hexp (Or.inr (Or.inr rfl))
      · omega
      · simp; omega
      · simp; omega
      · rw [List.head?_drop, gm]
        simp only [Option.some.injEq, ne_eq]
        rintro rfl
        exact hm0 rfl
  · cases h

theorem rsa_total (raw : Bytes) : ∃ k, publicKeyRSA raw = .val k := by
  unfold publicKeyRSA
  split
  · exact ⟨_, rfl⟩
  rename_i hl
  obtain ⟨b0, g0⟩ : ∃ b, raw[0]? = some b := ⟨_, List.getElem?_eq_getElem (by omega)⟩
  obtain ⟨b1, g1⟩ : ∃ b, raw[1]? = some b := ⟨_, List.getElem?_eq_getElem (by omega)⟩
  obtain ⟨b2, g2⟩ : ∃ b, raw[2]? = some b := ⟨_, List.getElem?_eq_getElem (by omega)⟩
  obtain ⟨b3, g3⟩ : ∃ b, raw[3]? = some b := ⟨_, List.getElem?_eq_getElem (by omega)⟩
  rw [g0, g1, g2]
  simp only
  by_cases hz : b0.toNat = 0
  · simp only [if_pos hz]
    rw [g3]
    simp only
    split
    · exact ⟨_, rfl⟩
    split
    · exact ⟨_, rfl⟩
    rename_i hmod
    obtain ⟨m, gm⟩ : ∃ b, raw[3 + (b1.toNat * 256 + b2.toNat)]? = some b :=
      ⟨_, List.getElem?_eq_getElem (by omega)⟩
    rw [gm]
    simp only
    split
    · exact ⟨_, rfl⟩
    split <;> exact ⟨_, rfl⟩
  · simp only [if_neg hz]
    rw [g1]
    simp only
    split
    · exact ⟨_, rfl⟩
    split
    · exact ⟨_, rfl⟩
    rename_i hmod
    obtain ⟨m, gm⟩ : ∃ b, raw[1 + b0.toNat]? = some b := ⟨_, List.getElem?_eq_getElem (by omega)⟩
    rw [gm]
    simp only
    split
    · exact ⟨_, rfl⟩
    split <;> exact ⟨_, rfl⟩

/-! ### Big integers -/

theorem natBytes_zero : natBytes 0 = [] := by rw [natBytes]; simp

theorem natBytes_pos {n : Nat} (h : n ≠ 0) : natBytes n = natBytes (n / 256) ++ [BitVec.ofNat 8 n] := by
  rw [natBytes]; simp [h]

theorem beDec_natBytes (n : Nat) : beDec (natBytes n) = n := by
  induction n using Nat.strongRecOn with
  | ind n ih =>
    by_cases h : n = 0
    · subst h; rw [natBytes_zero]; rfl
    · rw [natBytes_pos h, beDec_append, ih _ (by omega)]
      simp [beDec]
      omega

theorem natBytes_length_le {n L : Nat} (h : n < 256 ^ L) : (natBytes n).length ≤ L := by
  induction L generalizing n with
  | zero =>
    have : n = 0 := by simpa using h
    subst this
    rw [natBytes_zero]; simp
  | succ L ih =>
    by_cases hn : n = 0
    · subst hn; rw [natBytes_zero]; simp
    · rw [natBytes_pos hn]
      have := ih (n := n / 256) (by rw [Nat.pow_succ] at h; omega)
      simp; omega

theorem natBytes_length_ge {n L : Nat} (h : 256 ^ L ≤ n) : L < (natBytes n).length := by
  have h1 := beDec_lt (natBytes n)
  rw [beDec_natBytes] at h1
  exact (Nat.pow_lt_pow_iff_right (by omega)).mp (Nat.lt_of_le_of_lt h h1)

theorem natBytes_head (n : Nat) : (natBytes n).head? ≠ some 0 := by
  induction n using Nat.strongRecOn with
  | ind n ih =>
    by_cases h : n = 0
    · subst h; rw [natBytes_zero]; simp
    · rw [natBytes_pos h]
      by_cases hd : n / 256 = 0
      · rw [hd, natBytes_zero]
        simp only [List.nil_append, List.head?_cons, Option.some.injEq, ne_eq]
        intro hc
        have := congrArg BitVec.toNat hc
        simp at this
        omega
      · have hne : natBytes (n / 256) ≠ [] := by rw [natBytes_pos hd]; simp
        rw [List.head?_append]
        have := ih _ (show n / 256 < n by omega)
        cases hh : (natBytes (n / 256)).head? with
        | none => exact absurd (List.head?_eq_none_iff.mp hh) hne
        | some x => rw [hh] at this; simpa using this

theorem beDec_zeros (k : Nat) (bs : Bytes) : beDec (List.replicate k 0#8 ++ bs) = beDec bs := by
  induction k with
  | zero => simp
  | succ k ih =>
    rw [List.replicate_succ, List.cons_append, beDec_cons, ih]
    simp

theorem intToBytes_length {i L : Nat} (h : i < 256 ^ L) : (intToBytes i L).length = L := by
  have := natBytes_length_le h
  unfold intToBytes
  dsimp only
  split
  · simp; omega
  · omega

theorem beDec_intToBytes (i L : Nat) : beDec (intToBytes i L) = i := by
  unfold intToBytes
  dsimp only
  split
  · rw [beDec_zeros, beDec_natBytes]
  · exact beDec_natBytes i

/-! ### Records -/

theorem parse_zoneKey {text raw : Bytes} {alg : Nat} (h : ZoneKey text alg raw) :
    parseDNSKEY text = dnskeyMaterial alg raw := by
  obtain ⟨f, p, a, k, hf, h1, h2, h3, h4, h5⟩ := h
  unfold parseDNSKEY
  rw [fields_iff.mpr hf]
  simp only
  rw [parseUint_iff.mpr ⟨h1, by decide⟩, parseUint_iff.mpr ⟨h2, by decide⟩,
    parseUint_iff.mpr ⟨h3, by omega⟩, (b64Decode_iff _ _).2 h5]
  simp

/-- What parsing may return: an error, "not a zone key", or the material of a zone key. -/
theorem parse_cases (text : Bytes) :
    (∃ e, parseDNSKEY text = .val (.error e)) ∨
    ((∃ f p a k v, Fields text f p a k ∧ Numeral f v ∧ v ≠ 256 ∧ v < 2 ^ 16) ∧
      parseDNSKEY text = .val (.ok .nilIface)) ∨
    ∃ alg raw, ZoneKey text alg raw := by
  unfold parseDNSKEY
  split
  · rename_i f p a k hs
    have hf := fields_iff.mp hs
    split
    · exact Or.inl ⟨_, rfl⟩
    · rename_i flags h1
      have h1 := parseUint_iff.mp h1
      split
      · rename_i hne
        exact Or.inr (Or.inl ⟨⟨f, p, a, k, flags, hf, h1.1, hne, h1.2⟩, rfl⟩)
      · rename_i heq
        split
        · exact Or.inl ⟨_, rfl⟩
        · rename_i protocol h2
          have h2 := parseUint_iff.mp h2
          split
          · exact Or.inl ⟨_, rfl⟩
          · rename_i heq2
            split
            · exact Or.inl ⟨_, rfl⟩
            · rename_i alg h3
              have h3 := parseUint_iff.mp h3
              split
              · exact Or.inl ⟨_, rfl⟩
              · rename_i raw h4
                refine Or.inr (Or.inr ⟨alg, raw, f, p, a, k, hf, ?_, ?_, h3.1, h3.2, (b64Decode_iff _ _).1 h4⟩)
                · have : flags = 256 := by omega
                  exact this ▸ h1.1
                · have : protocol = 3 := by omega
                  exact this ▸ h2.1
  · exact Or.inl ⟨_, rfl⟩

theorem material_total (alg : Nat) (raw : Bytes) : ∃ r, dnskeyMaterial alg raw = .val r := by
  unfold dnskeyMaterial
  split
  · obtain ⟨k, hk⟩ := rsa_total raw
    rw [hk]
    exact ⟨_, rfl⟩
  · split
    · exact ⟨_, rfl⟩
    · split <;> exact ⟨_, rfl⟩

theorem material_accepts {alg : Nat} {raw : Bytes} {key : PublicKey} (h : Material alg raw key) :
    dnskeyMaterial alg raw = .val (.ok key) := by
  unfold dnskeyMaterial
  cases h with
  | rsa halg h =>
    simp only [List.mem_cons, List.not_mem_nil, or_false] at halg
    rw [if_pos halg, rsa_accepts h]
  | p256 hx hy =>
    rename_i x y
    rw [if_neg (by omega), if_pos (by omega)]
    have hl : (x ++ y).length = 64 := by simp [hx, hy]
    simp only [publicKeyECDSA, hl, if_true, ne_eq, not_true_eq_false, if_false]
    rw [show 64 / 2 = x.length by omega, List.take_left, List.drop_left]
  | p384 hx hy =>
    rename_i x y
    rw [if_neg (by omega), if_pos (by omega)]
    have hl : (x ++ y).length = 96 := by simp [hx, hy]
    simp only [publicKeyECDSA, hl, show ¬ (14 = 13) by decide, ne_eq, not_true_eq_false, if_false]
    rw [show 96 / 2 = x.length by omega, List.take_left, List.drop_left]
  | ed25519 h =>
    rw [if_neg (by omega), if_neg (by omega), if_pos rfl]
    simp [publicKeyED25519, h]

theorem material_inv {alg : Nat} {raw : Bytes} {key : PublicKey}
    (h : dnskeyMaterial alg raw = .val (.ok key)) (hu : Usable key) : Material alg raw key := by
  unfold dnskeyMaterial at h
  split at h
  · rename_i halg
    obtain ⟨k, hk⟩ := rsa_total raw
    rw [hk] at h
    cases h
    cases k with
    | none => exact hu.elim
    | some k =>
      obtain ⟨n, e, rfl, hm⟩ := rsa_inv hk
      exact .rsa (by simpa using halg) hm
  · split at h
    · rename_i halg
      cases h
      have half : raw = raw.take (raw.length / 2) ++ raw.drop (raw.length / 2) :=
        (List.take_append_drop _ _).symm
      rcases halg with rfl | rfl
      · simp only [publicKeyECDSA, if_true] at hu ⊢
        split at hu
        · exact hu.elim
        · rename_i hl
          rw [if_neg hl]
          have := Material.p256 (x := raw.take (raw.length / 2)) (y := raw.drop (raw.length / 2))
            (by simp; omega) (by simp; omega)
          rwa [← half] at this
      · simp only [publicKeyECDSA, show ¬ (14 = 13) by decide, if_false] at hu ⊢
        split at hu
        · exact hu.elim
        · rename_i hl
          rw [if_neg hl]
          have := Material.p384 (x := raw.take (raw.length / 2)) (y := raw.drop (raw.length / 2))
            (by simp; omega) (by simp; omega)
          rwa [← half] at this
    · split at h
      · rename_i halg
        subst halg
        cases h
        unfold publicKeyED25519 at hu ⊢
        split at hu
        · simp [Usable] at hu
        · rename_i hl
          rw [if_neg hl]
          exact .ed25519 (by omega)
      · cases h

/-- The prefix written by `BuildDNSKEY`. -/
theorem zoneKey_build {a raw : Bytes} {alg : Nat} (ha : Numeral a alg) (hs : (32 : Byte) ∉ a)
    (hlt : alg < 256) :
    ZoneKey ([50, 53, 54] ++ [32] ++ [51] ++ [32] ++ a ++ [32] ++ b64Encode raw) alg raw := by
  refine ⟨[50, 53, 54], [51], a, b64Encode raw, ⟨rfl, by decide, by decide, hs, ?_⟩, ?_, ?_, ha, hlt,
    (b64Decode_iff _ _).1 (b64Decode_encode raw)⟩
  · intro hm
    exact (b64Encode_plain raw _ hm).2.2 rfl
  · unfold Numeral; decide
  · unfold Numeral; decide

end Goe2ee
