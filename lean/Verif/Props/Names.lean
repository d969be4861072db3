import Verif.Model.Names
import Verif.Model.KeySources
import Verif.Props.ChatStart
import Verif.Spec.Toy

/-!
# C167: errors about unsupported values name the value
-/

set_option autoImplicit false

namespace Goe2ee

/-- **C167**, as one would want it: the errors for two different algorithms, or two different hashes, that are not supported
are different. -/
def C167_claim : Prop :=
  (∀ (C : Crypto) (G : KeyGen C) (a b : KeyAlgorithm), (¬ ∃ k, generateOnTheFly G a = .ok k) →
    (¬ ∃ k, generateOnTheFly G b = .ok k) → unsupportedAlgorithm a = unsupportedAlgorithm b → a = b) ∧
  ∀ h h' : BitVec 64, unsupportedHash h = unsupportedHash h' → h = h'

/-- A key generator for the toy cryptography that never succeeds. -/
def noKeys : KeyGen Toy.crypto := ⟨fun _ => .error .eof, fun _ => .error .eof, .error .eof⟩

/-- **C167 is refuted**: for the algorithms 0 and 4 the error is `unsupported algorithm ''`. -/
theorem C167_refuted : ¬ C167_claim := by
  intro h
  have hno : ∀ a : KeyAlgorithm, ¬ ∃ k, generateOnTheFly noKeys a = .ok k := by
    rintro a ⟨k, hk⟩
    unfold generateOnTheFly noKeys at hk
    split at hk
    · cases hk
    split at hk
    · cases hk
    split at hk <;> cases hk
  have := h.1 Toy.crypto noKeys 0 4 (hno 0) (hno 4) (by decide +kernel)
  exact absurd this (by decide)

/-- **C167**, how it fails: for every algorithm that is not supported the error is the same, and names none. -/
theorem C167_no_name (a : KeyAlgorithm) (h : a ≠ 1 ∧ a ≠ 2 ∧ a ≠ 3) :
    unsupportedAlgorithm a = str "unsupported algorithm ''" := by
  unfold unsupportedAlgorithm keyAlgorithmString keyAlgorithmRSA keyAlgorithmECDSA keyAlgorithmED25519
  rw [if_neg h.1, if_neg h.2.1, if_neg h.2.2]
  decide +kernel

theorem parseInt64_formatInt (v : Int) (h : -(2 ^ 63) ≤ v ∧ v < 2 ^ 63) : parseInt64 (formatInt v) = some v := by
  rw [C149_port_read]
  refine ⟨v.natAbs, formatUint v.natAbs, numeral_formatUint _, ?_⟩
  unfold formatInt
  split
  · exact .inl ⟨rfl, by omega, by omega⟩
  · exact .inr ⟨.inr rfl, by omega, by omega⟩

/-- A name of `crypto.Hash.String` is one of the list, or a number. -/
theorem cryptoHashString_cases (h : BitVec 64) :
    (∃ n, h.toNat = n + 1 ∧ cryptoHashNames[n]? = some (cryptoHashString h)) ∨
    cryptoHashString h = str "unknown hash value " ++ formatInt h.toInt := by
  unfold cryptoHashString
  split
  · exact .inr rfl
  · rename_i n hn
    split
    · rename_i name hname
      exact .inl ⟨n, hn, hname⟩
    · exact .inr rfl

/-- **C167**, hashes (`_partial`: not for algorithms): the errors of `Sign` and `VerifySignature` for two different values of
`crypto.Hash`, of all 2^64, are different. -/
theorem C167_hash_partial (h h' : BitVec 64) (he : unsupportedHash h = unsupportedHash h') : h = h' := by
  unfold unsupportedHash at he
  have he : cryptoHashString h = cryptoHashString h' := by
    simpa using he
  have hlong : ∀ (n : Nat) (digits : Bytes), cryptoHashNames[n]? ≠ some (str "unknown hash value " ++ digits) := by
    intro n digits hn
    have hm := List.mem_of_getElem? hn
    have : ∀ name ∈ cryptoHashNames, name.length < 19 := by decide +kernel
    have hl := this _ hm
    rw [List.length_append, show (str "unknown hash value ").length = 19 by decide +kernel] at hl
    omega
  rcases cryptoHashString_cases h with ⟨n, hn, h1⟩ | h1 <;> rcases cryptoHashString_cases h' with ⟨n', hn', h2⟩ | h2
  · rw [← he] at h2
    have hd : cryptoHashNames.Nodup := by decide +kernel
    have hlt := (List.getElem?_eq_some_iff.mp h1).1
    have hnn := (List.getElem?_inj hlt hd).mp (h1.trans h2.symm)
    apply BitVec.eq_of_toNat_eq
    omega
  · rw [he, h2] at h1
    exact absurd h1 (hlong _ _)
  · rw [← he, h1] at h2
    exact absurd h2 (hlong _ _)
  · rw [h1, h2, List.append_cancel_left_eq] at he
    have hr := parseInt64_formatInt h.toInt ⟨BitVec.le_toInt h, BitVec.toInt_lt⟩
    rw [he, parseInt64_formatInt h'.toInt ⟨BitVec.le_toInt h', BitVec.toInt_lt⟩] at hr
    exact (BitVec.eq_of_toInt_eq (Option.some.inj hr)).symm

/-- **C167**, supported values (`_partial`: not for others): the names of different actions, hashes and algorithms of the
protocol are different, and none is empty or that of an unknown action. -/
theorem C167_names_partial :
    (∀ a b : Byte, 1 ≤ a.toNat → a.toNat ≤ 4 → actionString a = actionString b → a = b) ∧
    (∀ a b : HashType, 2 ≤ a.toNat → a.toNat ≤ 4 → hashTypeString a = hashTypeString b → a = b) ∧
    (∀ a b : KeyAlgorithm, 1 ≤ a.toNat → a.toNat ≤ 3 → keyAlgorithmString a = keyAlgorithmString b → a = b) ∧
    (∀ a : Byte, actionString a = str "Unknown" ↔ ¬ (1 ≤ a.toNat ∧ a.toNat ≤ 4)) ∧
    (∀ a : HashType, hashTypeString a = [] ↔ ¬ (2 ≤ a.toNat ∧ a.toNat ≤ 4)) ∧
    (∀ a : KeyAlgorithm, keyAlgorithmString a = [] ↔ ¬ (1 ≤ a.toNat ∧ a.toNat ≤ 3)) := by
  decide +kernel

/-- `crypto.SHA1`, which the server does not support, and a value that is no hash. -/
example : unsupportedHash 3 = str "unsupported hash type 'SHA-1'" ∧
    unsupportedHash 20 = str "unsupported hash type 'unknown hash value 20'" ∧
    unsupportedHash (-1) = str "unsupported hash type 'unknown hash value -1'" := by decide +kernel

end Goe2ee
