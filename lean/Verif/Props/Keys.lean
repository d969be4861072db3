import Verif.Proofs.Kdf
import Verif.Model.UUID
import Verif.Spec.Toy

/-!
# C53 (session identifiers) and C55 (key derivation)
-/

set_option autoImplicit false

namespace Goe2ee

/-- **C55.** `DeriveKey` computes HKDF-SHA256 (RFC 5869) without salt, and succeeds exactly for
lengths from 1 to 8160. -/
theorem C55_derive_key_is_hkdf (C : Crypto) (hC : C.Lawful) (secret info : Bytes) (length : Int) :
    (1 ≤ length ∧ length ≤ 8160 →
      deriveKey C secret info length = .ok (hkdfRFC C.hmac secret info length.toNat)) ∧
    (¬ (1 ≤ length ∧ length ≤ 8160) → ∃ e, deriveKey C secret info length = .error e) := by
  constructor
  · rintro ⟨h1, h2⟩
    rw [deriveKey, if_neg (by omega), hkdfKey_eq hC.hmac_length _ _ _ (by omega)]
  · intro h
    by_cases h1 : length ≤ 0
    · exact ⟨_, by rw [deriveKey, if_pos h1]⟩
    · exact ⟨_, by rw [deriveKey, if_neg h1, hkdfKey, if_pos (by omega)]⟩

/-- **C55.** The derived key has exactly the requested length. -/
theorem C55_derived_length (C : Crypto) (hC : C.Lawful) (secret info key : Bytes) (length : Int)
    (h : deriveKey C secret info length = .ok key) : (key.length : Int) = length := by
  by_cases hr : 1 ≤ length ∧ length ≤ 8160
  · rw [(C55_derive_key_is_hkdf C hC secret info length).1 hr] at h
    cases h
    rw [hkdfRFC_length hC.hmac_length _ _ _ (by omega)]; omega
  · obtain ⟨e, he⟩ := (C55_derive_key_is_hkdf C hC secret info length).2 hr
    rw [he] at h; cases h

/-- **C55.** A shorter derived key is a prefix of a longer one. -/
theorem C55_shorter_is_prefix (C : Crypto) (hC : C.Lawful) (secret info k₁ k₂ : Bytes) (l₁ l₂ : Int)
    (h₁ : deriveKey C secret info l₁ = .ok k₁) (h₂ : deriveKey C secret info l₂ = .ok k₂)
    (h : l₁ ≤ l₂) : k₁ <+: k₂ := by
  have hr : ∀ l k, deriveKey C secret info l = .ok k → 1 ≤ l ∧ l ≤ 8160 := by
    intro l k hk
    by_cases hr : 1 ≤ l ∧ l ≤ 8160
    · exact hr
    · obtain ⟨e, he⟩ := (C55_derive_key_is_hkdf C hC secret info l).2 hr
      rw [he] at hk; cases hk
  rw [(C55_derive_key_is_hkdf C hC secret info l₁).1 (hr _ _ h₁)] at h₁
  rw [(C55_derive_key_is_hkdf C hC secret info l₂).1 (hr _ _ h₂)] at h₂
  cases h₁; cases h₂
  exact List.take_prefix_take_left (by omega)

/-- **C55.** The AEAD key derivation used by client and server always succeeds with a 32-byte
AES key accepted by the cipher constructors. -/
theorem C55_aead_key (C : Crypto) (hC : C.Lawful) (secret : Bytes) :
    ∃ key, deriveKey C secret kdfInfo aesKeySize = .ok key ∧ key.length = 32 ∧
      aesNewCipher key = .ok key ∧ cipherNewGCM key = .ok key := by
  have h := (C55_derive_key_is_hkdf C hC secret kdfInfo aesKeySize).1 (by decide)
  have hl := C55_derived_length C hC _ _ _ _ h
  refine ⟨_, h, ?_, ?_, rfl⟩
  · have : aesKeySize = 32 := rfl
    omega
  · rw [aesNewCipher, if_pos]
    have : aesKeySize = 32 := rfl
    omega

/-- The hypotheses are met by the toy instance; the last and first lengths out of range fail. -/
example : (∃ k, deriveKey Toy.crypto [1, 2, 3] [4] 33 = .ok k ∧ k.length = 33) ∧
    (∃ e, deriveKey Toy.crypto [1, 2, 3] [4] 8161 = .error e) ∧
    (∃ e, deriveKey Toy.crypto [1, 2, 3] [4] 0 = .error e) := by
  refine ⟨⟨_, (C55_derive_key_is_hkdf _ Toy.lawful _ _ 33).1 (by decide), ?_⟩,
    (C55_derive_key_is_hkdf _ Toy.lawful _ _ 8161).2 (by decide),
    (C55_derive_key_is_hkdf _ Toy.lawful _ _ 0).2 (by decide)⟩
  exact hkdfRFC_length Toy.lawful.hmac_length _ _ _ (by decide)

/-- **C53.** For every 16 random octets the generated id has version 4 in the high nibble of octet 6,
variant `10` in the top bits of octet 8, and every other bit as read from the random source. -/
theorem C53_uuid_version4 (r : ID) :
    ∃ u, uuid (.ok r) = .ok u ∧
      (u.val.getD 6 0).toNat / 16 = 4 ∧ (u.val.getD 8 0).toNat / 64 = 2 ∧
      (u.val.getD 6 0).toNat % 16 = (r.val.getD 6 0).toNat % 16 ∧
      (u.val.getD 8 0).toNat % 64 = (r.val.getD 8 0).toNat % 64 ∧
      ∀ i, i ≠ 6 → i ≠ 8 → u.val.getD i 0 = r.val.getD i 0 := by
  have h6 : ∀ b : Byte, ((b &&& 0x0f#8) ||| 0x40#8).toNat / 16 = 4 ∧
      ((b &&& 0x0f#8) ||| 0x40#8).toNat % 16 = b.toNat % 16 := by decide
  have h8 : ∀ b : Byte, ((b &&& 0x3f#8) ||| 0x80#8).toNat / 64 = 2 ∧
      ((b &&& 0x3f#8) ||| 0x80#8).toNat % 64 = b.toNat % 64 := by decide
  have hl := r.property
  have e6 : (uuidOf r).val.getD 6 0 = (r.val.getD 6 0 &&& 0x0f#8) ||| 0x40#8 := by
    simp [uuidOf, hl]
  have e8 : (uuidOf r).val.getD 8 0 = (r.val.getD 8 0 &&& 0x3f#8) ||| 0x80#8 := by
    simp [uuidOf, hl]
  refine ⟨_, rfl, ?_, ?_, ?_, ?_, ?_⟩
  · rw [e6]; exact (h6 _).1
  · rw [e8]; exact (h8 _).1
  · rw [e6]; exact (h6 _).2
  · rw [e8]; exact (h8 _).2
  · intro i hi6 hi8
    simp only [uuidOf, List.getD_eq_getElem?_getD]
    rw [List.getElem?_set_ne (by omega), List.getElem?_set_ne (by omega)]

/-- **C53.** A failing random source gives an error and no id. -/
theorem C53_uuid_error (e : Err) : ∃ e', uuid (.error e) = .error e' := ⟨_, rfl⟩

example : uuid (.ok ⟨List.replicate 16 0xFF, by decide⟩) =
    .ok ⟨[0xFF, 0xFF, 0xFF, 0xFF, 0xFF, 0xFF, 0x4F, 0xFF, 0xBF, 0xFF, 0xFF, 0xFF, 0xFF, 0xFF, 0xFF, 0xFF],
      by decide⟩ := congrArg Except.ok (Subtype.ext (by decide))

end Goe2ee
