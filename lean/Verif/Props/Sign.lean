import Verif.Proofs.Handshake
import Verif.Spec.Toy

/-!
# C40: the server's long-term key
-/

set_option autoImplicit false

namespace Goe2ee

section
variable {C : Crypto}

/-- **C40.** What `Sign` returns verifies with the key that `FetchKey` returns, whatever the key, the
hash function, the content and the randomness. -/
theorem C40_signature_verifies (hC : C.Lawful) (privateKey : PrivateKey C) (random hash : Nat)
    (content sig : Bytes) (h : signServer privateKey random hash content = .ok sig) :
    ∃ algorithm key, fetchServerKey privateKey = .ok (algorithm, key) ∧ key.usable ∧
      Verifies C key hash content sig ∧ verifySignature C key hash content sig = .val (.ok true) := by
  unfold signServer at h
  split at h
  case isFalse => cases h
  rename_i hh
  dsimp only at h
  cases privateKey with
  | rsa k =>
    have := hC.rsa_correct _ _ _ _ h
    exact ⟨_, _, rfl, rfl, .inl ⟨_, rfl, this⟩, by rw [verifySignature, if_pos hh]; dsimp only; rw [this]⟩
  | ecdsa k =>
    have := hC.ecdsa_correct _ _ _ _ h
    exact ⟨_, _, rfl, rfl, .inr (.inl ⟨_, rfl, this⟩),
      by rw [verifySignature, if_pos hh]; dsimp only; rw [this]⟩
  | ed25519 k =>
    cases h
    have hv := hC.ed_correct k (C.digest hash content)
    have hl := hC.ed_length k
    exact ⟨_, _, rfl, hl, .inr (.inr ⟨_, rfl, hl, hv⟩),
      by rw [verifySignature, if_pos hh]; dsimp only; rw [if_neg (by simp [hl]), hv]⟩
  | otherType => cases h

/-- **C40.** The algorithm tag names the type of the published key: 1 is RSA, 2 ECDSA, 3 Ed25519. -/
theorem C40_algorithm_tag (privateKey : PrivateKey C) (algorithm : KeyAlgorithm) (key : PublicKey)
    (h : fetchServerKey privateKey = .ok (algorithm, key)) :
    (algorithm = 1 ∧ ∃ k, privateKey = .rsa k ∧ key = .rsa (some (C.rsaPub k))) ∨
    (algorithm = 2 ∧ ∃ k, privateKey = .ecdsa k ∧ key = .ecdsa (some (C.ecdsaPub k))) ∨
    (algorithm = 3 ∧ ∃ k, privateKey = .ed25519 k ∧ key = .ed25519 (C.edPub k)) := by
  cases privateKey with
  | rsa k => cases h; exact .inl ⟨rfl, k, rfl, rfl⟩
  | ecdsa k => cases h; exact .inr (.inl ⟨rfl, k, rfl, rfl⟩)
  | ed25519 k => cases h; exact .inr (.inr ⟨rfl, k, rfl, rfl⟩)
  | otherType => cases h

/-- **C40.** A hash function other than SHA-256, SHA-384 and SHA-512 (Go's numbers 5, 6, 7) is
rejected with an error by signer and verifier, for every key. -/
theorem C40_unsupported_hash (privateKey : PrivateKey C) (key : PublicKey) (random hash : Nat)
    (content sig : Bytes) (h : hash ≠ 5 ∧ hash ≠ 6 ∧ hash ≠ 7) :
    (∃ e, signServer privateKey random hash content = .error e) ∧
    (∃ e, verifySignature C key hash content sig = .val (.error e)) := by
  have hh : ¬ (hash = cryptoSHA256 ∨ hash = cryptoSHA384 ∨ hash = cryptoSHA512) := by
    rintro (h' | h' | h')
    · exact h.1 h'
    · exact h.2.1 h'
    · exact h.2.2 h'
  exact ⟨⟨_, by rw [signServer, if_neg hh]⟩, ⟨_, by rw [verifySignature, if_neg hh]⟩⟩

/-- **C40.** A key of another type is rejected with an error by `FetchKey`, `Sign` and
`VerifySignature`. -/
theorem C40_unsupported_key (tag random hash : Nat) (content sig : Bytes) :
    (∃ e, fetchServerKey (C := C) (.otherType tag) = .error e) ∧
    (∃ e, signServer (C := C) (.otherType tag) random hash content = .error e) ∧
    (∃ e, verifySignature C (.otherType tag) hash content sig = .val (.error e)) ∧
    (∃ e, verifySignature C .nilIface hash content sig = .val (.error e)) := by
  refine ⟨⟨_, rfl⟩, ?_, ?_, ?_⟩
  · unfold signServer; split <;> exact ⟨_, rfl⟩
  · unfold verifySignature; split <;> exact ⟨_, rfl⟩
  · unfold verifySignature; split <;> exact ⟨_, rfl⟩

/-- **C40.** With the three supported hash functions an Ed25519 key always signs, and RSA and ECDSA
keys sign the digest of the content under the given hash function. -/
theorem C40_signs (random hash : Nat) (content : Bytes) (h : hash = 5 ∨ hash = 6 ∨ hash = 7) :
    (∀ k, signServer (C := C) (.rsa k) random hash content = C.rsaSign k hash (C.digest hash content)) ∧
    (∀ k, signServer (C := C) (.ecdsa k) random hash content =
      C.ecdsaSign random k (C.digest hash content)) ∧
    (∀ k, signServer (C := C) (.ed25519 k) random hash content =
      .ok (C.edSign k (C.digest hash content))) := by
  have hh : hash = cryptoSHA256 ∨ hash = cryptoSHA384 ∨ hash = cryptoSHA512 := h
  refine ⟨fun k => ?_, fun k => ?_, fun k => ?_⟩ <;> rw [signServer, if_pos hh]

end

/-- Each key type signs, and its signature verifies only with the right content, hash and key. -/
example :
    let c := str "content"
    let sign (k : PrivateKey Toy.crypto) := (signServer k 3 6 c).toOption.getD []
    let ok (k : PublicKey) (h : Nat) (c s : Bytes) : Bool :=
      match verifySignature Toy.crypto k h c s with | .val (.ok b) => b | _ => false
    let rsa : PrivateKey Toy.crypto := .rsa (77 : Nat)
    let ec : PrivateKey Toy.crypto := .ecdsa ((4 : Nat), (5 : Nat))
    let ed : PrivateKey Toy.crypto := .ed25519 (9 : BitVec 256)
    ok (.rsa (some (Toy.crypto.rsaPub (77 : Nat)))) 6 c (sign rsa) = true ∧
    ok (.ecdsa (some (Toy.crypto.ecdsaPub ((4 : Nat), (5 : Nat))))) 6 c (sign ec) = true ∧
    ok (.ed25519 (Toy.crypto.edPub (9 : BitVec 256))) 6 c (sign ed) = true ∧
    ok (.ed25519 (Toy.crypto.edPub (9 : BitVec 256))) 7 c (sign ed) = false ∧
    ok (.ed25519 (Toy.crypto.edPub (8 : BitVec 256))) 6 c (sign ed) = false ∧
    ok (.rsa (some (Toy.crypto.rsaPub (77 : Nat)))) 6 (str "other") (sign rsa) = false := by
  decide +kernel

end Goe2ee
