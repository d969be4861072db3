import Verif.Model.Basic

/-!
# Cryptography as a parameter

The cryptographic primitives of the Go standard library that the code calls.  Key material that
the code inspects (DNSKEY conversion) is concrete; everything else is an arbitrary function.
-/

set_option autoImplicit false

namespace Goe2ee

/-- `crypto.SHA256` (Go crypto.go: the constants are 5, 6, 7 for SHA-256/384/512). -/
def cryptoSHA256 : Nat := 5
def cryptoSHA384 : Nat := 6
def cryptoSHA512 : Nat := 7

/-- Elliptic curves as the code distinguishes them (internal/dns/dnssec/dnssec.go:223-231). -/
inductive Curve where
  | p256 | p384 | otherCurve
  deriving DecidableEq, Repr

/-- `rsa.PublicKey` (`N` may be a nil pointer; simplified: `N` is never negative). -/
structure RSAPub where
  n : Option Nat
  e : Int
  deriving DecidableEq, Repr

/-- `ecdsa.PublicKey` (`X`, `Y` may be nil pointers; simplified: never negative). -/
structure ECDSAPub where
  curve : Curve
  x : Option Nat
  y : Option Nat
  deriving DecidableEq, Repr

/-- A `crypto.PublicKey` interface value: nil, a (possibly nil) pointer to an RSA or ECDSA key, an
Ed25519 key (a byte slice; a nil slice is the empty one), or a value of any other dynamic type. -/
inductive PublicKey where
  | nilIface
  | rsa (k : Option RSAPub)
  | ecdsa (k : Option ECDSAPub)
  | ed25519 (k : Bytes)
  | otherType (tag : Nat)
  deriving DecidableEq, Repr

/-- The primitives. -/
structure Crypto where
  /-- X25519 keys (`crypto/ecdh`). -/
  EPriv : Type
  EPub : Type
  epub : EPriv → EPub
  /-- `(*ecdh.PrivateKey).ECDH`; fails for low-order points. -/
  ecdh : EPriv → EPub → Except Err Bytes
  /-- `x509.MarshalPKIXPublicKey` of an X25519 `*ecdh.PublicKey`; never fails for this curve. -/
  marshalEPub : EPub → Bytes
  /-- `x509.ParsePKIXPublicKey`: an X25519 key or any other public key. -/
  parsePKIX : Bytes → Except Err (EPub ⊕ PublicKey)
  /-- `x509.MarshalPKIXPublicKey` of a long-term public key. -/
  marshalPKIX : PublicKey → Except Err Bytes
  /-- `sha256.Sum256`. -/
  sha256 : Bytes → Bytes
  /-- the digest for `crypto.SHA256/384/512`. -/
  digest : Nat → Bytes → Bytes
  /-- HMAC-SHA256 `key ↦ message ↦ tag`. -/
  hmac : Bytes → Bytes → Bytes
  /-- AES-GCM with empty additional data: `key ↦ nonce ↦ plaintext ↦ ciphertext`. -/
  aeadSeal : Bytes → Bytes → Bytes → Bytes
  /-- `gcm.Open(nil, nonce, ciphertext, nil)`. -/
  aeadOpen : Bytes → Bytes → Bytes → Option Bytes
  /-- Long-term private keys. -/
  RSAPriv : Type
  rsaPub : RSAPriv → RSAPub
  ECDSAPriv : Type
  ecdsaPub : ECDSAPriv → ECDSAPub
  EdPriv : Type
  edPub : EdPriv → Bytes
  /-- `rsa.SignPKCS1v15` (deterministic result; may fail for small keys). -/
  rsaSign : RSAPriv → Nat → Bytes → Except Err Bytes
  rsaVerify : RSAPub → Nat → Bytes → Bytes → Bool
  /-- `ecdsa.SignASN1` with randomness. -/
  ecdsaSign : Nat → ECDSAPriv → Bytes → Except Err Bytes
  ecdsaVerify : ECDSAPub → Bytes → Bytes → Bool
  edSign : EdPriv → Bytes → Bytes
  edVerify : Bytes → Bytes → Bytes → Bool

/-- Functional correctness of the primitives (no security assumption). -/
structure Crypto.Lawful (C : Crypto) : Prop where
  /-- PKIX encoding of an X25519 key decodes to the same key. -/
  parse_marshalEPub : ∀ k, C.parsePKIX (C.marshalEPub k) = .ok (.inl k)
  /-- An X25519 SubjectPublicKeyInfo is 44 bytes long (RFC 8410). -/
  marshalEPub_length : ∀ k, (C.marshalEPub k).length = 44
  /-- Long-term keys that can be encoded decode to themselves. -/
  parse_marshalPKIX : ∀ k bs, C.marshalPKIX k = .ok bs → C.parsePKIX bs = .ok (.inr k)
  /-- Diffie–Hellman agreement (including agreement about failure). -/
  ecdh_comm : ∀ a b s, C.ecdh a (C.epub b) = .ok s → C.ecdh b (C.epub a) = .ok s
  /-- Decryption inverts encryption. -/
  open_seal : ∀ k n p, C.aeadOpen k n (C.aeadSeal k n p) = some p
  /-- AES-GCM appends a 16-byte tag. -/
  seal_length : ∀ k n p, (C.aeadSeal k n p).length = p.length + 16
  /-- HMAC-SHA256 has 32-byte output, SHA-256 too. -/
  hmac_length : ∀ k m, (C.hmac k m).length = 32
  sha256_length : ∀ m, (C.sha256 m).length = 32
  /-- Signatures verify. -/
  rsa_correct : ∀ k h d s, C.rsaSign k h d = .ok s → C.rsaVerify (C.rsaPub k) h d s = true
  rsa_modulus : ∀ k, (C.rsaPub k).n.isSome = true
  ecdsa_correct : ∀ r k d s, C.ecdsaSign r k d = .ok s → C.ecdsaVerify (C.ecdsaPub k) d s = true
  ecdsa_point : ∀ k, (C.ecdsaPub k).x.isSome = true ∧ (C.ecdsaPub k).y.isSome = true
  ed_correct : ∀ k d, C.edVerify (C.edPub k) d (C.edSign k d) = true
  ed_length : ∀ k, (C.edPub k).length = 32
  /-- Signatures are not empty and fit in 64 KiB (RSA up to 524288-bit moduli, ECDSA ASN.1,
  Ed25519: 64 bytes). -/
  rsa_sig : ∀ k h d s, C.rsaSign k h d = .ok s → 0 < s.length ∧ s.length ≤ 65536
  ecdsa_sig : ∀ r k d s, C.ecdsaSign r k d = .ok s → 0 < s.length ∧ s.length ≤ 65536
  ed_sig : ∀ k d, 0 < (C.edSign k d).length ∧ (C.edSign k d).length ≤ 65536

end Goe2ee
