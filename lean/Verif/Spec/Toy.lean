import Verif.Model.Crypto
import Verif.Proofs.Codec

/-!
# A concrete instance of the cryptographic parameter

Only used to show that the hypotheses of the theorems can be met: insecure, but lawful.
-/

set_option autoImplicit false

namespace Goe2ee.Toy

/-- First 12 octets of an X25519 SubjectPublicKeyInfo. -/
def prefixX25519 : Bytes := [0x30, 0x2a, 0x30, 0x05, 0x06, 0x03, 0x2b, 0x65, 0x6e, 0x03, 0x21, 0x00]
/-- First 12 octets of an Ed25519 SubjectPublicKeyInfo. -/
def prefixEd25519 : Bytes := [0x30, 0x2a, 0x30, 0x05, 0x06, 0x03, 0x2b, 0x65, 0x70, 0x03, 0x21, 0x00]

/-- A toy 32-byte digest. -/
def sum32 (m : Bytes) : Bytes := beEnc 32 (beDec m * 31 + m.length + 7)

/-- Toy Diffie–Hellman: addition, zero is a "low-order point". -/
def ecdh' (a b : BitVec 256) : Except Err Bytes :=
  if a = 0 ∨ b = 0 then .error (.other "low order point") else .ok (beEnc 32 (a + b).toNat)

theorem ecdh_comm' (a b : BitVec 256) : ecdh' a b = ecdh' b a := by
  simp only [ecdh', or_comm, BitVec.add_comm]

/-- The toy primitives: keys are 256-bit numbers, Diffie–Hellman is addition, the AEAD appends a
checksum, signatures are checksums. -/
def crypto : Crypto where
  EPriv := BitVec 256
  EPub := BitVec 256
  epub k := k
  ecdh := ecdh'
  marshalEPub k := prefixX25519 ++ beEnc 32 k.toNat
  parsePKIX bs :=
    if bs.length = 44 ∧ bs.take 12 = prefixX25519 then .ok (.inl (BitVec.ofNat 256 (beDec (bs.drop 12))))
    else if bs.length = 44 ∧ bs.take 12 = prefixEd25519 then .ok (.inr (.ed25519 (bs.drop 12)))
    else .error (.other "asn1")
  marshalPKIX
    | .ed25519 k => if k.length = 32 then .ok (prefixEd25519 ++ k) else .error (.other "x509")
    | _ => .error (.other "x509")
  sha256 := sum32
  digest h m := beEnc 1 h ++ sum32 m
  hmac k m := sum32 (k ++ m)
  aeadSeal k n p := p ++ beEnc 16 (beDec (k ++ n ++ p) % (2 ^ 128 - 159))
  aeadOpen k n c :=
    let p := c.take (c.length - 16)
    if 16 ≤ c.length ∧ c.drop (c.length - 16) = beEnc 16 (beDec (k ++ n ++ p) % (2 ^ 128 - 159)) then some p else none
  RSAPriv := Nat
  rsaPub n := { n := some n, e := 65537 }
  ECDSAPriv := Nat × Nat
  ecdsaPub k := { curve := .p256, x := some k.1, y := some k.2 }
  EdPriv := BitVec 256
  edPub k := beEnc 32 k.toNat
  rsaSign n h d := .ok (beEnc 32 (n + h + beDec d))
  rsaVerify k h d s := s == beEnc 32 (k.n.getD 0 + h + beDec d)
  ecdsaSign r k d := .ok (beEnc 33 (k.1 + k.2 + beDec d) ++ beEnc 1 r)
  ecdsaVerify k d s := s.take 33 == beEnc 33 (k.x.getD 0 + k.y.getD 0 + beDec d)
  edSign k d := beEnc 64 (beDec (beEnc 32 k.toNat ++ d))
  edVerify k d s := s == beEnc 64 (beDec (k ++ d))

theorem lawful : crypto.Lawful where
  parse_marshalEPub k := by
    have h : beDec (beEnc 32 k.toNat) = k.toNat := by
      rw [beDec_beEnc, Nat.mod_eq_of_lt]; have := k.isLt; omega
    simp [crypto, prefixX25519, h]
    exact congrArg Sum.inl (BitVec.eq_of_toNat_eq (x := BitVec.ofNat 256 (BitVec.toNat (w := 256) k)) (by simp; exact BitVec.isLt (w := 256) k))
  marshalEPub_length k := by simp [crypto, prefixX25519]
  parse_marshalPKIX k bs h := by
    cases k with
    | ed25519 k =>
      simp only [crypto] at h ⊢
      split at h
      · simp only [Except.ok.injEq] at h
        subst h
        rename_i hk
        simp [prefixEd25519, prefixX25519, hk]
      · simp at h
    | _ => simp [crypto] at h
  ecdh_comm a b s h := (ecdh_comm' b a).trans h
  open_seal k n p := by simp [crypto]
  seal_length k n p := by simp [crypto]
  hmac_length k m := by simp [crypto, sum32]
  sha256_length m := by simp [crypto, sum32]
  rsa_correct k h d s hs := by simp [crypto] at hs ⊢; exact hs.symm
  rsa_modulus k := rfl
  ecdsa_correct r k d s hs := by simp [crypto] at hs ⊢; subst hs; simp
  ecdsa_point k := by simp [crypto]
  ed_correct k d := by simp [crypto]
  ed_length k := by simp [crypto]
  rsa_sig k h d s hs := by simp [crypto] at hs; subst hs; simp
  ecdsa_sig r k d s hs := by simp [crypto] at hs; subst hs; simp
  ed_sig k d := by simp [crypto]

end Goe2ee.Toy
