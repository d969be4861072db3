import Verif.Model.Protocol

/-!
# Long-term keys (`key/key.go`, `key/server_manager.go`)
-/

set_option autoImplicit false

namespace Goe2ee

/-- A `crypto.PrivateKey` interface value.  Simplified: pointers to RSA and ECDSA keys are not nil,
Ed25519 keys have the right length. -/
inductive PrivateKey (C : Crypto) where
  | rsa (k : C.RSAPriv)
  | ecdsa (k : C.ECDSAPriv)
  | ed25519 (k : C.EdPriv)
  | otherType (tag : Nat)

section
variable (C : Crypto)

/-- key/key.go:20-54.  Hashing never fails.  `rsa.VerifyPKCS1v15` and `ecdsa.VerifyASN1` dereference
the key pointer; `ed25519.Verify` panics unless the key is 32 bytes long. -/
def verifySignature (publicKey : PublicKey) (hashType : Nat) (content signature : Bytes) :
    Res (Except Err Bool) :=
  if hashType = cryptoSHA256 ∨ hashType = cryptoSHA384 ∨ hashType = cryptoSHA512 then
    let hashedMessage := C.digest hashType content
    match publicKey with
    | .rsa none => .panic "nil pointer dereference"
    | .rsa (some k) => .val (.ok (C.rsaVerify k hashType hashedMessage signature))
    | .ecdsa none => .panic "nil pointer dereference"
    | .ecdsa (some k) => .val (.ok (C.ecdsaVerify k hashedMessage signature))
    | .ed25519 k =>
      if k.length ≠ 32 then .panic "ed25519: bad public key length"
      else .val (.ok (C.edVerify k hashedMessage signature))
    | .nilIface => .val (.error (.other "public key not supported"))
    | .otherType _ => .val (.error (.other "public key not supported"))
  else .val (.error (.other "unsupported hash type"))

variable {C}

/-- key/server_manager.go:94-111 -/
def fetchServerKey (privateKey : PrivateKey C) : Except Err (KeyAlgorithm × PublicKey) :=
  match privateKey with
  | .rsa k => .ok (keyAlgorithmRSA, .rsa (some (C.rsaPub k)))
  | .ecdsa k => .ok (keyAlgorithmECDSA, .ecdsa (some (C.ecdsaPub k)))
  | .ed25519 k => .ok (keyAlgorithmED25519, .ed25519 (C.edPub k))
  | .otherType _ => .error (.other "unsupported private key type")

/-- key/server_manager.go:114-143; `random` is what ECDSA draws from `rand.Reader`. -/
def signServer (privateKey : PrivateKey C) (random : Nat) (hashType : Nat) (content : Bytes) :
    Except Err Bytes :=
  if hashType = cryptoSHA256 ∨ hashType = cryptoSHA384 ∨ hashType = cryptoSHA512 then
    let hashed := C.digest hashType content
    match privateKey with
    | .rsa k => C.rsaSign k hashType hashed
    | .ecdsa k => C.ecdsaSign random k hashed
    | .ed25519 k => .ok (C.edSign k hashed)
    | .otherType _ => .error (.other "unsupported private key type")
  else .error (.other "unsupported hash type")

end

end Goe2ee
