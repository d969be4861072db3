import Verif.Model.Crypto

/-!
# Key derivation (`internal/kdf`) and the AEAD set-up shared by client and server
-/

set_option autoImplicit false

namespace Goe2ee

section
variable (C : Crypto)

/-- The loop of `hkdf.Expand` (Go standard library, crypto/internal/fips140/hkdf): each round
appends `HMAC(prk, previous block ‖ info ‖ counter)` until `length` bytes are there; the last block
is cut.  The counter is a `uint8`.  `fuel` bounds the rounds; `length` is enough because every
block has 32 bytes. -/
def hkdfExpandLoop (prk info : Bytes) (length : Nat) :
    (fuel : Nat) → (counter : Byte) → (buf out : Bytes) → Bytes
  | 0, _, _, out => out
  | fuel + 1, counter, buf, out =>
    if out.length < length then
      let counter := counter + 1
      let buf := C.hmac prk (buf ++ info ++ [counter])
      hkdfExpandLoop prk info length fuel counter buf (out ++ buf.take (length - out.length))
    else out

/-- `hkdf.Key(sha256.New, secret, nil, info, length)` (Go standard library, crypto/hkdf): fails for
more than 255 blocks; a nil salt is 32 zero bytes. -/
def hkdfKey (secret info : Bytes) (length : Nat) : Except Err Bytes :=
  if length > 255 * 32 then .error (.other "hkdf: requested key length too large")
  else
    let prk := C.hmac (List.replicate 32 0) secret
    .ok (hkdfExpandLoop C prk info length length 0 [] [])

/-- internal/kdf/kdf.go:16 -/
def kdfInfo : Bytes := str "goe2ee/v1 aes-256-gcm"

/-- internal/kdf/kdf.go:19 -/
def aesKeySize : Int := 32

/-- internal/kdf/kdf.go:24-33 -/
def deriveKey (secret info : Bytes) (length : Int) : Except Err Bytes :=
  if length ≤ 0 then .error (.other "invalid derived key length")
  else
    match hkdfKey C secret info length.toNat with
    | .error e => .error (.wrap "failed to derive key" e)
    | .ok k => .ok k

/-- `aes.NewCipher` (Go standard library): only key sizes 16, 24 and 32 are accepted.  The cipher is
represented by its key. -/
def aesNewCipher (key : Bytes) : Except Err Bytes :=
  if key.length = 16 ∨ key.length = 24 ∨ key.length = 32 then .ok key
  else .error (.other "crypto/aes: invalid key size")

/-- `cipher.NewGCM` (Go standard library): never fails for AES (its block size is 16). -/
def cipherNewGCM (block : Bytes) : Except Err Bytes := .ok block

/-- `gcm.NonceSize()` (Go standard library: standard nonce size). -/
def gcmNonceSize : Nat := 12

end

end Goe2ee
