import Verif.Model.Keys
import Verif.Model.ChatStart

/-!
# Names of values in error texts and log lines
-/

set_option autoImplicit false

namespace Goe2ee

/-- protocol/action.go:15-28 -/
def actionString (a : Byte) : Bytes :=
  if a = actionHello then str "Hello"
  else if a = actionSetup then str "Setup"
  else if a = actionProcess then str "Process"
  else if a = actionFetchKey then str "FetchKey"
  else str "Unknown"

/-- protocol/action_002_setup.go:38-48 -/
def hashTypeString (h : HashType) : Bytes :=
  if h = hashTypeSHA256 then str "SHA256"
  else if h = hashTypeSHA384 then str "SHA384"
  else if h = hashTypeSHA512 then str "SHA512"
  else str ""

/-- protocol/action_004_fetch_key.go:20-30 -/
def keyAlgorithmString (k : KeyAlgorithm) : Bytes :=
  if k = keyAlgorithmRSA then str "RSA"
  else if k = keyAlgorithmECDSA then str "ECDSA"
  else if k = keyAlgorithmED25519 then str "ED25519"
  else str ""

/-- The names that `crypto.Hash.String` of the Go library knows, from 1 (`crypto.MD4`) on. -/
def cryptoHashNames : List Bytes :=
  [str "MD4", str "MD5", str "SHA-1", str "SHA-224", str "SHA-256", str "SHA-384", str "SHA-512", str "MD5+SHA1",
    str "RIPEMD-160", str "SHA3-224", str "SHA3-256", str "SHA3-384", str "SHA3-512", str "SHA-512/224",
    str "SHA-512/256", str "BLAKE2s-256", str "BLAKE2b-256", str "BLAKE2b-384", str "BLAKE2b-512"]

/-- `crypto.Hash.String`; `crypto.Hash` is a `uint`, of which `int(h)` is printed if it is not known. -/
def cryptoHashString (h : BitVec 64) : Bytes :=
  match h.toNat with
  | 0 => str "unknown hash value " ++ formatInt h.toInt
  | n + 1 =>
    match cryptoHashNames[n]? with
    | some name => name
    | none => str "unknown hash value " ++ formatInt h.toInt

/-- The text of the error of `ServerManagerGenerateOnTheFly` for an algorithm it does not know;
key/server_manager.go:82-83. -/
def unsupportedAlgorithm (algorithm : KeyAlgorithm) : Bytes :=
  str "unsupported algorithm '" ++ keyAlgorithmString algorithm ++ str "'"

/-- The text of the error of `Sign` and `VerifySignature` for a hash they do not know; key/server_manager.go:123-124,
key/key.go:29-30. -/
def unsupportedHash (h : BitVec 64) : Bytes := str "unsupported hash type '" ++ cryptoHashString h ++ str "'"

end Goe2ee
