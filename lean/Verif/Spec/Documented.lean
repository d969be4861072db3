import Verif.Model.Basic
import Verif.Spec.Hkdf

/-!
# The documented wire format (specification)

The messages, the transcript, the nonces and the key of version 1 as the documentation describes them: protocol/README.md
and docs/draft-justo-goe2ee-latest.md, which agree with each other.  Written down from the documentation alone (contrast
`Verif.Spec.Wire`, which follows the code where they disagree).
-/

set_option autoImplicit false

namespace Goe2ee.Documented

/-- An unsigned integer of so many octets, in network byte order (draft:196-197). -/
def num (octets v : Nat) : Bytes := (List.range octets).reverse.map fun i => BitVec.ofNat 8 (v / 256 ^ i)

/-- protocol/README.md:56-82, draft:199-236: version 1 and the action. -/
def header (action : Nat) : Byte := BitVec.ofNat 8 (1 * 16 + action)

/-- protocol/README.md:136-141, draft:424-432 -/
def helloRequest : Bytes := [header 1]

/-- protocol/README.md:162-167, draft:446-451 -/
def setupRequest (id publicKey : Bytes) : Bytes := [header 2] ++ id ++ num 4 publicKey.length ++ publicKey

/-- protocol/README.md:240-245, draft:500-505 -/
def processRequest (expectReply : Bool) (id : Bytes) (counter : Nat) (encrypted : Bytes) : Bytes :=
  [header 3] ++ [if expectReply then 128 else 0] ++ id ++ num 8 counter ++ num 8 encrypted.length ++ encrypted

/-- protocol/README.md:276-281, draft:575-581 -/
def fetchKeyRequest : Bytes := [header 4]

/-- protocol/README.md:143-148, draft:434-435 -/
def helloResponse : Bytes := [128]

/-- protocol/README.md:179-184, draft:467-472: the size of the signature has 8 octets. -/
def setupResponse (publicKey : Bytes) (hashType : Byte) (signature : Bytes) : Bytes :=
  [128] ++ num 4 publicKey.length ++ publicKey ++ [hashType] ++ num 8 signature.length ++ signature

/-- protocol/README.md:259-264, draft:535-541 -/
def processResponse (counter : Nat) (encrypted : Bytes) : Bytes :=
  [128] ++ num 8 counter ++ num 8 encrypted.length ++ encrypted

/-- protocol/README.md:283-288, draft:583-589: the size of the key has 4 octets. -/
def fetchKeyResponse (algorithm : Byte) (publicKey : Bytes) : Bytes :=
  [128] ++ [algorithm] ++ num 4 publicKey.length ++ publicKey

/-- protocol/README.md:105-129, draft:269-294 -/
def errorResponse (code : Nat) (message : Bytes) : Bytes := [0] ++ num 4 code ++ num 8 message.length ++ message

/-- protocol/README.md:207-211, draft:378-388 -/
def transcript (clientKey serverKey id : Bytes) : Bytes :=
  num 4 clientKey.length ++ clientKey ++ num 4 serverKey.length ++ serverKey ++ id

/-- draft:346-364 -/
def nonce (direction : Byte) (counter : Nat) : Bytes := [direction] ++ [0, 0, 0] ++ num 8 counter

/-- draft:324-337: HKDF-SHA256 with an empty salt, the given label, 32 octets. -/
def key (hmac : Bytes → Bytes → Bytes) (secret : Bytes) : Bytes :=
  hkdfRFC hmac secret (str "goe2ee/v1 aes-256-gcm") 32

/-- protocol/README.md:194-201, draft:405-413: the number of Go's `crypto.Hash` (SHA-256, SHA-384, SHA-512). -/
def hashes : List (Byte × Nat) := [(2, 5), (3, 6), (4, 7)]

end Goe2ee.Documented
