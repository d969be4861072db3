import Verif.Model.Basic

/-!
# Wire layouts (specification)

The octets of every message, written down independently of the encoders and parsers of the model.
Layouts as implemented by the library (protocol/README.md describes them; where README and code
disagree on a field width the code is followed, because client and server both use it).
-/

set_option autoImplicit false

namespace Goe2ee.Wire

/-- Octet number `i` (from the least significant end) of `v`. -/
def octet (v i : Nat) : Byte := BitVec.ofNat 8 (v / 256 ^ i)

/-- 32-bit big-endian integer. -/
def be32 (v : Nat) : Bytes := [octet v 3, octet v 2, octet v 1, octet v 0]

/-- 64-bit big-endian integer. -/
def be64 (v : Nat) : Bytes :=
  [octet v 7, octet v 6, octet v 5, octet v 4, octet v 3, octet v 2, octet v 1, octet v 0]

/-- Hello request: version 1, action 1. -/
def helloRequest : Bytes := [0x11#8]

/-- Setup request: version 1, action 2, id, length-prefixed public key. -/
def setupRequest (id pk : Bytes) : Bytes := [0x12#8] ++ id ++ be32 pk.length ++ pk

/-- Process request: version 1, action 3, flag octet, id, counter, length-prefixed ciphertext. -/
def processRequest (expectReply : Bool) (id : Bytes) (counter : Nat) (msg : Bytes) : Bytes :=
  [0x13#8, if expectReply then 0x80#8 else 0x00#8] ++ id ++ be64 counter ++ be64 msg.length ++ msg

/-- Fetch-key request: version 1, action 4. -/
def fetchKeyRequest : Bytes := [0x14#8]

/-- Hello response. -/
def helloResponse : Bytes := [0x80#8]

/-- Setup response: length-prefixed public key, hash type octet, length-prefixed signature. -/
def setupResponse (pk : Bytes) (hash : Byte) (sig : Bytes) : Bytes :=
  [0x80#8] ++ be32 pk.length ++ pk ++ [hash] ++ be32 sig.length ++ sig

/-- Process response: counter, length-prefixed ciphertext. -/
def processResponse (counter : Nat) (msg : Bytes) : Bytes :=
  [0x80#8] ++ be64 counter ++ be64 msg.length ++ msg

/-- Fetch-key response: algorithm octet, length-prefixed key (64-bit length). -/
def fetchKeyResponse (alg : Byte) (pk : Bytes) : Bytes :=
  [0x80#8, alg] ++ be64 pk.length ++ pk

/-- Error response: code, length-prefixed text. -/
def errorResponse (code : Nat) (msg : Bytes) : Bytes :=
  [0x00#8] ++ be32 code ++ be64 msg.length ++ msg

/-- Handshake transcript: both keys length-prefixed, then the id. -/
def transcript (clientPk serverPk id : Bytes) : Bytes :=
  be32 clientPk.length ++ clientPk ++ be32 serverPk.length ++ serverPk ++ id

/-- AEAD nonce of 12 octets: direction, three zeros, counter. -/
def nonce12 (direction : Byte) (counter : Nat) : Bytes := [direction, 0, 0, 0] ++ be64 counter

end Goe2ee.Wire
