import Verif.Spec.Trace
import Verif.Spec.Counter

/-!
# Vocabulary for statements about both ends

The assumptions on cryptography speak about the octets that were received, not about all octets: a
valid signature or ciphertext that somebody sends was made by somebody who has the key.
-/

set_option autoImplicit false

namespace Goe2ee

section
variable (C : Crypto)

/-- No forged signature: if the octets start with a setup response whose signature is valid, under the
long-term key, for the transcript with this client key and id, the server's key manager signed that
transcript. -/
def SignatureGenuine (ops : List SOp) (key : PublicKey) (clientKey : C.EPub) (id : Bytes)
    (stream : List (Byte ⊕ Err)) : Prop :=
  ∀ header pk serverKey hashOctet hash sig rest,
    stream = (header :: (Wire.be32 pk.length ++ pk ++ [hashOctet] ++ Wire.be32 sig.length ++ sig)).map
      Sum.inl ++ rest →
    C.parsePKIX pk = .ok (.inl serverKey) → hashNumber hashOctet = some hash →
    Verifies C key hash (Wire.transcript (C.marshalEPub clientKey) (C.marshalEPub serverKey) id) sig →
    Signs ops (Wire.transcript (C.marshalEPub clientKey) (C.marshalEPub serverKey) id)

/-- No forged messages under this key: every ciphertext in a process request that reaches the server, if
it opens, was made by a client (`sealed`) or by the server (`log`) with this nonce and plaintext. -/
def MessagesGenuine (ops : List SOp) (log : List Event) (sealed : List (Bytes × Bytes × Bytes))
    (key : Bytes) : Prop :=
  ∀ p id n ct m, Accepts ops p → SendsMessage p id n ct → C.aeadOpen key (Wire.nonce12 0 n) ct = some m →
    (key, Wire.nonce12 0 n, m) ∈ sealed ∨ ∃ r, .sealed r key (Wire.nonce12 0 n) m ∈ log

/-- No forged reply under this key: if the octets start with a process response whose ciphertext opens,
it was made by a client or by the server with this nonce and plaintext. -/
def ReplyGenuine (log : List Event) (sealed : List (Bytes × Bytes × Bytes)) (key : Bytes)
    (stream : List (Byte ⊕ Err)) : Prop :=
  ∀ (header : Byte) (n : BitVec 64) ct rest m,
    stream = (header :: (Wire.be64 n.toNat ++ Wire.be64 ct.length ++ ct)).map Sum.inl ++ rest →
    C.aeadOpen key (Wire.nonce12 1 n.toNat) ct = some m →
    (key, Wire.nonce12 1 n.toNat, m) ∈ sealed ∨ ∃ r, .sealed r key (Wire.nonce12 1 n.toNat) m ∈ log

/-- How often the goroutine will call `Write` with this message, if its session has this key. -/
def Worker.sends (key m : Bytes) (w : Worker) : Nat :=
  if (deriveKey C w.session.secret kdfInfo aesKeySize).toOption = some key then
    w.calls.countP fun
      | .write p => p = m
      | .read _ => false
  else 0

end

/-- Is it a call of the application, for this session, with this message? -/
def isDelivery (r : Ref) (m : Bytes) : Event → Bool
  | .invoked r' _ _ _ m' _ => r' = r ∧ m' = m
  | _ => false

/-- The clients never use a key and nonce twice, and their nonces have direction 0. -/
def ClientNonces (sealed : List (Bytes × Bytes × Bytes)) : Prop :=
  (sealed.map fun e => (e.1, e.2.1)).Nodup ∧ ∀ e ∈ sealed, ∃ v : BitVec 64, e.2.1 = Wire.nonce12 0 v.toNat

end Goe2ee
