import Verif.Model.ClientExec
import Verif.Spec.Wire

/-!
# Vocabulary for statements about the client
-/

set_option autoImplicit false

namespace Goe2ee

/-- What reads will see until the next write.  TCP: everything the connection delivers.  UDP: the
rest of the current datagram, or failures and then the next datagram. -/
def Transport.stream : Transport → List (Byte ⊕ Err)
  | .tcp input => flatten input
  | .udp true readBuffer _ => readBuffer.map Sum.inl
  | .udp false readBuffer queue => received readBuffer queue
where
  received (readBuffer : Bytes) : List (Except Err Bytes) → List (Byte ⊕ Err)
  | [] => []
  | .error e :: queue => .inr e :: received readBuffer queue
  | .ok datagram :: _ => datagram.map Sum.inl

/-- The hash function named by an octet of a setup response (Go's numbers for SHA-256/384/512). -/
def hashNumber (octet : Byte) : Option Nat :=
  if octet = 2 then some 5 else if octet = 3 then some 6 else if octet = 4 then some 7 else none

/-- `sig` is a valid signature of `content` under the long-term key, with the given hash function. -/
def Verifies (C : Crypto) (key : PublicKey) (hash : Nat) (content sig : Bytes) : Prop :=
  (∃ k, key = .rsa (some k) ∧ C.rsaVerify k hash (C.digest hash content) sig) ∨
  (∃ k, key = .ecdsa (some k) ∧ C.ecdsaVerify k (C.digest hash content) sig) ∨
  (∃ k, key = .ed25519 k ∧ k.length = 32 ∧ C.edVerify k (C.digest hash content) sig)

/-- `DialUDP` or `DialTCP`. -/
def dial {C : Crypto} (udp : Bool) (host : Except Err Bytes) (options : ClientOptions) :
    CProg C (Except Err Client) :=
  if udp then dialUDP host options else dialTCP host options

/-- A key with which signatures can be checked: not a nil pointer, and Ed25519 keys have 32 octets. -/
def PublicKey.usable : PublicKey → Prop
  | .rsa k => k.isSome
  | .ecdsa k => k.isSome
  | .ed25519 k => k.length = 32
  | _ => True

/-- A client, its connection and the process after a successful dial and any calls. -/
inductive Used {C : Crypto} : Client → CConn × CShared → Prop where
  | dialled {env : CEnv C} {udp : Bool} {host : Except Err Bytes} {options : ClientOptions}
      {s s' : CConn × CShared} {c : Client} :
      runClient env (dial udp host options) s = (.val (.ok c), s') → Used c s'
  | called {env : CEnv C} {call : CCall} {c c' : Client} {s s' : CConn × CShared} :
      Used (C := C) c s → runClient env (c.call call) s = (.val c', s') → Used c' s'

/-- Consecutive calls of `Read` with buffers of the sizes `ns`, and what they return; setting
deadlines succeeds. -/
inductive Reads {C : Crypto} : Client → CConn × CShared → List Nat → List (Bytes × Option Err) →
    Client → CConn × CShared → Prop where
  | done (c : Client) (s : CConn × CShared) : Reads c s [] [] c s
  | call {env : CEnv C} {c c' c'' : Client} {s s' s'' : CConn × CShared} {n : Nat} {ns : List Nat}
      {r : Bytes × Option Err} {rs : List (Bytes × Option Err)} : env.readDeadline = none →
      runClient env (c.read n) s = (.val (r, c'), s') → Reads (C := C) c' s' ns rs c'' s'' →
      Reads c s (n :: ns) (r :: rs) c'' s''

end Goe2ee
