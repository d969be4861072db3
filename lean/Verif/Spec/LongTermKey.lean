import Verif.Model.ServerExec
import Verif.Spec.Wire

/-!
# Two servers that differ in their long-term key
-/

set_option autoImplicit false

namespace Goe2ee

/-- The same octets, or setup responses with the same ephemeral key and different signatures, or fetch-key responses. -/
inductive AlikeMessage : Bytes → Bytes → Prop where
  | same (m : Bytes) : AlikeMessage m m
  | setup (ephemeral signature signature' : Bytes) :
    AlikeMessage (Wire.setupResponse ephemeral 4 signature) (Wire.setupResponse ephemeral 4 signature')
  | published (algorithm algorithm' : Byte) (key key' : Bytes) :
    AlikeMessage (Wire.fetchKeyResponse algorithm key) (Wire.fetchKeyResponse algorithm' key')

/-- Sequences of such messages. -/
inductive AlikeOctets : Bytes → Bytes → Prop where
  | nil : AlikeOctets [] []
  | append {sent sent' m m' : Bytes} : AlikeOctets sent sent' → AlikeMessage m m' →
    AlikeOctets (sent ++ m) (sent' ++ m')

/-- Sequences of such datagrams. -/
def AlikeDatagrams (sent sent' : List Bytes) : Prop :=
  sent.length = sent'.length ∧ ∀ d ∈ sent.zip sent', AlikeOctets d.1 d.2

/-- What happens to a goroutine of a server and to the same goroutine of a server with another long-term key: ephemeral
keys, time, connections, data and the application are the same; both keys sign (SHA-512), and both can be published.  Of a `Write`
the transport takes all octets or none (it may do one of them and report an error). -/
structure OtherKey {C : Crypto} (a a' : Answer C) : Prop where
  genKey : a'.genKey = a.genKey
  handle : a'.handle = a.handle
  write : a'.write = a.write
  tick : a'.tick = a.tick
  key : a'.key = a.key
  choose : a'.choose = a.choose
  peer : a'.peer = a.peer
  signs : ∀ content, ∃ s s', a.sign 7 content = .ok s ∧ a'.sign 7 content = .ok s' ∧
    0 < s.length ∧ s.length ≤ 65536 ∧ 0 < s'.length ∧ s'.length ≤ 65536
  publishes : ∃ algorithm algorithm' key key' raw raw', a.fetchKey = .ok (algorithm, key) ∧
    a'.fetchKey = .ok (algorithm', key') ∧ C.marshalPKIX key = .ok raw ∧ C.marshalPKIX key' = .ok raw' ∧
    raw.length ≤ 65536 ∧ raw'.length ≤ 65536
  whole : a.write.1 = 0 ∨ 2 ^ 20 ≤ a.write.1

/-- The same schedule for both. -/
inductive OtherKeys {C : Crypto} : List (Nat × Answer C) → List (Nat × Answer C) → Prop where
  | nil : OtherKeys [] []
  | cons {i : Nat} {a a' : Answer C} {acts acts' : List (Nat × Answer C)} : OtherKey a a' → OtherKeys acts acts' →
    OtherKeys ((i, a) :: acts) ((i, a') :: acts')

end Goe2ee
