import Verif.Model.ServerExec
import Verif.Spec.Wire

/-!
# Two servers whose applications reply differently
-/

set_option autoImplicit false

namespace Goe2ee

/-- The same octets, or the replies to the same request, encrypted with the same key, of messages of the same length. -/
inductive VeiledMessage (C : Crypto) : Bytes → Bytes → Prop where
  | same (m : Bytes) : VeiledMessage C m m
  | reply (counter : BitVec 64) (key text text' : Bytes) : text.length = text'.length →
    VeiledMessage C
      (Wire.processResponse counter.toNat (C.aeadSeal key (Wire.nonce12 1 counter.toNat) text))
      (Wire.processResponse counter.toNat (C.aeadSeal key (Wire.nonce12 1 counter.toNat) text'))

/-- Sequences of (beginnings of) such messages, of the same lengths. -/
inductive VeiledOctets (C : Crypto) : Bytes → Bytes → Prop where
  | nil : VeiledOctets C [] []
  | append {sent sent' m m' : Bytes} (n : Nat) : VeiledOctets C sent sent' → VeiledMessage C m m' →
    VeiledOctets C (sent ++ m.take n) (sent' ++ m'.take n)

/-- Sequences of such datagrams. -/
def VeiledDatagrams (C : Crypto) (sent sent' : List Bytes) : Prop :=
  sent.length = sent'.length ∧ ∀ d ∈ sent.zip sent', VeiledOctets C d.1 d.2

/-- Two results of the application: replies of the same length, errors, or panics. -/
inductive OtherResult : HRes → HRes → Prop where
  | reply (text text' : Bytes) : text.length = text'.length → text.length < 2 ^ 63 →
    OtherResult (.reply text) (.reply text')
  | error (e e' : Err) : OtherResult (.error e) (.error e')
  | panic (m m' : String) : OtherResult (.panic m) (.panic m')

/-- What happens to a goroutine of a server and to the same goroutine of a server with another application. -/
def OtherReply {C : Crypto} (a a' : Answer C) : Prop :=
  OtherResult a.handle a'.handle ∧ a' = { a with handle := a'.handle }

/-- The same schedule for both. -/
inductive OtherReplies {C : Crypto} : List (Nat × Answer C) → List (Nat × Answer C) → Prop where
  | nil : OtherReplies [] []
  | cons {i : Nat} {a a' : Answer C} {acts acts' : List (Nat × Answer C)} : OtherReply a a' → OtherReplies acts acts' →
    OtherReplies ((i, a) :: acts) ((i, a') :: acts')

/-- What remains of a result of the application when nobody may see what it says. -/
def HRes.veil : HRes → HRes
  | .reply text => .reply (text.map fun _ => 0)
  | .error _ => .error .eof
  | .panic _ => .panic ""

/-- What remains of an event. -/
def Event.veil : Event → Event
  | .invoked r counter host id message res => .invoked r counter host id message res.veil
  | .sealed r key nonce plaintext => .sealed r key nonce (plaintext.map fun _ => 0)
  | e => e

end Goe2ee
