import Verif.Model.UDP
import Verif.Spec.Client

/-!
# Vocabulary for statements about datagrams
-/

set_option autoImplicit false

namespace Goe2ee

/-- A call on a `UDPConn`: `Read` with a buffer of `k` octets; `Write`, and what the socket answers if
it is used. -/
inductive UCall where
  | read (k : Nat)
  | write (p : Bytes) (answer : Nat × Option Err)
  deriving DecidableEq, Repr

/-- What a sequence of calls did. -/
structure UDPUse where
  /-- the results of the reads, in order -/
  reads : List (Bytes × Option Err)
  /-- the packets sent -/
  sent : List Sent
  conn : UDPConn
  /-- packets not yet received from the socket -/
  queue : List (Except Err Datagram)
  deriving Repr

/-- Make the calls. -/
def UDPConn.use (c : UDPConn) (preconnected : Bool) (queue : List (Except Err Datagram)) :
    List UCall → UDPUse
  | [] => { reads := [], sent := [], conn := c, queue }
  | .read k :: calls =>
    let r := c.read queue k
    let u := r.2.1.use preconnected r.2.2 calls
    { u with reads := r.1 :: u.reads }
  | .write p answer :: calls =>
    let r := c.write preconnected answer p
    let u := r.2.2.use preconnected queue calls
    { u with sent := r.2.1 ++ u.sent }

/-- Everything written by the calls. -/
def UCall.written : List UCall → Bytes
  | [] => []
  | .read _ :: calls => written calls
  | .write p _ :: calls => p ++ written calls

/-- Rounds of a successful `Write` and any positive number of calls of `Read`; the results of the
reads, by round. -/
inductive Rounds {C : Crypto} : Client → CConn × CShared → List (List (Bytes × Option Err)) →
    Client → CConn × CShared → Prop where
  | done (c : Client) (s : CConn × CShared) : Rounds c s [] c s
  | round {env : CEnv C} {c c₁ c₂ c₃ : Client} {s s₁ s₂ s₃ : CConn × CShared} {p : Bytes} {n : Nat}
      {ns : List Nat} {rs : List (Bytes × Option Err)} {rss : List (List (Bytes × Option Err))} :
      p.length < 2 ^ 63 → runClient env (c.write p) s = (.val ((n, none), c₁), s₁) → ns ≠ [] →
      Reads (C := C) c₁ s₁ ns rs c₂ s₂ → Rounds c₂ s₂ rss c₃ s₃ → Rounds c s (rs :: rss) c₃ s₃

end Goe2ee
