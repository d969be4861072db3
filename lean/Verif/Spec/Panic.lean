import Verif.Spec.Handler
import Verif.Spec.Lossy

/-!
# Vocabulary for statements about handlers that panic
-/

set_option autoImplicit false

namespace Goe2ee

section
variable {C : Crypto}

/-- Over UDP: the datagrams the server sends for a request, and the server afterwards. -/
def datagramsFor (timeout : Nat) (ans : Nat → Answer C) (host : Bytes) (request : Bytes) (s : Seq) :
    List Bytes × Seq :=
  let served := ((packetBody (inMemory C) (.ok host)).run (seqI C timeout ans)
    { s with conn := .ofPeer (.udp (.ok host) request) }).2
  let flushed := (packetDeferred.run (seqI C timeout ans) served).2
  (flushed.conn.sent, flushed)

/-- The client sends a message (the first component) in a datagram and reads the answer with buffers of some sizes
(the second), until its read deadline if there is none. -/
def patientExchange (env : CEnv C) (timeout : Nat) (ans : Nat → Answer C) (host : Bytes) (r : Bytes × List Nat)
    (e : Ends) : Option ((Bytes × Option Err) × Ends) :=
  match runClient env (e.client.write r.1) (e.conn, e.shared) with
  | (.val ((_, none), c), (conn, shared)) =>
    match conn.writes.getLast? with
    | some (request, accepted, _) =>
      let q := datagramsFor timeout ans host (request.take accepted) e.server
      let arrival : Except Err Bytes := match q.1 with
        | [datagram] => .ok datagram
        | _ => .error .timeout
      (readAll env c ({ conn with net := .udp false [] [arrival] }, shared) r.2).map fun p =>
        (p.1, { client := p.2.1, conn := p.2.2.1, shared := p.2.2.2, server := q.2 })
    | none => none
  | _ => none

/-- One message after the other. -/
def patientConverse (env : CEnv C) (timeout : Nat) (ans : Nat → Answer C) (host : Bytes) :
    List (Bytes × List Nat) → Ends → Option (List (Bytes × Option Err) × Ends)
  | [], e => some ([], e)
  | r :: rs, e =>
    match patientExchange env timeout ans host r e with
    | some (got, e') => (patientConverse env timeout ans host rs e').map fun q => (got :: q.1, q.2)
    | none => none

end

/-- What the client reads after a call of the handler: nothing until the deadline if it panicked, and otherwise what
`seenFor` says. -/
def SeenAfter : HRes → Bytes × Option Err → Prop
  | .panic _, got => got.1 = [] ∧ ∃ e, got.2 = some e ∧ e.Is .timeout
  | res, got => got = seenFor res

/-- The same, for one message after the other. -/
inductive SeenAll : List HRes → List (Bytes × Option Err) → Prop where
  | nil : SeenAll [] []
  | cons {res rest got gots} : SeenAfter res got → SeenAll rest gots → SeenAll (res :: rest) (got :: gots)

/-- The handler panicked, or it returned and what it wrote can be sent and fits into the buffers of the reader. -/
def Bearable (sizes : List Nat) : HRes → Prop
  | .panic _ => True
  | res => Answerable sizes res

end Goe2ee
