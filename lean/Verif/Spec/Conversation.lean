import Verif.Spec.Client
import Verif.Spec.Session

/-!
# Vocabulary for statements about a client and a server that talk to each other
-/

set_option autoImplicit false

namespace Goe2ee

/-- One message of the client: what `Write` is called with, how the network splits what it carries
in either direction, and the sizes of the buffers the answer is read with. -/
structure Round where
  message : Bytes
  up : Bytes → List Ev
  down : Bytes → Transport
  sizes : List Nat

/-- The network loses, reorders and changes nothing. -/
def Round.faithful (r : Round) : Prop :=
  (∀ bs, flatten (r.up bs) = bs.map Sum.inl) ∧ ∀ bs, (r.down bs).stream = bs.map Sum.inl

/-- A client and a server. -/
structure Ends where
  client : Client
  conn : CConn
  shared : CShared
  server : Seq

section
variable {C : Crypto}

/-- `Read` with buffers of these sizes until a call returns an error, as `io.ReadAll` does: the data
and the error. -/
def readAll (env : CEnv C) : Client → CConn × CShared → List Nat →
    Option ((Bytes × Option Err) × Client × (CConn × CShared))
  | c, s, [] => some (([], none), c, s)
  | c, s, n :: ns =>
    match runClient env (c.read n) s with
    | (.panic _, _) => none
    | (.val ((bs, some e), c'), s') => some ((bs, some e), c', s')
    | (.val ((bs, none), c'), s') => (readAll env c' s' ns).map fun r => ((bs ++ r.1.1, r.1.2), r.2)

/-- Over TCP the server serves the request in one pass of its loop and stays ready for the next: what
it sends. -/
def answerTCP (timeout : Nat) (ans : Nat → Answer C) (host : Bytes) (request : List Ev) (s : Seq) :
    Option (Bytes × Seq) :=
  match (connPass (inMemory C) (.ok host)).run (seqI C timeout ans)
      { s with conn := { s.conn with input := request } } with
  | (.val true, s') => some (s'.conn.output.drop s.conn.output.length, s')
  | _ => none

/-- Over UDP the server starts a goroutine for the datagram: the datagram it sends. -/
def answerUDP (timeout : Nat) (ans : Nat → Answer C) (host : Bytes) (request : Bytes) (s : Seq) :
    Option (Bytes × Seq) :=
  let served := ((packetBody (inMemory C) (.ok host)).run (seqI C timeout ans)
    { s with conn := .ofPeer (.udp (.ok host) request) }).2
  let flushed := (packetDeferred.run (seqI C timeout ans) served).2
  match flushed.conn.sent with
  | [datagram] => some (datagram, flushed)
  | _ => none

/-- The client sends a message and reads the answer: the data and the error with which reading
ended. -/
def exchange (env : CEnv C) (udp : Bool) (timeout : Nat) (ans : Nat → Answer C) (host : Bytes)
    (r : Round) (e : Ends) : Option ((Bytes × Option Err) × Ends) :=
  match runClient env (e.client.write r.message) (e.conn, e.shared) with
  | (.val ((_, none), c), (conn, shared)) =>
    match conn.writes.getLast? with
    | some (request, accepted, _) =>
      match (if udp then answerUDP timeout ans host (request.take accepted) e.server
          else answerTCP timeout ans host (r.up (request.take accepted)) e.server) with
      | some (reply, server) =>
        (readAll env c ({ conn with net := r.down reply }, shared) r.sizes).map fun q =>
          (q.1, { client := q.2.1, conn := q.2.2.1, shared := q.2.2.2, server })
      | none => none
    | none => none
  | _ => none

/-- One message after the other. -/
def converse (env : CEnv C) (udp : Bool) (timeout : Nat) (ans : Nat → Answer C) (host : Bytes) :
    List Round → Ends → Option (List (Bytes × Option Err) × Ends)
  | [], e => some ([], e)
  | r :: rs, e =>
    match exchange env udp timeout ans host r e with
    | some (got, e') => (converse env udp timeout ans host rs e').map fun q => (got :: q.1, q.2)
    | none => none

end

/-- The calls of the application handler for a session: the messages and the outcomes. -/
def handledFor (r : Ref) (log : List Event) : List (Bytes × HRes) :=
  log.filterMap fun
    | .invoked r' _ _ _ message res => if r' = r then some (message, res) else none
    | _ => none

end Goe2ee
