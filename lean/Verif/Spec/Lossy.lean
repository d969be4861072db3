import Verif.Spec.Conversation
import Verif.Spec.Errors

/-!
# Vocabulary for statements about conversations over a network that loses datagrams
-/

set_option autoImplicit false

namespace Goe2ee

/-- What the network does to the two datagrams of an exchange. -/
inductive Fate where
  | delivered
  | requestLost
  | replyLost
  deriving DecidableEq, Repr

/-- One message of the client, what becomes of its datagrams, and the sizes of the buffers the answer is read with. -/
structure LossyRound where
  message : Bytes
  fate : Fate
  sizes : List Nat

/-- Something arrives at a UDP socket: a datagram, or the read deadline passes. -/
def Transport.arrives (d : Except Err Bytes) : Transport → Transport
  | .tcp input => .tcp input
  | .udp connRead readBuffer queue => .udp connRead readBuffer (queue ++ [d])

section
variable {C : Crypto}

/-- Over UDP, by a socket that sends no datagrams longer than `limit` (65507 octets over IPv4): the datagrams the server
sends for a request. -/
def answerWithin (limit timeout : Nat) (ans : Nat → Answer C) (host : Bytes) (request : Bytes) (s : Seq) :
    List Bytes × Seq :=
  let served := ((packetBody (inMemory C) (.ok host)).run (seqI C timeout ans)
    { s with conn := .ofPeer (.udp (.ok host) request) }).2
  let flushed := (packetDeferred.run (seqI C timeout fun p => { ans p with
    write := if served.conn.output.length ≤ limit then (0, none)
      else (served.conn.output.length, some (.other "message too long")) }) served).2
  (flushed.conn.sent, flushed)

/-- The client sends a message and reads the answer over UDP, until its read deadline if there is none. -/
def lossyExchange (env : CEnv C) (timeout : Nat) (ans : Nat → Answer C) (host : Bytes) (r : LossyRound)
    (e : Ends) : Option ((Bytes × Option Err) × Ends) :=
  match runClient env (e.client.write r.message) (e.conn, e.shared) with
  | (.val ((_, none), c), (conn, shared)) =>
    match conn.writes.getLast? with
    | some (request, accepted, _) =>
      match (if r.fate = .requestLost then some (.error .timeout, e.server)
          else (answerUDP timeout ans host (request.take accepted) e.server).map fun q =>
            (if r.fate = .replyLost then .error .timeout else .ok q.1, q.2)) with
      | some (arrival, server) =>
        (readAll env c ({ conn with net := conn.net.arrives arrival }, shared) r.sizes).map fun q =>
          (q.1, { client := q.2.1, conn := q.2.2.1, shared := q.2.2.2, server })
      | none => none
    | none => none
  | _ => none

/-- One message after the other. -/
def lossyConverse (env : CEnv C) (timeout : Nat) (ans : Nat → Answer C) (host : Bytes) :
    List LossyRound → Ends → Option (List (Bytes × Option Err) × Ends)
  | [], e => some ([], e)
  | r :: rs, e =>
    match lossyExchange env timeout ans host r e with
    | some (got, e') => (lossyConverse env timeout ans host rs e').map fun q => (got :: q.1, q.2)
    | none => none

end

/-- What the client reads for each message, and what the application is called with: the reply of the application, unless
a datagram of this very exchange was lost; the application, unless the request was lost. -/
inductive Outcomes : List LossyRound → List (Bytes × Option Err) → List (Bytes × HRes) → Prop where
  | nil : Outcomes [] [] []
  | delivered {r rs out calls} (written : Bytes) : r.fate = .delivered → Outcomes rs out calls →
      Outcomes (r :: rs) ((written, some .eof) :: out) ((r.message, .reply written) :: calls)
  | requestLost {r rs out calls} (e : Err) : r.fate = .requestLost → e.Is .timeout → Outcomes rs out calls →
      Outcomes (r :: rs) (([], some e) :: out) calls
  | replyLost {r rs out calls} (e : Err) (written : Bytes) : r.fate = .replyLost → e.Is .timeout →
      Outcomes rs out calls → Outcomes (r :: rs) (([], some e) :: out) ((r.message, .reply written) :: calls)

end Goe2ee
