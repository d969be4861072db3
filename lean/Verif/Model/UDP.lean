import Verif.Model.Reader

/-!
# `UDPConn`: packets as a `net.Conn` (`internal/net/udp.go`)

The socket is the list of what its `ReadFrom` will return, and the environment's answer to one send.
-/

set_option autoImplicit false

namespace Goe2ee

/-- A received packet. -/
structure Datagram where
  payload : Bytes
  source : Bytes
  deriving DecidableEq, Repr

/-- internal/net/udp.go:26-34.  `addr` is nil until a packet was received; so is `readBuffer`
(simplified: empty). -/
structure UDPConn where
  connRead : Bool
  addr : Option Bytes
  readBuffer : Bytes
  writeBuffer : Bytes
  writeBuffered : Bool
  deriving DecidableEq, Repr

/-- internal/net/udp.go:37-49 -/
def newUDPConn (bufferedWrite : Bool) : UDPConn :=
  { connRead := false, addr := none, readBuffer := [], writeBuffer := [], writeBuffered := bufferedWrite }

/-- Go `bytes.Buffer.Read` with a slice of `k` bytes: the bytes, the error and the new contents. -/
def bufferRead (buffer : Bytes) (k : Nat) : (Bytes × Option Err) × Bytes :=
  if buffer = [] then (([], if k = 0 then none else some .eof), [])
  else ((buffer.take k, none), buffer.drop k)

/-- internal/net/udp.go:77-87: the error, the new state and the packets left.  Simplified: packets
longer than 64 KiB, which do not exist, are not cut; when no more packets arrive, `ReadFrom` fails
with EOF (a real socket would block). -/
def UDPConn.receive (c : UDPConn) :
    List (Except Err Datagram) → Option Err × UDPConn × List (Except Err Datagram)
  | [] => (some .eof, c, [])
  | .error e :: queue => (some e, c, queue)
  | .ok d :: queue =>
    (none, { c with addr := some d.source, readBuffer := d.payload, connRead := true }, queue)

/-- internal/net/udp.go:52-59 with `len(p) = k` -/
def UDPConn.read (c : UDPConn) (queue : List (Except Err Datagram)) (k : Nat) :
    (Bytes × Option Err) × UDPConn × List (Except Err Datagram) :=
  let r := if !c.connRead then c.receive queue else (none, c, queue)
  match r with
  | (some e, c, queue) => (([], some e), c, queue)
  | (none, c, queue) =>
    let b := bufferRead c.readBuffer k
    (b.1, { c with readBuffer := b.2 }, queue)

/-- A packet sent: to the address `to`, or over the pre-connected socket. -/
structure Sent where
  payload : Bytes
  to : Option Bytes
  deriving DecidableEq, Repr

/-- internal/net/udp.go:62-74: the result, the packets sent and the new state.  `preconnected`: the
packet connection implements `net.Conn`; `answer` is what the socket's write returns. -/
def UDPConn.write (c : UDPConn) (preconnected : Bool) (answer : Nat × Option Err) (p : Bytes) :
    (Nat × Option Err) × List Sent × UDPConn :=
  if c.writeBuffered then ((p.length, none), [], { c with writeBuffer := c.writeBuffer ++ p })
  else if preconnected then (answer, [⟨p, none⟩], { c with connRead := false })
  else (answer, [⟨p, c.addr⟩], { c with connRead := false })

/-- internal/net/udp.go:90-106: the error, the packets sent and the new state.  The packet connection
itself is not closed. -/
def UDPConn.close (c : UDPConn) (answer : Nat × Option Err) : Option Err × List Sent × UDPConn :=
  if c.writeBuffer = [] then (none, [], c)
  else
    let sent := [⟨c.writeBuffer, c.addr⟩]
    let c' := { c with connRead := false }
    match answer with
    | (_, some e) => (some e, sent, c')
    | (n, none) =>
      if n ≠ c.writeBuffer.length then (some .shortWrite, sent, c')
      else (none, sent, { c' with writeBuffer := [] })

end Goe2ee
