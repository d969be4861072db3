import Verif.Model.Client

/-!
# What client effects do: TCP and UDP sockets, one client alone and many clients interleaved
-/

set_option autoImplicit false

namespace Goe2ee

/-- The receiving half of a client's socket.
* `tcp input`: see `Ev`;
* `udp connRead readBuffer queue`: the fields of `UDPConn` (internal/net/udp.go:26-34) and what
  `ReadFrom` will return: datagrams and errors (for instance an expired deadline).  When the list is
  exhausted `ReadFrom` fails with EOF (simplified: a real socket would block). -/
inductive Transport where
  | tcp (input : List Ev)
  | udp (connRead : Bool) (readBuffer : Bytes) (queue : List (Except Err Bytes))

/-- `bytes.Buffer.Read` with a buffer of `k > 0` bytes, the last step of `UDPConn.Read`. -/
def readDatagram (readBuffer : Bytes) (queue : List (Except Err Bytes)) (k : Nat) :
    (Bytes × Option Err) × Transport :=
  if readBuffer = [] then (([], some .eof), .udp true [] queue)
  else ((readBuffer.take k, none), .udp true (readBuffer.drop k) queue)

/-- `Read` with a buffer of `k > 0` bytes: `net.TCPConn.Read`; `UDPConn.Read` with `Receive`
(internal/net/udp.go:52-59, 77-87).  Simplified: datagrams longer than 64 KiB, which do not exist, are
not cut. -/
def readNet : ReadFn Transport
  | .tcp input, k =>
    let r := readEv input k
    (r.1, .tcp r.2)
  | .udp true readBuffer queue, k => readDatagram readBuffer queue k
  | .udp false readBuffer [], _ => (([], some .eof), .udp false readBuffer [])
  | .udp false readBuffer (.error e :: queue), _ => (([], some e), .udp false readBuffer queue)
  | .udp false _ (.ok datagram :: queue), k => readDatagram datagram queue k

/-- What a write does to the receiving half: `UDPConn.Write` (internal/net/udp.go:66-68) forgets the
current datagram, whatever the outcome. -/
def Transport.written : Transport → Transport
  | .tcp input => .tcp input
  | .udp _ readBuffer queue => .udp false readBuffer queue

/-- A client's connection. -/
structure CConn where
  net : Transport
  /-- every `Write` call with its outcome, in order -/
  writes : List (Bytes × Nat × Option Err)
  /-- the operating system's socket is open -/
  isOpen : Bool

/-- State shared by the clients of a process. -/
structure CShared where
  /-- send counters, by address -/
  counters : List (BitVec 64)
  /-- every encryption: counter address is not known to the AEAD; key, nonce, plaintext -/
  sealed : List (Bytes × Bytes × Bytes)

/-- The environment's answers during one call. -/
structure CEnv (C : Crypto) where
  connect : Option Err := none
  keepAlive : Option Err := none
  /-- how many octets at the end of a write the transport does not accept, and its error -/
  write : Nat × Option Err := (0, none)
  readDeadline : Option Err := none
  writeDeadline : Option Err := none
  close : Option Err := none
  fetch : Bytes → Except Err PublicKey
  random : Except Err ID
  genKey : Except Err C.EPriv

section
variable {C : Crypto}

/-- One effect. -/
def cexec (env : CEnv C) : Interp (CSig C) (CConn × CShared)
  | .connect, (c, w) =>
    (env.connect, ({ c with isOpen := c.isOpen || env.connect.isNone }, w))
  | .setKeepAlive, s => (env.keepAlive, s)
  | .read o, (c, w) =>
    let r := readInterp readNet o c.net
    (r.1, ({ c with net := r.2 }, w))
  | .write bs, (c, w) =>
    let r := (bs.length - env.write.1, env.write.2)
    (r, ({ c with net := c.net.written, writes := c.writes ++ [(bs, r)] }, w))
  | .setReadDeadline, s => (env.readDeadline, s)
  | .setWriteDeadline, s => (env.writeDeadline, s)
  | .close, (c, w) =>
    match c.net with
    -- `net.TCPConn.Close`
    | .tcp _ => (env.close, ({ c with isOpen := c.isOpen && env.close.isSome }, w))
    -- internal/net/udp.go:90-93: a client's write buffer is always empty
    | .udp _ _ _ => (none, (c, w))
  | .closeSocket, (c, w) => (env.close, ({ c with isOpen := c.isOpen && env.close.isSome }, w))
  | .fetch host, s => (env.fetch host, s)
  | .random, s => (env.random, s)
  | .genKey, s => (env.genKey, s)
  | .newCounter, (c, w) => (w.counters.length, (c, { w with counters := w.counters ++ [0] }))
  | .addCounter a, (c, w) =>
    let v := w.counters.getD a 0 + 1
    (v, (c, { w with counters := w.counters.set a v }))
  | .aead key nonce plaintext, (c, w) =>
    (C.aeadSeal key nonce plaintext, (c, { w with sealed := w.sealed ++ [(key, nonce, plaintext)] }))

/-- A call of the API, nothing else running. -/
abbrev runClient {α : Type} (env : CEnv C) (p : CProg C α) (s : CConn × CShared) :
    Res α × (CConn × CShared) := p.run (cexec env) s

/-! ## Many clients -/

/-- Calls of the API on an established client. -/
inductive CCall where
  | write (p : Bytes)
  | read (n : Nat)

/-- One call; the results are forgotten. -/
def Client.call (c : Client) : CCall → CProg C Client
  | .write p => (c.write p).bind fun r => .ret r.2
  | .read n => (c.read n).bind fun r => .ret r.2

/-- A sequence of calls on one client. -/
def Client.calls (c : Client) : List CCall → CProg C Client
  | [] => .ret c
  | call :: rest => (c.call call).bind fun c' => c'.calls rest

/-- A goroutine using a client. -/
structure CThread (C : Crypto) where
  conn : CConn
  prog : CProg C Client

/-- Goroutines of one process. -/
structure CSys (C : Crypto) where
  shared : CShared
  threads : List (CThread C)

/-- The scheduler lets goroutine `act.1` perform its next effect. -/
def CSys.step (s : CSys C) (act : Nat × CEnv C) : CSys C :=
  match s.threads[act.1]? with
  | none => s
  | some t =>
    match t.prog with
    | .op o k =>
      let r := cexec act.2 o (t.conn, s.shared)
      { shared := r.2.2, threads := s.threads.set act.1 { conn := r.2.1, prog := k r.1 } }
    | _ => s

/-- Run a schedule. -/
def CSys.run (s : CSys C) (acts : List (Nat × CEnv C)) : CSys C := acts.foldl CSys.step s

end

end Goe2ee
