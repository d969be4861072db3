import Verif.Model.Server

/-!
# What server effects do; the sequential and the interleaved server
-/

set_option autoImplicit false

namespace Goe2ee

/-- Observable effects, in the order they happen. -/
inductive Event where
  /-- a setup request from `host` with `id` created the session -/
  | established (r : Ref) (host id : Bytes)
  /-- `CheckAndUpdate` accepted the counter for the session -/
  | accepted (r : Ref) (counter : BitVec 64)
  /-- the application handler was called -/
  | invoked (r : Ref) (counter : BitVec 64) (host id message : Bytes) (res : HRes)
  /-- the server encrypted with the session's key -/
  | sealed (r : Ref) (key nonce plaintext : Bytes)
  /-- `Server.Close` returned -/
  | closeReturned
  deriving DecidableEq, Repr

/-- State shared by the goroutines of one server. -/
structure World where
  /-- sessions in memory, by pointer: secret (immutable) and replay window -/
  heap : List (Bytes × ReplayWindow)
  /-- the `sync.Map` of the in-memory manager: session and last access time -/
  table : Bytes → Option (Ref × Nat)
  /-- the clock -/
  now : Nat
  /-- is `s.quit` closed? -/
  quit : Bool
  /-- the wait group's counter -/
  wg : Nat
  /-- goroutines started and not yet scheduled -/
  spawned : List Peer
  log : List Event
  /-- the write deadline of the packet connection, which all goroutines for datagrams share -/
  packetBy : Option Nat := none

/-- State of a goroutine's connection. -/
structure Conn where
  /-- what the network will still deliver -/
  input : List Ev
  /-- everything the transport accepted from us (TCP), or the write buffer (UDP) -/
  output : Bytes
  /-- every `Write` call with its outcome, in order -/
  writes : List (Bytes × Nat × Option Err)
  /-- datagrams sent (UDP) -/
  sent : List Bytes
  /-- writes are buffered (server-side UDP) -/
  buffered : Bool
  /-- the write deadline the goroutine has set: its connection's (TCP); over UDP it counts only as
  `World.packetBy`, until another goroutine sets that -/
  deadline : Option Nat
  closed : Bool

/-- The environment's choices for one step. -/
structure Answer (C : Crypto) where
  genKey : Except Err C.EPriv
  sign : Nat → Bytes → Except Err Bytes
  fetchKey : Except Err (KeyAlgorithm × PublicKey)
  handle : HRes
  /-- what the transport does with a write: how many octets at the end it does not accept, and the
  error it reports -/
  write : Nat × Option Err
  /-- time that passes before the step -/
  tick : Nat
  key : Bytes
  choose : Nat
  peer : Except Err Peer

/-- Default write timeout in nanoseconds (server.go:110); `0` means no deadline. -/
def defaultWriteTimeout : Nat := 5000000000

/-- Has a write deadline passed?  Go then fails every write. -/
def expired (deadline : Option Nat) (now : Nat) : Bool :=
  match deadline with
  | some d => d < now
  | none => false

section
variable (C : Crypto)

/-- `conn.Write(bs)` (Go `net`; `UDPConn.Write`, internal/net/udp.go:62-65, for buffered writes).
TCP: an expired write deadline fails at once with nothing written; otherwise the transport accepts a
prefix and reports its own error. -/
def execWrite (a : Answer C) (bs : Bytes) (c : Conn) (w : World) :
    (Nat × Option Err) × (Conn × World) :=
  let result : (Nat × Option Err) × World :=
    if c.buffered then ((bs.length, none), w)
    else
      let w' := { w with now := w.now + a.tick }
      match c.deadline with
      | some d =>
        if d < w'.now then ((0, some .timeout), w')
        else ((bs.length - a.write.1, a.write.2), w')
      | none => ((bs.length - a.write.1, a.write.2), w')
  (result.1, ({ c with output := c.output ++ bs.take result.1.1,
                       writes := c.writes ++ [(bs, result.1)] }, result.2))

/-- One effect.  `timeout` is the write timeout of the server. -/
def exec (timeout : Nat) (a : Answer C) : Interp (SSig C) (Conn × World)
  | .read o, (c, w) =>
    let r := readInterp readEv o c.input
    (r.1, ({ c with input := r.2 }, w))
  | .write bs, (c, w) => execWrite C a bs c w
  | .setDeadlines, (c, w) =>
    let now := w.now + a.tick
    ((), ({ c with deadline := if timeout > 0 then some (now + timeout) else c.deadline },
          { w with now, packetBy :=
              if timeout > 0 ∧ c.buffered then some (now + timeout) else w.packetBy }))
  | .genKey, s => (a.genKey, s)
  | .sign hash content, s => (a.sign hash content, s)
  | .fetchKey, s => (a.fetchKey, s)
  | .now, (c, w) => (w.now + a.tick, (c, { w with now := w.now + a.tick }))
  | .mapLoad key, (c, w) => (w.table key, (c, w))
  | .mapStore key v, (c, w) =>
    ((), (c, { w with table := fun k => if k = key then some v else w.table k }))
  | .mapDelete key, (c, w) =>
    ((), (c, { w with table := fun k => if k = key then none else w.table k }))
  | .pickKey, s => (a.key, s)
  | .newSession secret host id, (c, w) =>
    (w.heap.length, (c, { w with
      heap := w.heap ++ [(secret, .fresh)],
      log := w.log ++ [.established w.heap.length host id] }))
  | .secretOf r, (c, w) => ((w.heap.getD r ([], .fresh)).1, (c, w))
  | .check r counter, (c, w) =>
    match w.heap[r]? with
    | none => (false, (c, w))
    | some (secret, window) =>
      let res := window.checkAndUpdate counter
      (res.1, (c, { w with
        heap := w.heap.set r (secret, res.2),
        log := if res.1 then w.log ++ [.accepted r counter] else w.log }))
  | .invoke r counter host id message, (c, w) =>
    (a.handle, (c, { w with log := w.log ++ [.invoked r counter host id message a.handle] }))
  | .aead r key nonce plaintext, (c, w) =>
    (C.aeadSeal key nonce plaintext, (c, { w with log := w.log ++ [.sealed r key nonce plaintext] }))
  | .quitClosed, (c, w) => (w.quit, (c, w))
  | .closeQuit, (c, w) => (!w.quit, (c, { w with quit := true }))
  | .accept, s => (match a.peer with | .ok (.udp _ _) => .error (.other "not tcp") | p => p, s)
  | .receive, s => (match a.peer with | .ok (.tcp _ _) => .error (.other "not udp") | p => p, s)
  | .wgAdd, (c, w) => ((), (c, { w with wg := w.wg + 1 }))
  | .wgDone, (c, w) => ((), (c, { w with wg := w.wg - 1 }))
  | .wgWait, s => ((), s)
  | .spawn p, (c, w) => ((), (c, { w with spawned := w.spawned ++ [p] }))
  | .closeConn, (c, w) => ((), ({ c with closed := true }, w))
  | .flush, (c, w) =>
    -- internal/net/udp.go:90-106: nothing buffered: nothing sent; otherwise one datagram, unless
    -- the write deadline has expired or sending fails
    let w' := { w with now := w.now + a.tick }
    if c.output = [] ∨ expired w'.packetBy w'.now ∨ a.write.2.isSome then ((), (c, w'))
    else ((), ({ c with sent := c.sent ++ [c.output], output := [] }, w'))
  | .closeReturned, (c, w) => ((), (c, { w with log := w.log ++ [.closeReturned] }))
  | .choose, s => (a.choose, s)

/-- Operations that block: `wg.Wait()` until the counter is zero. -/
def enabled (w : World) : SOp → Bool
  | .wgWait => w.wg == 0
  | _ => true

/-! ## One goroutine alone -/

/-- Reads answer from the connection; every other effect consumes one answer of the environment. -/
structure Seq where
  conn : Conn
  world : World
  pos : Nat

/-- Run alone: the answers of the environment are an arbitrary sequence. -/
def seqI (timeout : Nat) (ans : Nat → Answer C) : Interp (SSig C) Seq
  | .read o, s =>
    let r := readInterp readEv o s.conn.input
    (r.1, { s with conn := { s.conn with input := r.2 } })
  | o, s =>
    let r := exec C timeout (ans s.pos) o (s.conn, s.world)
    (r.1, { conn := r.2.1, world := r.2.2, pos := s.pos + 1 })

/-- How a connection's loop ended. -/
inductive Ended where
  /-- the loop returned -/
  | returned
  /-- a panic reached the deferred function -/
  | panicked (msg : String)
  /-- not yet ended after this many passes -/
  | running
  deriving DecidableEq, Repr

/-- `handleConnection` (server.go:174-234), nothing else running: at most `fuel` passes of its loop,
then the deferred calls. -/
def serveConn (M : Manager C) (timeout : Nat) (ans : Nat → Answer C) (host : Except Err Bytes) :
    (fuel : Nat) → Seq → Ended × Seq
  | 0, s => (.running, s)
  | fuel + 1, s =>
    match (connPass M host).run (seqI C timeout ans) s with
    | (.val true, s') => serveConn M timeout ans host fuel s'
    | (.val false, s') => (.returned, (connDeferred.run (seqI C timeout ans) s').2)
    | (.panic m, s') => (.panicked m, (connDeferred.run (seqI C timeout ans) s').2)

/-! ## All goroutines interleaved -/

/-- A goroutine: its connection, what remains of the current pass, the loop body, and the deferred
calls. -/
structure Thread where
  conn : Conn
  prog : SProg C Bool
  loop : SProg C Bool
  deferred : SProg C Bool

/-- The whole server. -/
structure Sys where
  world : World
  threads : List (Thread C)

def Conn.none : Conn :=
  { input := [], output := [], writes := [], sent := [], buffered := false, deadline := .none, closed := false }

/-- A connection on which nothing was written yet. -/
def Conn.ofPeer : Peer → Conn
  | .tcp _ input => { Conn.none with input }
  | .udp _ datagram => { Conn.none with input := [.data datagram], buffered := true }

variable {C}

/-- The goroutine started for a peer. -/
def Thread.ofPeer (M : Manager C) (p : Peer) : Thread C :=
  match p with
  | .tcp host _ =>
    { conn := .ofPeer p, prog := connPass M host, loop := connPass M host, deferred := connDeferred }
  | .udp host _ =>
    { conn := .ofPeer p, prog := packetBody M host, loop := .ret false, deferred := packetDeferred }

/-- A goroutine without connection that repeats `body`. -/
def Thread.repeating (body : SProg C Bool) : Thread C :=
  { conn := .none, prog := body, loop := body, deferred := .ret false }

/-- Let goroutine `t` take one step: perform its next effect, start its next pass, or enter its
deferred calls. -/
def Thread.step (timeout : Nat) (a : Answer C) (t : Thread C) (w : World) : Thread C × World :=
  match t.prog with
  | .ret true => ({ t with prog := t.loop }, w)
  | .ret false => ({ t with prog := t.deferred, loop := .ret false, deferred := .ret false }, w)
  | .panic _ => ({ t with prog := t.deferred, loop := .ret false, deferred := .ret false }, w)
  | .op o k =>
    if enabled w o then
      let r := exec C timeout a o (t.conn, w)
      ({ t with prog := k r.1, conn := r.2.1 }, r.2.2)
    else (t, w)

/-- One step of the server: the scheduler picks goroutine `i` (nothing happens if there is none).
Goroutines it started are added. -/
def Sys.step (M : Manager C) (timeout : Nat) (s : Sys C) (act : Nat × Answer C) : Sys C :=
  match s.threads[act.1]? with
  | none => s
  | some t =>
    let r := t.step timeout act.2 s.world
    { world := { r.2 with spawned := [] },
      threads := s.threads.set act.1 r.1 ++ r.2.spawned.map (Thread.ofPeer M) }

/-- Run a schedule. -/
def Sys.run (M : Manager C) (timeout : Nat) (s : Sys C) (acts : List (Nat × Answer C)) : Sys C :=
  acts.foldl (Sys.step M timeout) s

/-- A server just started with TCP and UDP listeners, the session collector (unless `ttl = 0`) and
`closers` goroutines that will call `Server.Close`. -/
def Sys.start (ttl closers : Nat) : Sys C :=
  { world := { heap := [], table := fun _ => none, now := 0, quit := false, wg := 0, spawned := [],
               log := [] },
    threads :=
      [.repeating acceptPass, .repeating packetPass] ++
      (if ttl > 0 then [.repeating (gcVisit ttl)] else []) ++
      List.replicate closers { conn := .none, prog := closeServer, loop := .ret false,
                               deferred := .ret false } }

end

end Goe2ee
