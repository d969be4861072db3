import Verif.Model.Loops

/-!
# The client pool (`client_pool.go`)

Any number of goroutines call `Get` of one pool, `Close` of the clients they got, and `Close` of the
pool.  Every access to the pool's fields, every operation on the mutex, the channel or a connection is
an effect; the scheduler may switch goroutines between any two effects.

Clients are numbered in the order of their creation; so are sessions.  Simplifications:
* `numberOfClients` is unbounded (the code has an int64);
* reading and updating a field is one effect: C65 proves that a goroutine that does this holds the
  mutex, and no other goroutine can then access any field;
* a dial and a borrow test are one effect each (a dial happens with the mutex held; a borrow test only
  uses the borrowed client, which C42 proves to belong to nobody else).
-/

set_option autoImplicit false

namespace Goe2ee

/-- Outcome of the select statement client_pool.go:103-107. -/
inductive SendRes where
  /-- a goroutine was waiting and got the client -/
  | sent
  /-- nobody was waiting -/
  | noReceiver
  /-- the channel is closed: the statement panics -/
  | closed
  deriving DecidableEq, Repr

/-- What a goroutine that uses the pool does next. -/
inductive PCmd where
  /-- `pool.Get()` -/
  | get
  /-- `client.Close()` for the k-th of the borrowed clients -/
  | close (k : Nat)
  deriving DecidableEq, Repr

/-- Effects of pool code. -/
inductive POp where
  | lock
  | unlock
  /-- `len(cp.idleClients) > 0`, and then take the first idle client -/
  | popIdle
  /-- `len(cp.idleClients)` -/
  | countIdle
  /-- `cp.idleClients = append(cp.idleClients, client)` -/
  | pushIdle (c : Nat)
  /-- `range cp.idleClients` -/
  | listIdle
  /-- `cp.idleClients = nil` -/
  | clearIdle
  /-- `cp.numberOfClients` -/
  | getNumber
  /-- `cp.numberOfClients++`, `cp.numberOfClients--` -/
  | addNumber (d : Int)
  /-- `cp.numberOfClients = 0` -/
  | zeroNumber
  /-- `cp.session` -/
  | getSession
  | setSession (s : Option Nat)
  /-- `DialTCP` (with handshake) or `dialTCP` (without) -/
  | dial (handshake : Bool)
  /-- `client.session` -/
  | sessionOf (c : Nat)
  | setSessionOf (c : Nat) (s : Option Nat)
  /-- `cp.testOnBorrow(client)` -/
  | test (c : Nat)
  /-- `client.close()` -/
  | closeConn (c : Nat)
  /-- begin to wait for a client: `<-cp.waitingClients` -/
  | park
  /-- end of waiting: a client, or nil if the channel was closed -/
  | await
  /-- `select { case cp.waitingClients <- client: …; default: }` -/
  | send (c : Nat)
  /-- `close(cp.waitingClients)`; false if the channel was closed already (a panic) -/
  | closeChan
  /-- what the application wants next: none is `pool.Get()`, `some c` is `c.Close()`.  A careful
  application closes a client once; a careless one may close it again. -/
  | command (careless : Bool)
  /-- `Get` returns: a client or an error -/
  | lend (r : Except Err Nat)

/-- Result types. -/
def POp.Ret : POp → Type
  | .lock => Unit
  | .unlock => Unit
  | .popIdle => Option Nat
  | .countIdle => Nat
  | .pushIdle _ => Unit
  | .listIdle => List Nat
  | .clearIdle => Unit
  | .getNumber => Int
  | .addNumber _ => Unit
  | .zeroNumber => Unit
  | .getSession => Option Nat
  | .setSession _ => Unit
  | .dial _ => Except Err Nat
  | .sessionOf _ => Option Nat
  | .setSessionOf _ _ => Unit
  | .test _ => Bool
  | .closeConn _ => Option Err
  | .park => Unit
  | .await => Option Nat
  | .send _ => SendRes
  | .closeChan => Bool
  | .command _ => Option Nat
  | .lend _ => Unit

/-- Signature of pool programs. -/
abbrev PSig : Sig := ⟨POp, POp.Ret⟩

/-- Loops of goroutines that use the pool. -/
inductive PLoop where
  /-- an application goroutine: `Get` and `Close` in any order, for ever -/
  | user (careless : Bool)
  /-- client_pool.go:45: the loop of `Get`; the mutex is held -/
  | scan (careless : Bool)
  /-- calls `Close` of the pool -/
  | closer
  /-- the goroutine has ended -/
  | done
  deriving DecidableEq, Repr

/-- client_pool.go:15-18 -/
structure PoolCfg where
  maxIdle : Int
  maxOpen : Int

/-- client_pool.go:109-115: keep the client or close it; `n` clients are idle. -/
def poolKeep (cfg : PoolCfg) (c : Nat) (n : Nat) : Prog PSig (Option Err) :=
  if (n : Int) ≥ cfg.maxIdle then
    .op (.addNumber (-1)) fun _ =>
    .op (.closeConn c) fun (e : Option Err) =>
    .op .unlock fun _ => .ret e
  else
    .op (.pushIdle c) fun _ =>
    .op .unlock fun _ => .ret none

/-- client_pool.go:99-116; it is what `client.Close()` does (client.go:419-423). -/
def poolPut (cfg : PoolCfg) (c : Nat) : Prog PSig (Option Err) :=
  .op .lock fun _ =>
  .op (.send c) fun (r : SendRes) =>
  match r with
  | .sent => .op .unlock fun _ => .ret none
  | .closed => .op .unlock fun _ => .panic "send on closed channel"
  | .noReceiver =>
  .op .countIdle fun (n : Nat) => poolKeep cfg c n

/-- `Get` returns `r`; the goroutine goes on. -/
def poolReturn (careless : Bool) (r : Except Err Nat) : Prog PSig PLoop :=
  .op (.lend r) fun _ => .ret (.user careless)

/-- client_pool.go:94-96: a new client has been connected. -/
def poolCount (careless : Bool) (c : Nat) : Prog PSig PLoop :=
  .op (.addNumber 1) fun _ =>
  .op .unlock fun _ =>
  poolReturn careless (.ok c)

/-- client_pool.go:69-96; the mutex is held. -/
def poolDial (careless : Bool) : Prog PSig PLoop :=
  .op .getSession fun (s : Option Nat) =>
  match s with
  | none =>
    .op (.dial true) fun (r : Except Err Nat) =>
    match r with
    | .error e => .op .unlock fun _ => poolReturn careless (.error e)
    | .ok c =>
      .op (.sessionOf c) fun (s : Option Nat) =>
      .op (.setSession s) fun _ =>
      poolCount careless c
  | some _ =>
    .op (.dial false) fun (r : Except Err Nat) =>
    match r with
    | .error e => .op .unlock fun _ => poolReturn careless (.error e)
    | .ok c =>
      .op .getSession fun (s : Option Nat) =>
      .op (.setSessionOf c s) fun _ =>
      poolCount careless c

/-- The borrow test and what follows (client_pool.go:49-54 and 60-65): return the client, or close it,
lock again, decrement and continue with `next`. -/
def poolTry (cfg : PoolCfg) (careless : Bool) (c : Nat) (next : Prog PSig PLoop) : Prog PSig PLoop :=
  .op (.test c) fun (ok : Bool) =>
  if ok then poolReturn careless (.ok c)
  else
    (poolPut cfg c).bind fun _ =>
    .op .lock fun _ =>
    .op (.addNumber (-1)) fun _ =>
    next

/-- client_pool.go:57-66: wait for a client; `cp.testOnBorrow(nil)` panics. -/
def poolWait (cfg : PoolCfg) (careless : Bool) : Prog PSig PLoop :=
  .op .unlock fun _ =>
  .op .park fun _ =>
  .op .await fun (o : Option Nat) =>
  match o with
  | none => .panic "nil pointer dereference"
  | some c => poolTry cfg careless c (poolDial careless)

/-- client_pool.go:57: is the limit reached? -/
def poolFull (cfg : PoolCfg) (careless : Bool) (n : Int) : Prog PSig PLoop :=
  if n ≥ cfg.maxOpen then poolWait cfg careless else poolDial careless

/-- One round of the loop client_pool.go:45-55, and what follows it (57-96). -/
def poolScan (cfg : PoolCfg) (careless : Bool) : Prog PSig PLoop :=
  .op .popIdle fun (o : Option Nat) =>
  match o with
  | some c => .op .unlock fun _ => poolTry cfg careless c (.ret (.scan careless))
  | none =>
  .op .getNumber fun (n : Int) =>
  poolFull cfg careless n

/-- An application goroutine: the next call (client_pool.go:42-43 for `Get`). -/
def poolUser (cfg : PoolCfg) (careless : Bool) : Prog PSig PLoop :=
  .op (.command careless) fun (cmd : Option Nat) =>
  match cmd with
  | none => .op .lock fun _ => .ret (.scan careless)
  | some c => (poolPut cfg c).bind fun _ => .ret (.user careless)

/-- client_pool.go:123-127: close the idle clients until one fails to close. -/
def closeAll : List Nat → Prog PSig (Option Err)
  | [] => .ret none
  | c :: cs =>
    .op (.closeConn c) fun (e : Option Err) =>
    match e with
    | some e => .ret (some e)
    | none => closeAll cs

/-- client_pool.go:119-135 -/
def poolClose : Prog PSig PLoop :=
  .op .lock fun _ =>
  .op .listIdle fun (cs : List Nat) =>
  (closeAll cs).bind fun e =>
  match e with
  | some _ => .op .unlock fun _ => .ret .done
  | none =>
  .op .clearIdle fun _ =>
  .op .zeroNumber fun _ =>
  .op (.setSession none) fun _ =>
  .op .closeChan fun (ok : Bool) =>
  .op .unlock fun _ =>
  if ok then .ret .done else .panic "close of closed channel"

/-- The bodies of the loops. -/
def poolBody (cfg : PoolCfg) : PLoop → Prog PSig PLoop
  | .user careless => poolUser cfg careless
  | .scan careless => poolScan cfg careless
  | .closer => poolClose
  | .done => .ret .done

/-! ## What the effects do -/

/-- A client: its session, and whether its connection is still open (`close` has not been called). -/
structure PClient where
  session : Option Nat
  isOpen : Bool
  deriving DecidableEq, Repr

/-- The pool (client_pool.go:11-21), its clients, and history. -/
structure PWorld where
  locked : Bool
  idle : List Nat
  number : Int
  session : Option Nat
  /-- goroutines that wait to receive from `waitingClients` -/
  waiting : List Nat
  /-- what goroutines have received (nil: the channel was closed) -/
  mail : List (Nat × Option Nat)
  /-- the channel is closed -/
  closed : Bool
  clients : List PClient
  /-- how many handshakes succeeded -/
  handshakes : Nat
  /-- how many borrow tests failed -/
  failed : Nat
  /-- clients that `Get` returned and the application has not closed yet -/
  held : List Nat
  /-- all results of `Get` that were clients, in order -/
  lent : List Nat
  deriving DecidableEq, Repr

/-- The environment's choices. -/
structure PEnv where
  test : Bool := true
  dial : Option Err := none
  close : Option Err := none
  /-- which waiting goroutine gets the client -/
  pick : Nat := 0
  cmd : PCmd := .get

/-- One effect of goroutine `i`; none if it is blocked.  Unlocking an unlocked mutex is fatal in Go;
here it has no effect, and C65 implies that it does not happen. -/
def pexec (e : PEnv) (i : Nat) : (o : POp) → PWorld → Option (POp.Ret o × PWorld)
  | .lock, w => if w.locked then none else some ((), { w with locked := true })
  | .unlock, w => some ((), { w with locked := false })
  | .popIdle, w => some (w.idle.head?, { w with idle := w.idle.tail })
  | .countIdle, w => some (w.idle.length, w)
  | .pushIdle c, w => some ((), { w with idle := w.idle ++ [c] })
  | .listIdle, w => some (w.idle, w)
  | .clearIdle, w => some ((), { w with idle := [] })
  | .getNumber, w => some (w.number, w)
  | .addNumber d, w => some ((), { w with number := w.number + d })
  | .zeroNumber, w => some ((), { w with number := 0 })
  | .getSession, w => some (w.session, w)
  | .setSession s, w => some ((), { w with session := s })
  | .dial handshake, w =>
    match e.dial with
    | some err => some (.error err, w)
    | none =>
      some (.ok w.clients.length,
        if handshake then
          { w with clients := w.clients ++ [⟨some w.handshakes, true⟩], handshakes := w.handshakes + 1 }
        else { w with clients := w.clients ++ [⟨none, true⟩] })
  | .sessionOf c, w => some (w.clients[c]?.bind (·.session), w)
  | .setSessionOf c s, w => some ((), { w with clients := w.clients.modify c ({ · with session := s }) })
  | .test _, w => some (e.test, { w with failed := if e.test then w.failed else w.failed + 1 })
  | .closeConn c, w =>
    some (e.close, { w with clients := w.clients.modify c ({ · with isOpen := false }) })
  | .park, w =>
    some ((), if w.closed then { w with mail := w.mail ++ [(i, none)] }
      else { w with waiting := w.waiting ++ [i] })
  | .await, w =>
    match w.mail.find? (·.1 == i) with
    | none => none
    | some m => some (m.2, { w with mail := w.mail.erase m })
  | .send c, w =>
    if w.closed then some (.closed, w)
    else
      match w.waiting[e.pick]? with
      | some j => some (.sent, { w with waiting := w.waiting.eraseIdx e.pick, mail := w.mail ++ [(j, some c)] })
      | none => if w.waiting = [] then some (.noReceiver, w) else none
  | .closeChan, w =>
    if w.closed then some (false, w)
    else some (true, { w with closed := true, waiting := [],
                              mail := w.mail ++ w.waiting.map fun j => (j, none) })
  | .command careless, w =>
    match e.cmd with
    | .get => some (none, w)
    | .close k =>
      match w.held[k]? with
      | none => none
      | some c => some (some c, if careless then w else { w with held := w.held.eraseIdx k })
  | .lend r, w =>
    match r with
    | .error _ => some ((), w)
    | .ok c => some ((), { w with held := w.held ++ [c], lent := w.lent ++ [c] })

/-- A process that uses one pool. -/
abbrev PoolSys := Loops PSig PLoop PWorld

/-- One step. -/
abbrev PoolSys.step (cfg : PoolCfg) (s : PoolSys) (act : Nat × PEnv) : PoolSys :=
  Loops.step (poolBody cfg) pexec s act

/-- Run a schedule. -/
abbrev PoolSys.run (cfg : PoolCfg) (s : PoolSys) (acts : List (Nat × PEnv)) : PoolSys :=
  Loops.run (poolBody cfg) pexec s acts

/-- client_pool.go:24-37: a new pool. -/
def newPool : PWorld :=
  { locked := false, idle := [], number := 0, session := none, waiting := [], mail := [],
    closed := false, clients := [], handshakes := 0, failed := 0, held := [], lent := [] }

/-- A process with a new pool and the given goroutines. -/
def poolStart (threads : List PLoop) : PoolSys := ⟨newPool, threads.map .ret⟩

end Goe2ee
