import Verif.Model.Basic

/-!
# Creating, starting and closing a server

`NewServer` with its options, `StartTCP`, `StartUDP`, `Server.Close`, `NewInMemoryManager` with its
options, and the goroutines these start, as a transition system over program points.

Simplifications: what is read, written and stored is the subject of `Model/Server.lean`; here a request
either is served or ends the connection.  A handler called for a request returns.  Closing a socket
succeeds.  `time.Duration` is an integer number of nanoseconds; overflow of a deadline is not modelled.
-/

set_option autoImplicit false

namespace Goe2ee

/-! ## Options -/

/-- secret/secret.go:91-111: the options of `NewInMemoryManager`. -/
inductive ManagerOption where
  | gcTicker (d : Int)
  | ttl (d : Int)

/-- An in-memory session manager (secret/secret.go:119-123, and the options its collector uses). -/
structure Mgr where
  gcTicker : Int
  ttl : Int
  closed : Bool
  deriving DecidableEq

def minute : Int := 60000000000

/-- secret/secret.go:126-136, without the goroutine: defaults, then the options in order. -/
def newInMemoryManager (opts : List ManagerOption) : Mgr :=
  opts.foldl (fun m o => match o with
    | .gcTicker d => { m with gcTicker := d }
    | .ttl d => { m with ttl := d }) { gcTicker := minute, ttl := 15 * minute, closed := false }

/-- What the application passes as secret manager. -/
inductive SecretManager where
  /-- an in-memory manager it created -/
  | inMemory (opts : List ManagerOption)
  /-- another implementation (which may have a `Close` method; what it does is up to it) -/
  | custom
  deriving Inhabited

/-- server.go:44-89: the option functions applied to their arguments; `none` is `nil`. -/
inductive ServerOption where
  | logger (present : Bool)
  | keyManager (present : Bool)
  | secretManager (m : Option SecretManager)
  | readTimeout (d : Int)
  | writeTimeout (d : Int)

/-- server.go:36-42.  `keyManager = false` means `nil`. -/
structure ServerOptions where
  logger : Bool
  keyManager : Bool
  secretManager : Option SecretManager
  readTimeout : Int
  writeTimeout : Int

/-- Calling an option function panics for a `nil` manager (server.go:56-58, 67-69). -/
def ServerOption.panics : ServerOption → Bool
  | .keyManager false => true
  | .secretManager none => true
  | _ => false

/-- server.go:47-49, 59-61, 70-72, 78-80, 86-88. -/
def ServerOption.apply (o : ServerOption) (x : ServerOptions) : ServerOptions :=
  match o with
  | .logger b => { x with logger := b }
  | .keyManager b => { x with keyManager := b }
  | .secretManager m => { x with secretManager := m }
  | .readTimeout d => { x with readTimeout := d }
  | .writeTimeout d => { x with writeTimeout := d }

/-- server.go:106-111: the defaults; `secretManager = none` stands for the in-memory manager created there. -/
def defaultOptions : ServerOptions :=
  { logger := true, keyManager := false, secretManager := none,
    readTimeout := 60000000000, writeTimeout := 5000000000 }

/-- Which session manager a server uses. -/
inductive Store where
  /-- the in-memory manager with this number -/
  | inMemory (m : Nat)
  | custom
  deriving DecidableEq

/-- server.go:92-101: what the goroutines need of a `Server`. -/
structure LConfig where
  logger : Bool
  store : Store
  readTimeout : Int
  writeTimeout : Int

/-! ## State -/

/-- Calls of the API made by the application. -/
inductive Call where
  | startTCP
  | startUDP
  | close
  deriving DecidableEq

/-- Program points of the goroutines. -/
inductive Go where
  /-- StartTCP's goroutine at the `select` (server.go:154-158) -/
  | acceptTop (l : Nat)
  /-- in `listen.Accept` (server.go:160) -/
  | acceptWait (l : Nat)
  /-- with a connection (server.go:166-167) -/
  | acceptGot (l : Nat)
  /-- in the deferred `teardown` (server.go:144-148) -/
  | acceptGone (l : Nat)
  /-- `handleConnection` at the `select` (server.go:188-192) -/
  | connTop
  /-- waiting for a request (server.go:206) -/
  | connRead
  /-- serving a request (server.go:225) -/
  | connServe
  /-- in the deferred function (server.go:175-183) -/
  | connGone
  /-- the packet loop at the `select` (server.go:267-271) -/
  | packetTop (l : Nat)
  /-- in `udpConn.Receive` (server.go:281) -/
  | packetWait (l : Nat)
  /-- with a datagram (server.go:286) -/
  | packetGot (l : Nat)
  /-- in the deferred `teardown` (server.go:243-247) -/
  | packetGone (l : Nat)
  /-- serving a datagram, up to sending the response (server.go:286-333) -/
  | datagram (l : Nat)
  /-- the collector's goroutine before `time.NewTicker` (secret/secret.go:139) -/
  | gcStart (m : Nat)
  /-- at its `select` (secret/secret.go:143-146) -/
  | gcWait (m : Nat)
  /-- visiting the sessions (secret/secret.go:147-153) -/
  | gcVisit (m : Nat)
  /-- a goroutine of the application that will make these calls -/
  | user (calls : List Call)
  /-- in `Server.Close` at `s.wg.Wait()` (server.go:340), then the remaining calls -/
  | closeWait (calls : List Call)
  /-- ended -/
  | ended
  deriving DecidableEq

/-- What the goroutines share. -/
structure LWorld where
  /-- `s.quit` is closed -/
  quit : Bool
  /-- the counter of `s.wg` (simplified, see `Verif.Model.WaitGroup`) -/
  wg : Nat
  /-- the in-memory managers -/
  mgrs : List Mgr
  /-- the listening sockets: is it open? -/
  socks : List Bool
  /-- a call of `Server.Close` returned -/
  returned : Bool
  /-- responses to datagrams that could not be sent because the socket was closed -/
  lost : Nat
  /-- a panic was not recovered, so the process ended -/
  crashed : Bool
  deriving DecidableEq

structure LState where
  world : LWorld
  gos : List Go

/-- Log a line.  With a `nil` logger this panics; where the panic is recovered, the recovering function
logs it and so panics again (server.go:146, 162, 176-178, 245, 259-261, 288-290). -/
def LWorld.log (cfg : LConfig) (w : LWorld) : LWorld := { w with crashed := w.crashed || !cfg.logger }

/-- What happens outside, or the passing of time for the collector. -/
inductive Ext where
  /-- a client connects, or a datagram arrives -/
  | arrival
  /-- `Accept` or `Receive` fails -/
  | failure
  /-- a request arrives on a connection -/
  | request
  /-- the client closes its connection or sends something unreadable -/
  | hangUp
  /-- the collector's ticker fires -/
  | tick
  deriving DecidableEq

/-! ## Steps -/

/-- `GStep cfg e g w g' w' new`: goroutine `g` goes to program point `g'`, changing the shared state from
`w` to `w'` and starting the goroutines `new`.  `e` is the event outside that this step needs; `none` if
it needs none. -/
inductive GStep (cfg : LConfig) : Option Ext → Go → LWorld → Go → LWorld → List Go → Prop where
  /-- server.go:155-156 -/
  | acceptQuit {l w} : w.quit = true → GStep cfg none (.acceptTop l) w (.acceptGone l) w []
  /-- server.go:157 -/
  | acceptGo {l w} : w.quit = false → GStep cfg none (.acceptTop l) w (.acceptWait l) w []
  /-- server.go:160 -/
  | accepted {l w} : GStep cfg (some .arrival) (.acceptWait l) w (.acceptGot l) w []
  /-- server.go:161-164 -/
  | acceptFails {l w} : GStep cfg (some .failure) (.acceptWait l) w (.acceptTop l) (w.log cfg) []
  /-- server.go:166-167 -/
  | acceptSpawn {l w} : GStep cfg none (.acceptGot l) w (.acceptTop l) { w with wg := w.wg + 1 } [.connTop]
  /-- server.go:145 -/
  | acceptClose {l w} :
      GStep cfg none (.acceptGone l) w .ended { w with socks := w.socks.set l false } []
  /-- server.go:189-190 -/
  | connQuit {w} : w.quit = true → GStep cfg none .connTop w .connGone w []
  /-- server.go:191-204 -/
  | connGo {w} : w.quit = false → GStep cfg none .connTop w .connRead w []
  /-- server.go:206 -/
  | connRequest {w} : GStep cfg (some .request) .connRead w .connServe w []
  /-- server.go:207-223 -/
  | connHangUp {w} : GStep cfg (some .hangUp) .connRead w .connGone (w.log cfg) []
  /-- server.go:207-216, after the read deadline (server.go:195-199) -/
  | connTimeout {w} : cfg.readTimeout > 0 → GStep cfg none .connRead w .connGone (w.log cfg) []
  /-- server.go:225, 233 -/
  | connServed {w} : GStep cfg none .connServe w .connTop w []
  /-- server.go:225-232 -/
  | connBroken {w} : GStep cfg none .connServe w .connGone (w.log cfg) []
  /-- server.go:179-182 -/
  | connEnd {w} : GStep cfg none .connGone w .ended { w with wg := w.wg - 1 } []
  /-- server.go:268-269 -/
  | packetQuit {l w} : w.quit = true → GStep cfg none (.packetTop l) w (.packetGone l) w []
  /-- server.go:270-280 -/
  | packetGo {l w} : w.quit = false → GStep cfg none (.packetTop l) w (.packetWait l) w []
  /-- server.go:281 -/
  | received {l w} : GStep cfg (some .arrival) (.packetWait l) w (.packetGot l) w []
  /-- server.go:281-284 -/
  | receiveFails {l w} : GStep cfg (some .failure) (.packetWait l) w (.packetTop l) (w.log cfg) []
  /-- server.go:281-284, after the read deadline (server.go:273-278) -/
  | receiveTimeout {l w} : cfg.readTimeout > 0 →
      GStep cfg none (.packetWait l) w (.packetTop l) (w.log cfg) []
  /-- server.go:286 -/
  | packetSpawn {l w} : GStep cfg none (.packetGot l) w (.packetTop l) w [.datagram l]
  /-- server.go:244 -/
  | packetClose {l w} :
      GStep cfg none (.packetGone l) w .ended { w with socks := w.socks.set l false } []
  /-- server.go:293-297: the response (if any) is sent -/
  | datagramSent {l w} : GStep cfg none (.datagram l) w .ended w []
  /-- server.go:293-297: there is a response, and the socket was closed (server.go:244) -/
  | datagramLost {l w} : w.socks[l]? = some false →
      GStep cfg none (.datagram l) w .ended ({ w with lost := w.lost + 1 }.log cfg) []
  /-- secret/secret.go:139: `time.NewTicker` panics unless the duration is positive -/
  | gcPanics {m w x} : w.mgrs[m]? = some x → ¬ x.gcTicker > 0 →
      GStep cfg none (.gcStart m) w .ended { w with crashed := true } []
  | gcGo {m w x} : w.mgrs[m]? = some x → x.gcTicker > 0 → GStep cfg none (.gcStart m) w (.gcWait m) w []
  /-- secret/secret.go:144-145 -/
  | gcQuit {m w x} : w.mgrs[m]? = some x → x.closed = true → GStep cfg none (.gcWait m) w .ended w []
  /-- secret/secret.go:146 -/
  | gcTick {m w} : GStep cfg (some .tick) (.gcWait m) w (.gcVisit m) w []
  /-- secret/secret.go:147-153 -/
  | gcVisited {m w} : GStep cfg none (.gcVisit m) w (.gcWait m) w []
  /-- server.go:140-143, 241-242: the address is not available -/
  | startFails {c cs w} : c ≠ .close → GStep cfg none (.user (c :: cs)) w (.user cs) w []
  /-- server.go:140-171 -/
  | startTCP {cs w} : GStep cfg none (.user (.startTCP :: cs)) w (.user cs)
      { w with socks := w.socks ++ [true] } [.acceptTop w.socks.length]
  /-- server.go:239-254 -/
  | startUDP {cs w} : GStep cfg none (.user (.startUDP :: cs)) w (.user cs)
      { w with socks := w.socks ++ [true] } [.packetTop w.socks.length]
  /-- server.go:339 -/
  | close {cs w} : w.quit = false →
      GStep cfg none (.user (.close :: cs)) w (.closeWait cs) { w with quit := true } []
  /-- server.go:339: `close` of a closed channel panics -/
  | closeTwice {cs w} : w.quit = true →
      GStep cfg none (.user (.close :: cs)) w .ended { w with crashed := true } []
  /-- server.go:340-346, secret/secret.go:184-189 -/
  | closed {cs w} : w.wg = 0 → GStep cfg none (.closeWait cs) w (.user cs)
      { w with
        returned := true
        mgrs := match cfg.store with
          | .inMemory m => w.mgrs.modify m fun x => { x with closed := true }
          | .custom => w.mgrs } []

/-- One step of the process: any goroutine, unless the process has ended. -/
inductive LStep (cfg : LConfig) : Option Ext → LState → LState → Prop where
  | go {e : Option Ext} {s : LState} {i : Nat} {g g' : Go} {w' : LWorld} {new : List Go} :
      s.world.crashed = false → s.gos[i]? = some g → GStep cfg e g s.world g' w' new →
      LStep cfg e s { world := w', gos := s.gos.set i g' ++ new }

/-- The goroutine of a new in-memory manager (secret/secret.go:137). -/
def collector (m : Nat) (x : Mgr) : List Go := if x.ttl > 0 then [.gcStart m] else []

/-- `NewServer` (server.go:105-135), called with the given options, and goroutines of the application
that will use the server.  The default manager, number 0, is created before the options are looked at
(server.go:108); a manager that the application passes, number 1, was created by it before.  `keyOk`: is a
key generated without error (server.go:119-125)?  `none`: a panic in the caller's goroutine. -/
def newServer (opts : List ServerOption) (keyOk : Bool) (users : List (List Call)) :
    Option (LConfig × LState) :=
  if opts.any ServerOption.panics then none
  else
    let o := opts.foldl (fun x o => o.apply x) defaultOptions
    if !o.keyManager && !keyOk then none
    else
      let mgr := newInMemoryManager []
      let world : LWorld :=
        { quit := false, wg := 0, mgrs := [mgr], socks := [], returned := false, lost := 0, crashed := false }
      match o.secretManager with
      | some (.inMemory mopts) =>
        let own := newInMemoryManager mopts
        some ({ logger := o.logger, store := .inMemory 1, readTimeout := o.readTimeout,
                writeTimeout := o.writeTimeout },
              { world := { world with mgrs := [mgr, own] },
                gos := collector 0 mgr ++ collector 1 own ++ users.map .user })
      | some .custom =>
        some ({ logger := o.logger, store := .custom, readTimeout := o.readTimeout,
                writeTimeout := o.writeTimeout },
              { world, gos := collector 0 mgr ++ users.map .user })
      | none =>
        some ({ logger := o.logger, store := .inMemory 0, readTimeout := o.readTimeout,
                writeTimeout := o.writeTimeout },
              { world, gos := collector 0 mgr ++ users.map .user })

/-- Any number of steps. -/
inductive LRuns (cfg : LConfig) : LState → LState → Prop where
  | refl {s} : LRuns cfg s s
  | step {s s' s'' e} : LRuns cfg s s' → LStep cfg e s' s'' → LRuns cfg s s''

/-- Nothing happens any more unless something happens outside. -/
def LState.AtRest (cfg : LConfig) (s : LState) : Prop := ∀ s', ¬ LStep cfg none s s'

end Goe2ee
