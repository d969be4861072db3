import Verif.Model.Loops

/-!
# `sync.WaitGroup` step by step, and how the server uses it

`Verif.Model.Server` and `Verif.Model.Lifecycle` treat `s.wg.Add(1)`, `s.wg.Done()` and `s.wg.Wait()` as single steps.  Here they
are the programs of Go's standard library (sync/waitgroup.go of Go 1.24), whose single steps are the atomic operations.

Simplifications:
* the two halves of the 64-bit state are integers without bounds;
* the loop of a connection is reduced to looking at the quit channel and to whether it goes on;
* goroutines that serve a connection exist from the beginning and wait until they are started;
* datagrams, the session manager and its `Close` are left out: they do not use the wait group.
-/

set_option autoImplicit false

namespace Goe2ee

/-- Effects of the goroutines of a server that touch its wait group, and what decides about them. -/
inductive WOp where
  /-- `select { case <-s.quit: … default: }` -/
  | quitClosed
  /-- `close(s.quit)` -/
  | closeQuit
  /-- `listen.Accept()`: was there no error?  (Waiting means not being scheduled.) -/
  | accept
  /-- the rest of one round of the loop of `handleConnection`: does it go on? -/
  | serve
  /-- `go s.handleConnection(conn, logger)` -/
  | spawn
  /-- a goroutine for a connection begins -/
  | start
  /-- `wg.state.Add(uint64(delta) << 32)` -/
  | add (delta : Int)
  /-- `wg.state.Load()` -/
  | load
  /-- `wg.state.CompareAndSwap(old, old + 1)` -/
  | addWaiter (old : Int × Nat)
  /-- `wg.state.Store(0)` -/
  | reset
  /-- `runtime_Semrelease(&wg.sema, …)`, `runtime_SemacquireWaitGroup(&wg.sema)` -/
  | release
  | acquire
  deriving DecidableEq, Repr

/-- Result types of the effects. -/
def WOp.Ret : WOp → Type
  | .quitClosed => Bool
  | .accept => Bool
  | .serve => Bool
  | .add _ => Int × Nat
  | .load => Int × Nat
  | .addWaiter _ => Bool
  | _ => Unit

abbrev WSig : Sig := ⟨WOp, WOp.Ret⟩

/-- Where a goroutine is in its loop. -/
inductive WLoop where
  /-- server.go:153 -/
  | accepting
  /-- a goroutine that is not started yet -/
  | sleeping
  /-- server.go:187 -/
  | serving
  /-- a goroutine that will call `Close` -/
  | open
  /-- the loop of `Wait` -/
  | waiting
  /-- `Close` has waited -/
  | closed
  | ended
  deriving DecidableEq, Repr

abbrev WProg := Prog WSig WLoop

/-- Releasing as many waiters. -/
def releaseAll (next : WLoop) : Nat → WProg
  | 0 => .ret next
  | w + 1 => .op .release fun _ => releaseAll next w

/-- `wg.Add(delta)` (Go sync/waitgroup.go, `WaitGroup.Add`; `Done` is `Add(-1)`), then `more`, or `next` if waiters were released. -/
def wgAddThen (delta : Int) (more : WProg) (next : WLoop) : WProg :=
  .op (.add delta) fun (state : Int × Nat) =>
  if state.1 < 0 then .panic "sync: negative WaitGroup counter"
  else if state.2 ≠ 0 ∧ 0 < delta ∧ state.1 = delta then .panic "sync: WaitGroup misuse: Add called concurrently with Wait"
  else if 0 < state.1 ∨ state.2 = 0 then more
  else
  .op .load fun (now : Int × Nat) =>
  if now ≠ state then .panic "sync: WaitGroup misuse: Add called concurrently with Wait"
  else
  .op .reset fun _ => releaseAll next state.2

/-- One round of each loop.
* `accepting`: server.go:153-168;
* `serving`: server.go:187-233 and the deferred function, server.go:175-183;
* `open`: server.go:338-340;
* `waiting`: `wg.Wait()` (Go sync/waitgroup.go, `WaitGroup.Wait`). -/
def wgBody : WLoop → WProg
  | .accepting =>
    .op .quitClosed fun (closed : Bool) =>
    if closed then .ret .ended
    else
    .op .accept fun (ok : Bool) =>
    if !ok then .ret .accepting
    else wgAddThen 1 (.op .spawn fun _ => .ret .accepting) .accepting
  | .sleeping => .op .start fun _ => .ret .serving
  | .serving =>
    .op .quitClosed fun (closed : Bool) =>
    if closed then wgAddThen (-1) (.ret .ended) .ended
    else
    .op .serve fun (more : Bool) =>
    if more then .ret .serving else wgAddThen (-1) (.ret .ended) .ended
  | .open => .op .closeQuit fun _ => .ret .waiting
  | .waiting =>
    .op .load fun (state : Int × Nat) =>
    if state.1 = 0 then .ret .closed
    else
    .op (.addWaiter state) fun (ok : Bool) =>
    if !ok then .ret .waiting
    else
    .op .acquire fun _ =>
    .op .load fun (now : Int × Nat) =>
    if now ≠ (0, 0) then .panic "sync: WaitGroup is reused before previous Wait has returned"
    else .ret .closed
  | .closed => .ret .closed
  | .ended => .ret .ended

/-- What the goroutines share. -/
structure WWorld where
  quit : Bool := false
  /-- `wg.state`: the counter and the number of waiters -/
  state : Int × Nat := (0, 0)
  sema : Nat := 0
  /-- goroutines for connections that are started but have not begun -/
  pending : Nat := 0
  deriving DecidableEq, Repr

/-- One effect; `choice` decides about `Accept` and about whether a connection goes on. -/
def wgExec (choice : Bool) (_ : Nat) : (o : WOp) → WWorld → Option (o.Ret × WWorld)
  | .quitClosed, w => some (w.quit, w)
  | .closeQuit, w => some ((), { w with quit := true })
  | .accept, w => some (choice, w)
  | .serve, w => some (choice, w)
  | .spawn, w => some ((), { w with pending := w.pending + 1 })
  | .start, w => if w.pending = 0 then none else some ((), { w with pending := w.pending - 1 })
  | .add delta, w =>
    let state := (w.state.1 + delta, w.state.2)
    some (state, { w with state })
  | .load, w => some (w.state, w)
  | .addWaiter old, w =>
    if w.state = old then some (true, { w with state := (old.1, old.2 + 1) }) else some (false, w)
  | .reset, w => some ((), { w with state := (0, 0) })
  | .release, w => some ((), { w with sema := w.sema + 1 })
  | .acquire, w => if w.sema = 0 then none else some ((), { w with sema := w.sema - 1 })

/-- The goroutines of a server. -/
abbrev WSys := Loops WSig WLoop WWorld

/-- A server that listens with `StartTCP` so many times; at most `connections` connections; one call of `Close` to
come. -/
def WSys.start (listeners connections : Nat) : WSys :=
  { world := {}
    threads := List.replicate listeners (.ret .accepting) ++ List.replicate connections (.ret .sleeping) ++ [.ret .open] }

/-- Run a schedule. -/
def WSys.run (s : WSys) (acts : List (Nat × Bool)) : WSys := Loops.run wgBody wgExec s acts

end Goe2ee
