import Verif.Model.Basic

/-!
# One in-memory session manager used by several servers

`ServerWithSecretManager` (server.go:64-72) lets the application give one manager to several servers.
`Server.Close` closes the manager of the server (server.go:341-345), whoever else uses it.

Modelled: the table of the manager with the time of the last access of each session, the clock, the ticker
and the goroutine that collects old sessions (secret/secret.go:137-157), `Store` (162-168), `Load` (171-180)
and `Close` (184-189), called by any of the servers.

Simplifications: a call of `Store` or `Load`, and one visit of the collector to the whole table, are single
steps (what happens in between is the subject of C35); a session is a number.
-/

set_option autoImplicit false

namespace Goe2ee

/-- Where the goroutine of the manager is. -/
inductive Collector where
  /-- no such goroutine (secret/secret.go:137), or it has returned -/
  | none
  /-- secret/secret.go:142-146; the ticker fires at this time -/
  | waits (next : Nat)
  deriving DecidableEq

structure SharedMgr where
  now : Nat
  /-- secret/secret.go:112-115, 120: the session, and when it was last accessed -/
  table : Bytes → Option (Nat × Nat)
  /-- secret/secret.go:122: `once` was used -/
  once : Bool
  /-- secret/secret.go:121: `quit` is closed -/
  quit : Bool
  collector : Collector
  /-- somebody closed a closed channel -/
  panicked : Bool

/-- What happens, in the order in which it happens. -/
inductive MgrAct where
  /-- time passes -/
  | pass (d : Nat)
  /-- a server stores a session after a setup -/
  | store (server : Nat) (id : Bytes) (session : Nat)
  /-- a server looks for the session of a message -/
  | load (server : Nat) (id : Bytes)
  /-- `Close` of a server -/
  | close (server : Nat)
  /-- the collector receives from the ticker and visits the table -/
  | tick
  /-- the collector sees that `quit` is closed -/
  | leave

/-- `NewInMemoryManager` (secret/secret.go:126-159) with positive `gcTicker`. -/
def SharedMgr.new (ttl gc start : Nat) : SharedMgr :=
  { now := start, table := fun _ => none, once := false, quit := false,
    collector := if ttl > 0 then .waits (start + gc) else .none, panicked := false }

/-- secret/secret.go:147-153 -/
def visitTable (ttl now : Nat) (table : Bytes → Option (Nat × Nat)) : Bytes → Option (Nat × Nat) := fun id =>
  match table id with
  | some (r, t) => if now - t > ttl then none else some (r, t)
  | none => none

/-- `close(m.quit)` -/
def SharedMgr.closeQuit (s : SharedMgr) : SharedMgr :=
  if s.quit then { s with panicked := true } else { s with quit := true }

/-- One event.  An event that cannot happen changes nothing. -/
def SharedMgr.step (ttl gc : Nat) (s : SharedMgr) : MgrAct → SharedMgr
  | .pass d => { s with now := s.now + d }
  -- secret/secret.go:162-168
  | .store _ id session =>
    { s with table := fun k => if k = id then some (session, s.now) else s.table k }
  -- secret/secret.go:171-180
  | .load _ id =>
    match s.table id with
    | none => s
    | some (r, _) => { s with table := fun k => if k = id then some (r, s.now) else s.table k }
  -- server.go:341-345, secret/secret.go:184-189
  | .close _ => if s.once then s else { s.closeQuit with once := true }
  -- secret/secret.go:146-153; the ticker fires again one interval later
  | .tick =>
    match s.collector with
    | .waits next =>
      if next ≤ s.now then { s with table := visitTable ttl s.now s.table, collector := .waits (next + gc) }
      else s
    | .none => s
  -- secret/secret.go:144-145
  | .leave => if s.quit then { s with collector := .none } else s

def SharedMgr.run (ttl gc : Nat) (s : SharedMgr) (acts : List MgrAct) : SharedMgr :=
  acts.foldl (SharedMgr.step ttl gc) s

/-- What `Load` returns. -/
def SharedMgr.found (s : SharedMgr) (id : Bytes) : Option Nat := (s.table id).map Prod.fst

end Goe2ee
