import Verif.Model.ServerExec

/-!
# The in-memory session manager on its own

Calls of `Store` and `Load` and visits of the collector, one after the other or interleaved.
-/

set_option autoImplicit false

namespace Goe2ee

/-- A call of the manager, or a visit of the collector to one key. -/
inductive MCall where
  | store (id : Bytes) (session : Ref)
  | load (id : Bytes)
  | visit (id : Bytes)
  deriving DecidableEq, Repr

def MCall.key : MCall → Bytes
  | .store id _ => id
  | .load id => id
  | .visit id => id

section
variable (C : Crypto)

/-- The code of a call; only `Load` returns something of interest. -/
def MCall.prog (ttl : Nat) : MCall → SProg C (Option Ref)
  | .store id session => (inMemoryStore id session).bind fun _ => .ret none
  | .load id => inMemoryLoad id
  | .visit id => (gcVisitKey ttl id).bind fun _ => .ret none

/-- The environment of a manager: only the clock matters. -/
def clock (tick : Nat) : Answer C :=
  { genKey := .error .eof, sign := fun _ _ => .error .eof, fetchKey := .error .eof, handle := .error .eof,
    write := (0, none), tick, key := [], choose := 0, peer := .error .eof }

/-! ## One call after the other -/

/-- A call at time `t`: what it returns, and the session table afterwards. -/
def callAt (ttl : Nat) (w : World) (c : MCall × Nat) : Res (Option Ref) × World :=
  let r := (c.1.prog C ttl).run (exec C 0 (clock C 0)) (Conn.none, { w with now := c.2 })
  (r.1, r.2.2)

/-- The session table after a sequence of calls. -/
def afterCalls (ttl : Nat) (w : World) (calls : List (MCall × Nat)) : World :=
  calls.foldl (fun w c => (callAt C ttl w c).2) w

/-! ## Interleaved calls -/

/-- A goroutine making one call. -/
structure MThread where
  call : MCall
  started : Bool
  prog : SProg C (Option Ref)

/-- Goroutines making one call each. -/
structure MSys where
  world : World
  threads : List (MThread C)

variable {C}

/-- What the call returned, once it has. -/
def MThread.result (t : MThread C) : Option (Option Ref) :=
  match t.prog with
  | .ret x => some x
  | _ => none

/-- An empty session table. -/
def World.empty : World :=
  { heap := [], table := fun _ => none, now := 0, quit := false, wg := 0, spawned := [], log := [] }

def MSys.start (ttl : Nat) (calls : List MCall) : MSys C :=
  { world := .empty, threads := calls.map fun call => { call, started := false, prog := call.prog C ttl } }

/-- Goroutine `act.1` performs its next effect; if it reads the clock, `act.2` has passed. -/
def MSys.step (s : MSys C) (act : Nat × Nat) : MSys C :=
  match s.threads[act.1]? with
  | none => s
  | some t =>
    match t.prog with
    | .op o k =>
      let r := exec C 0 (clock C act.2) o (Conn.none, s.world)
      { world := r.2.2, threads := s.threads.set act.1 { t with started := true, prog := k r.1 } }
    | _ => s

def MSys.run (s : MSys C) (acts : List (Nat × Nat)) : MSys C := acts.foldl MSys.step s

end

end Goe2ee
