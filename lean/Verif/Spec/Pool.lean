import Verif.Model.Pool

/-!
# Notions for the properties of the client pool
-/

set_option autoImplicit false

namespace Goe2ee

/-- A process with a new pool and `n` goroutines that call `Get` and close every client they get once,
after a schedule. -/
def careful (cfg : PoolCfg) (n : Nat) (acts : List (Nat × PEnv)) : PoolSys :=
  PoolSys.run cfg (poolStart (List.replicate n (.user false))) acts

/-- The number of connections that the pool opened and did not close. -/
def openConns (w : PWorld) : Nat := w.clients.countP (·.isOpen)

/-- The goroutine is not inside a call of the pool. -/
def outside : Prog PSig PLoop → Bool
  | .ret (.user _) => true
  | .ret .done => true
  | _ => false

/-- The goroutine has panicked. -/
def panicked : Prog PSig PLoop → Bool
  | .panic _ => true
  | _ => false

/-- The effect a goroutine is about to have. -/
def aboutTo : Prog PSig PLoop → Option POp
  | .op o _ => some o
  | _ => none

/-- Effects that read or write a field of the pool. -/
def POp.field : POp → Bool
  | .popIdle | .countIdle | .pushIdle _ | .listIdle | .clearIdle | .getNumber | .addNumber _
  | .zeroNumber | .getSession | .setSession _ => true
  | _ => false

/-- The choices of the environment for a goroutine that calls `Get` while nobody else does anything:
exactly the clients in `alive` pass the borrow test, and dialling has the given outcome. -/
def soloEnv (alive : Nat → Bool) (dial : Option Err) : Option (Prog PSig PLoop) → PEnv
  | some (.op (.test c) _) => { test := alive c, dial := dial }
  | _ => { dial := dial }

/-- Goroutine `i` runs alone for `k` steps. -/
def solo (cfg : PoolCfg) (alive : Nat → Bool) (dial : Option Err) (i : Nat) : Nat → PoolSys → PoolSys
  | 0, s => s
  | k + 1, s => solo cfg alive dial i k (s.step cfg (i, soloEnv alive dial s.threads[i]?))

end Goe2ee
