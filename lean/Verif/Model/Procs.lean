import Verif.Model.Prog

/-!
# Goroutines that share memory

Any number of goroutines, each a program over the effects `S`; the scheduler may switch between any
two effects.
-/

set_option autoImplicit false

namespace Goe2ee

/-- The goroutines of a process and the memory they share. -/
structure Procs (S : Sig) (W : Type) where
  world : W
  threads : List (Prog S Unit)

section
variable {S : Sig} {W E : Type}

/-- The scheduler lets goroutine `act.1` perform its next effect; `act.2` are the environment's
choices. -/
def Procs.step (exec : E → Nat → Interp S W) (s : Procs S W) (act : Nat × E) : Procs S W :=
  match s.threads[act.1]? with
  | some (.op o k) =>
    let r := exec act.2 act.1 o s.world
    { world := r.2, threads := s.threads.set act.1 (k r.1) }
  | _ => s

/-- Run a schedule. -/
def Procs.run (exec : E → Nat → Interp S W) (s : Procs S W) (acts : List (Nat × E)) : Procs S W :=
  acts.foldl (Procs.step exec) s

end

end Goe2ee
