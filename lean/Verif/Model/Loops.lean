import Verif.Model.Prog

/-!
# Goroutines that may loop for ever and may block

Like `Verif.Model.Procs`, with two additions: a program may end in a loop label, and then continues
with the body of that loop, so that unbounded loops can be described; and an effect may be impossible
at the moment (a locked mutex, an empty channel), and then its goroutine does not move.
-/

set_option autoImplicit false

namespace Goe2ee

/-- The goroutines of a process and the memory they share. -/
structure Loops (S : Sig) (L W : Type) where
  world : W
  threads : List (Prog S L)

section
variable {S : Sig} {L W E : Type}

/-- The scheduler lets goroutine `act.1` perform its next effect (if it is not blocked), or enter the
next round of its loop; `act.2` are the environment's choices. -/
def Loops.step (body : L → Prog S L) (exec : E → Nat → (o : S.Op) → W → Option (S.Ret o × W))
    (s : Loops S L W) (act : Nat × E) : Loops S L W :=
  match s.threads[act.1]? with
  | some (.ret l) => { s with threads := s.threads.set act.1 (body l) }
  | some (.op o k) =>
    match exec act.2 act.1 o s.world with
    | some r => { world := r.2, threads := s.threads.set act.1 (k r.1) }
    | none => s
  | _ => s

/-- Run a schedule. -/
def Loops.run (body : L → Prog S L) (exec : E → Nat → (o : S.Op) → W → Option (S.Ret o × W))
    (s : Loops S L W) (acts : List (Nat × E)) : Loops S L W :=
  acts.foldl (Loops.step body exec) s

end

end Goe2ee
