import Verif.Spec.Counter

/-!
# The order in which a process sends its requests
-/

set_option autoImplicit false

namespace Goe2ee

/-- The message counter of a process request: octets 18 to 25, most significant first. -/
def counterIn (request : Bytes) : Nat :=
  ((request.drop 18).take 8).foldl (fun n b => n * 256 + b.toNat) 0

section
variable {C : Crypto}

/-- The request that is written to a connection in this step, if any, with the goroutine that writes it. -/
def CSys.sends (s : CSys C) (act : Nat × CEnv C) : List (Nat × Bytes) :=
  match s.threads[act.1]? with
  | none => []
  | some t =>
    match t.prog with
    | .op (.write bs) _ => [(act.1, bs)]
    | _ => []

/-- The requests of all goroutines, in the order in which they are written to their connections. -/
def CSys.sent (s : CSys C) : List (Nat × CEnv C) → List (Nat × Bytes)
  | [] => []
  | act :: acts => s.sends act ++ CSys.sent (s.step act) acts

end

/-- The two goroutines use one session. -/
def ShareSession (workers : List Worker) (i j : Nat) : Prop :=
  ∃ w w', workers[i]? = some w ∧ workers[j]? = some w' ∧ w.session.sendCounter = w'.session.sendCounter

end Goe2ee
