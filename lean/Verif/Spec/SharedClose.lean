import Verif.Model.SharedClose

/-!
# Calls after `Close`, in terms of the log
-/

set_option autoImplicit false

namespace Goe2ee

/-- The goroutine of an event. -/
def HEvent.who : HEvent → Nat
  | .called i _ => i
  | .ended i _ _ _ => i

/-- The calls of goroutine `i` that have returned. -/
def endedCalls (i : Nat) (log : List HEvent) : List SCall :=
  log.filterMap fun ev => match ev with
    | .called _ _ => none
    | .ended j call _ _ => if j = i then some call else none

/-- Goroutine `i` called after a `Close` had returned without an error, and this is what the call returned. -/
def LateCall (log : List HEvent) (i : Nat) (call : SCall) (data : Bytes) (err : Option Err) : Prop :=
  ∃ x y z, log = x ++ .called i call :: (y ++ .ended i call data err :: z) ∧ (∀ ev ∈ y, ev.who ≠ i) ∧
    ∃ j d, .ended j .close d none ∈ x

/-- A call of `Read` by goroutine `i` is in progress. -/
def ReadOpen (log : List HEvent) (i : Nat) : Prop :=
  ∃ n x y, log = x ++ .called i (.read n) :: y ∧ ∀ ev ∈ y, ev.who ≠ i

/-- Goroutine `i` called after a `Close` had returned without an error during which no call of `Read` was in
progress, and this is what the call returned. -/
def LateCallCalm (log : List HEvent) (i : Nat) (call : SCall) (data : Bytes) (err : Option Err) : Prop :=
  ∃ before during after j d, log = before ++ .called j .close :: (during ++ .ended j .close d none :: after) ∧
    (∀ ev ∈ during, ev.who ≠ j) ∧ (∀ i, ¬ ReadOpen before i) ∧ (∀ i n, .called i (.read n) ∉ during) ∧
    ∃ x y z, after = x ++ .called i call :: (y ++ .ended i call data err :: z) ∧ ∀ ev ∈ y, ev.who ≠ i

/-- The state after `k` steps of an endless schedule. -/
def HSys.after (C : Crypto) (c : Client) (s : HSys) (sched : Nat → Nat × HEnv) (k : Nat) : HSys :=
  HSys.run C c s ((List.range k).map sched)

/-- The field of the client that an effect accesses, and whether it changes it. -/
def CloseOp.access : CloseOp → Option (String × Bool)
  | .shared .loadLast => some ("lastSentCounter", false)
  | .shared (.storeLast _) => some ("lastSentCounter", true)
  | .shared .bufLen => some ("buffer", false)
  | .shared (.bufRead _) => some ("buffer", true)
  | .shared (.bufWrite _) => some ("buffer", true)
  | .bufReset => some ("buffer", true)
  | _ => none

/-- What goroutine `i` is about to access. -/
def HSys.touches (s : HSys) (i : Nat) : Option (String × Bool) :=
  match s.threads[i]? with
  | some (.op o _) => o.access
  | _ => none

/-- A data race: two goroutines may access the same field now, and one of them changes it. -/
def HSys.Race (s : HSys) : Prop :=
  ∃ i j f w w', i ≠ j ∧ s.touches i = some (f, w) ∧ s.touches j = some (f, w') ∧ (w || w') = true

end Goe2ee
