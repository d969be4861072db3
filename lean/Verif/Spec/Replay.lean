import Verif.Model.Basic

/-!
# What a replay filter with a window of 64 must do
-/

set_option autoImplicit false

namespace Goe2ee

/-- The largest of a list of counters (0 for none). -/
def largest : List Nat → Nat
  | [] => 0
  | c :: cs => max c (largest cs)

/-- A counter is fresh with respect to the counters accepted so far: it is not zero, it was not
accepted before, and it is less than 64 behind the largest accepted one. -/
def Fresh (accepted : List Nat) (c : Nat) : Prop :=
  c ≠ 0 ∧ c ∉ accepted ∧ largest accepted < c + 64

/-- The same with the window of the Internet-Draft (docs/draft-justo-goe2ee-latest.md:708-713): "the
highest counter seen and a bitmap of the 64 counter values immediately below it". -/
def DraftFresh (accepted : List Nat) (c : Nat) : Prop :=
  c ≠ 0 ∧ c ∉ accepted ∧ largest accepted ≤ c + 64

/-- The counters that a filter accepts, given its answers, latest first. -/
def acceptedBy : List Nat → List Bool → List Nat
  | c :: cs, a :: as => acceptedBy cs as ++ if a then [c] else []
  | _, _ => []

instance (accepted : List Nat) (c : Nat) : Decidable (Fresh accepted c) := by
  unfold Fresh; infer_instance

instance (accepted : List Nat) (c : Nat) : Decidable (DraftFresh accepted c) := by
  unfold DraftFresh; infer_instance

/-- The answers of an ideal filter to a sequence of counters, remembering every accepted one. -/
def idealAnswers : List Nat → List Nat → List Bool
  | _, [] => []
  | accepted, c :: cs =>
    if Fresh accepted c then true :: idealAnswers (c :: accepted) cs
    else false :: idealAnswers accepted cs

/-- The answers of a filter with the window of the Internet-Draft. -/
def draftAnswers : List Nat → List Nat → List Bool
  | _, [] => []
  | accepted, c :: cs =>
    if DraftFresh accepted c then true :: draftAnswers (c :: accepted) cs
    else false :: draftAnswers accepted cs

end Goe2ee
