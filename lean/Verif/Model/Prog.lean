import Verif.Model.Basic

/-!
# Programs with explicit effects

Go code is modelled as a tree: either it has returned, or it has panicked, or it performs an
effect and continues depending on the effect's result.  The tree says nothing about what the
effects do: interpreters (sequential, interleaved) give them meaning.
-/

namespace Goe2ee

/-- An effect signature: operations and the type of their results. -/
structure Sig where
  Op : Type
  Ret : Op → Type

/-- A Go computation over the effects `S`. -/
inductive Prog (S : Sig) (α : Type) : Type where
  | ret (a : α)
  | panic (msg : String)
  | op (o : S.Op) (k : S.Ret o → Prog S α)

namespace Prog

variable {S : Sig} {α β γ : Type}

/-- Sequencing. -/
def bind : Prog S α → (α → Prog S β) → Prog S β
  | .ret a, f => f a
  | .panic m, _ => .panic m
  | .op o k, f => .op o (fun r => (k r).bind f)

instance : Monad (Prog S) where
  pure := .ret
  bind := Prog.bind

/-- Perform one effect. -/
def perform (o : S.Op) : Prog S (S.Ret o) := .op o .ret

@[simp] theorem pure_eq (a : α) : (pure a : Prog S α) = .ret a := rfl
@[simp] theorem bind_eq (p : Prog S α) (f : α → Prog S β) : (p >>= f) = p.bind f := rfl
@[simp] theorem ret_bind (a : α) (f : α → Prog S β) : (Prog.ret a).bind f = f a := rfl
@[simp] theorem panic_bind (m : String) (f : α → Prog S β) :
    (Prog.panic m : Prog S α).bind f = .panic m := rfl
@[simp] theorem op_bind (o : S.Op) (k : S.Ret o → Prog S α) (f : α → Prog S β) :
    (Prog.op o k).bind f = .op o (fun r => (k r).bind f) := rfl

theorem bind_assoc (p : Prog S α) (f : α → Prog S β) (g : β → Prog S γ) :
    (p.bind f).bind g = p.bind (fun a => (f a).bind g) := by
  induction p with
  | ret a => rfl
  | panic m => rfl
  | op o k ih => simp [ih]

theorem bind_ret (p : Prog S α) : p.bind .ret = p := by
  induction p with
  | ret a => rfl
  | panic m => rfl
  | op o k ih => simp [ih]

/-- Embed a program over a smaller signature. -/
def lift {T : Sig} (f : (o : S.Op) → Prog T (S.Ret o)) : Prog S α → Prog T α
  | .ret a => .ret a
  | .panic m => .panic m
  | .op o k => (f o).bind (fun r => (k r).lift f)

end Prog

/-- An interpreter of single effects over a state `σ`. -/
abbrev Interp (S : Sig) (σ : Type) := (o : S.Op) → σ → S.Ret o × σ

/-- Run a program to completion. -/
def Prog.run {S : Sig} {σ α : Type} (I : Interp S σ) : Prog S α → σ → Res α × σ
  | .ret a, s => (.val a, s)
  | .panic m, s => (.panic m, s)
  | .op o k, s => (k (I o s).1).run I (I o s).2

/-- The effects a completed run performed, in order, with their results. -/
def Prog.trace {S : Sig} {σ α : Type} (I : Interp S σ) : Prog S α → σ → List ((o : S.Op) × S.Ret o)
  | .ret _, _ => []
  | .panic _, _ => []
  | .op o k, s => ⟨o, (I o s).1⟩ :: (k (I o s).1).trace I (I o s).2

theorem Prog.run_bind {S : Sig} {σ α β : Type} (I : Interp S σ) (p : Prog S α) (f : α → Prog S β)
    (s : σ) :
    (p.bind f).run I s =
      match p.run I s with
      | (.val a, s') => (f a).run I s'
      | (.panic m, s') => (.panic m, s') := by
  induction p generalizing s with
  | ret a => rfl
  | panic m => rfl
  | op o k ih => simp only [Prog.op_bind, Prog.run]; exact ih _ _

end Goe2ee
