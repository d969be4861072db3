import Verif.Model.ManagerExec
import Verif.Proofs.Safe
import Mathlib.Data.List.Induction

/-!
# The in-memory session manager
-/

set_option autoImplicit false

namespace Goe2ee

section
variable {C : Crypto}

/-! ## One call after the other -/

theorem callAt_store (ttl : Nat) (w : World) (id : Bytes) (r : Ref) (t : Nat) :
    (callAt C ttl w (.store id r, t)).2.table = fun k => if k = id then some (r, t) else w.table k := rfl

theorem callAt_load_some (ttl : Nat) (w : World) (id : Bytes) (r : Ref) (u t : Nat)
    (h : w.table id = some (r, u)) :
    (callAt C ttl w (.load id, t)).1 = .val (some r) ∧
    (callAt C ttl w (.load id, t)).2.table = fun k => if k = id then some (r, t) else w.table k := by
  simp only [callAt, MCall.prog, inMemoryLoad, Prog.run, exec, h]
  exact ⟨trivial, rfl⟩

theorem callAt_load_none (ttl : Nat) (w : World) (id : Bytes) (t : Nat) (h : w.table id = none) :
    (callAt C ttl w (.load id, t)).1 = .val none ∧
    (callAt C ttl w (.load id, t)).2.table = w.table := by
  simp only [callAt, MCall.prog, inMemoryLoad, Prog.run, exec, h]
  exact ⟨trivial, trivial⟩

theorem callAt_visit_some (ttl : Nat) (w : World) (id : Bytes) (r : Ref) (u t : Nat)
    (h : w.table id = some (r, u)) :
    (callAt C ttl w (.visit id, t)).2.table =
      fun k => if k = id ∧ t - u > ttl then none else w.table k := by
  simp only [callAt, MCall.prog, gcVisitKey, Prog.bind, Prog.run, exec, h, clock, Nat.add_zero]
  by_cases ht : t - u > ttl
  · simp only [ht, if_true, Prog.bind, Prog.run, and_true]; rfl
  · simp only [ht, if_false, Prog.bind, Prog.run, and_false]

theorem callAt_visit_none (ttl : Nat) (w : World) (id : Bytes) (t : Nat) (h : w.table id = none) :
    (callAt C ttl w (.visit id, t)).2.table = w.table := by
  simp only [callAt, MCall.prog, gcVisitKey, Prog.bind, Prog.run, exec, h]

/-- A call for another id changes nothing. -/
theorem callAt_other (ttl : Nat) (w : World) (c : MCall × Nat) (id : Bytes) (h : c.1.key ≠ id) :
    (callAt C ttl w c).2.table id = w.table id := by
  obtain ⟨c, t⟩ := c
  cases c with
  | store k r => rw [callAt_store]; exact if_neg (fun e => h e.symm)
  | load k =>
    rcases ht : w.table k with _ | ⟨r, u⟩
    · rw [(callAt_load_none ttl w k t ht).2]
    · rw [(callAt_load_some ttl w k r u t ht).2]; exact if_neg (fun e => h e.symm)
  | visit k =>
    rcases ht : w.table k with _ | ⟨r, u⟩
    · rw [callAt_visit_none ttl w k t ht]
    · rw [callAt_visit_some ttl w k r u t ht]; exact if_neg (fun e => h e.1.symm)

theorem afterCalls_append (ttl : Nat) (w : World) (xs ys : List (MCall × Nat)) :
    afterCalls C ttl w (xs ++ ys) = afterCalls C ttl (afterCalls C ttl w xs) ys := List.foldl_append

theorem afterCalls_cons (ttl : Nat) (w : World) (x : MCall × Nat) (ys : List (MCall × Nat)) :
    afterCalls C ttl w (x :: ys) = afterCalls C ttl (callAt C ttl w x).2 ys := rfl

/-- An entry of the table is a session stored under that id and not stored over since; its time is
that of a use of the id. -/
theorem entry_origin (ttl : Nat) (id : Bytes) (r : Ref) (u : Nat) (calls : List (MCall × Nat))
    (w : World) (hw : w.table id = none)
    (h : (afterCalls C ttl w calls).table id = some (r, u)) :
    (∃ before t₀ after, calls = before ++ (.store id r, t₀) :: after ∧
      ∀ x ∈ after, ∀ r', x.1 ≠ .store id r') ∧
    ((.load id, u) ∈ calls ∨ ∃ r', (.store id r', u) ∈ calls) := by
  induction calls using List.reverseRecOn generalizing u with
  | nil => rw [show (afterCalls C ttl w []).table id = none from hw] at h; cases h
  | append_singleton calls x ih =>
    rw [afterCalls_append] at h
    generalize hw' : afterCalls C ttl w calls = w' at h ih
    change (callAt C ttl w' x).2.table id = _ at h
    have keep : ∀ u, w'.table id = some (r, u) → (∀ r', x.1 ≠ .store id r') →
        ∃ before t₀ after, calls ++ [x] = before ++ (.store id r, t₀) :: after ∧
          ∀ x ∈ after, ∀ r', x.1 ≠ .store id r' := by
      intro u hu hx
      obtain ⟨⟨b, t₀, a, rfl, h2⟩, -⟩ := ih u hu
      refine ⟨b, t₀, a ++ [x], by simp, ?_⟩
      intro y hy
      rcases List.mem_append.mp hy with hy | hy
      · exact h2 y hy
      · rw [List.mem_singleton.mp hy]; exact hx
    by_cases hk : x.1.key = id
    · obtain ⟨c, t⟩ := x
      cases c with
      | store k r' =>
        change k = id at hk
        subst hk
        rw [callAt_store] at h
        simp only [if_true, Option.some.injEq, Prod.mk.injEq] at h
        obtain ⟨rfl, rfl⟩ := h
        exact ⟨⟨calls, t, [], rfl, by simp⟩, .inr ⟨r', by simp⟩⟩
      | load k =>
        change k = id at hk
        subst hk
        rcases ht : w'.table k with _ | ⟨r', u'⟩
        · rw [(callAt_load_none ttl w' k t ht).2, ht] at h; cases h
        · rw [(callAt_load_some ttl w' k r' u' t ht).2] at h
          simp only [if_true, Option.some.injEq, Prod.mk.injEq] at h
          obtain ⟨rfl, rfl⟩ := h
          exact ⟨keep u' ht (by simp), .inl (by simp)⟩
      | visit k =>
        change k = id at hk
        subst hk
        rcases ht : w'.table k with _ | ⟨r', u'⟩
        · rw [callAt_visit_none ttl w' k t ht, ht] at h; cases h
        · rw [callAt_visit_some ttl w' k r' u' t ht] at h
          dsimp only at h
          split at h
          · cases h
          · refine ⟨keep u h (by simp), ?_⟩
            rcases (ih u h).2 with h' | ⟨r'', h'⟩
            · exact .inl (List.mem_append_left _ h')
            · exact .inr ⟨r'', List.mem_append_left _ h'⟩
    · rw [callAt_other ttl w' x id hk] at h
      refine ⟨keep u h ?_, ?_⟩
      · intro r' hx
        rw [hx] at hk
        exact hk rfl
      · rcases (ih u h).2 with h' | ⟨r'', h'⟩
        · exact .inl (List.mem_append_left _ h')
        · exact .inr ⟨r'', List.mem_append_left _ h'⟩

/-- Without a store, an absent entry stays absent. -/
theorem absent_stays (ttl : Nat) (id : Bytes) (calls : List (MCall × Nat)) (w : World)
    (hw : w.table id = none) (hno : ∀ x ∈ calls, ∀ r, x.1 ≠ .store id r) :
    (afterCalls C ttl w calls).table id = none := by
  induction calls generalizing w with
  | nil => exact hw
  | cons x calls ih =>
    rw [afterCalls_cons]
    refine ih _ ?_ (fun y hy => hno y (List.mem_cons_of_mem _ hy))
    by_cases hk : x.1.key = id
    · obtain ⟨c, t⟩ := x
      cases c with
      | store k r => change k = id at hk; subst hk; exact absurd rfl (hno _ (List.mem_cons_self ..) r)
      | load k => change k = id at hk; subst hk; rw [(callAt_load_none ttl w k t hw).2]; exact hw
      | visit k => change k = id at hk; subst hk; rw [callAt_visit_none ttl w k t hw]; exact hw
    · rw [callAt_other ttl w x id hk]; exact hw

/-- An entry survives if no visit finds it idle for longer than the TTL.  `used` are the times of its
uses so far, `last` the time of the last. -/
theorem entry_kept (ttl : Nat) (id : Bytes) (r : Ref) (calls : List (MCall × Nat)) (w : World)
    (last : Nat) (used : List Nat) (hw : w.table id = some (r, last)) (hlast : ∀ u ∈ used, u ≤ last)
    (hsorted : calls.Pairwise (fun x y => x.2 ≤ y.2)) (hafter : ∀ x ∈ calls, last ≤ x.2)
    (hno : ∀ x ∈ calls, ∀ r, x.1 ≠ .store id r)
    (hvisit : ∀ pre t post, calls = pre ++ (.visit id, t) :: post →
      (∃ u ∈ used, t - u ≤ ttl) ∨ ∃ u, (.load id, u) ∈ pre ∧ t - u ≤ ttl) :
    ∃ last, (afterCalls C ttl w calls).table id = some (r, last) := by
  induction calls generalizing w last used with
  | nil => exact ⟨last, hw⟩
  | cons x calls ih =>
    rw [afterCalls_cons]
    have hno' : ∀ y ∈ calls, ∀ r, y.1 ≠ .store id r := fun y hy => hno y (List.mem_cons_of_mem _ hy)
    have hs' := (List.pairwise_cons.mp hsorted).2
    have hx := (List.pairwise_cons.mp hsorted).1
    by_cases hk : x.1.key = id
    · obtain ⟨c, t⟩ := x
      cases c with
      | store k r' => change k = id at hk; subst hk; exact absurd rfl (hno _ (List.mem_cons_self ..) r')
      | load k =>
        change k = id at hk
        subst hk
        refine ih _ t (t :: used) ?_ ?_ hs' (fun y hy => hx y hy) hno' ?_
        · rw [(callAt_load_some ttl w k r last t hw).2]; exact if_pos rfl
        · intro u hu
          rcases List.mem_cons.mp hu with rfl | hu
          · exact Nat.le_refl _
          · exact Nat.le_trans (hlast u hu) (hafter _ (List.mem_cons_self ..))
        · intro pre t' post he
          rcases hvisit ((.load k, t) :: pre) t' post (by rw [he]; rfl) with ⟨u, h1, h2⟩ | ⟨u, h1, h2⟩
          · exact .inl ⟨u, List.mem_cons_of_mem _ h1, h2⟩
          · rcases List.mem_cons.mp h1 with h1 | h1
            · cases h1; exact .inl ⟨t, List.mem_cons_self .., h2⟩
            · exact .inr ⟨u, h1, h2⟩
      | visit k =>
        change k = id at hk
        subst hk
        refine ih _ last used ?_ hlast hs' (fun y hy => hafter y (List.mem_cons_of_mem _ hy)) hno' ?_
        · rw [callAt_visit_some ttl w k r last t hw]
          rcases hvisit [] t calls rfl with ⟨u, h1, h2⟩ | ⟨u, h1, -⟩
          · have := hlast u h1
            dsimp only
            rw [if_neg (by omega)]
            exact hw
          · cases h1
        · intro pre t' post he
          rcases hvisit ((.visit k, t) :: pre) t' post (by rw [he]; rfl) with h | ⟨u, h1, h2⟩
          · exact .inl h
          · rcases List.mem_cons.mp h1 with h1 | h1
            · cases h1
            · exact .inr ⟨u, h1, h2⟩
    · refine ih _ last used ?_ hlast hs' (fun y hy => hafter y (List.mem_cons_of_mem _ hy)) hno' ?_
      · rw [callAt_other ttl w x id hk]; exact hw
      · intro pre t' post he
        rcases hvisit (x :: pre) t' post (by rw [he]; rfl) with h | ⟨u, h1, h2⟩
        · exact .inl h
        · rcases List.mem_cons.mp h1 with h1 | h1
          · rw [← h1] at hk; exact absurd rfl hk
          · exact .inr ⟨u, h1, h2⟩

end

end Goe2ee
