import Verif.Proofs.Order
import Verif.Props.Counter

/-!
# C138: the order of message counters
-/

set_option autoImplicit false

namespace Goe2ee

/-- **C138** as the specification demands it (Counter Rules): every request sent under a secret carries a strictly
greater counter than any request sent before, for any number of goroutines that use clients, sharing sessions or not,
as long as the counter is not exhausted. -/
def C138_claim : Prop :=
  ∀ (C : Crypto), C.Lawful → ∀ (k : Nat) (workers : List Worker), (∀ w ∈ workers, w.ok) → Sessions C k workers →
    (∀ a, (workers.map fun w => if w.session.sendCounter = a then w.writes else 0).sum ≤ 2 ^ 64) →
    ∀ acts : List (Nat × CEnv C), ((CSys.start C k workers).sent acts).Pairwise fun x y =>
      ShareSession workers x.1 y.1 → counterIn x.2 < counterIn y.2

section
variable {C : Crypto}

theorem C138_pairs {k : Nat} {workers : List Worker} (hok : ∀ w ∈ workers, w.ok) (hS : Sessions C k workers)
    (hw : ∀ a, (workers.map fun w => if w.session.sendCounter = a then w.writes else 0).sum ≤ 2 ^ 64)
    (acts : List (Nat × CEnv C)) :
    ((CSys.start C k workers).sent acts).Pairwise fun x y =>
      addrOf workers x.1 = addrOf workers y.1 → counterIn x.2 ≠ counterIn y.2 ∧
        (x.1 = y.1 → counterIn x.2 < counterIn y.2) := by
  obtain ⟨_, _, h⟩ := ord_run acts _ (draw_start hok hS hw) (ord_start hok)
  exact h.pairs

theorem addrOf_share {workers : List Worker} {i j : Nat} (h : ShareSession workers i j) :
    addrOf workers i = addrOf workers j := by
  obtain ⟨w, w', h1, h2, h3⟩ := h
  simp [addrOf, h1, h2, h3]

/-- **C138**, what holds for sessions that are shared: no counter is sent twice under a session, on whatever
connections. -/
theorem C138_distinct_partial {k : Nat} {workers : List Worker} (hok : ∀ w ∈ workers, w.ok)
    (hS : Sessions C k workers)
    (hw : ∀ a, (workers.map fun w => if w.session.sendCounter = a then w.writes else 0).sum ≤ 2 ^ 64)
    (acts : List (Nat × CEnv C)) :
    ((CSys.start C k workers).sent acts).Pairwise fun x y =>
      ShareSession workers x.1 y.1 → counterIn x.2 ≠ counterIn y.2 :=
  (C138_pairs hok hS hw acts).imp fun h hs => (h (addrOf_share hs)).1

/-- **C138**, what holds for each goroutine: its requests carry strictly increasing counters. -/
theorem C138_increasing_partial {k : Nat} {workers : List Worker} (hok : ∀ w ∈ workers, w.ok)
    (hS : Sessions C k workers)
    (hw : ∀ a, (workers.map fun w => if w.session.sendCounter = a then w.writes else 0).sum ≤ 2 ^ 64)
    (acts : List (Nat × CEnv C)) :
    ((CSys.start C k workers).sent acts).Pairwise fun x y => x.1 = y.1 → counterIn x.2 < counterIn y.2 :=
  (C138_pairs hok hS hw acts).imp fun h hs => (h (by rw [hs])).2 hs

/-- **C138**, so the demand is met if no session is shared. -/
theorem C138_unshared_partial {k : Nat} {workers : List Worker} (hok : ∀ w ∈ workers, w.ok)
    (hS : Sessions C k workers)
    (hw : ∀ a, (workers.map fun w => if w.session.sendCounter = a then w.writes else 0).sum ≤ 2 ^ 64)
    (halone : ∀ i j, ShareSession workers i j → i = j) (acts : List (Nat × CEnv C)) :
    ((CSys.start C k workers).sent acts).Pairwise fun x y =>
      ShareSession workers x.1 y.1 → counterIn x.2 < counterIn y.2 :=
  (C138_increasing_partial hok hS hw acts).imp fun h hs => h (halone _ _ hs)

end

open CounterExample

namespace OrderExample

/-- Two goroutines draw their values one after the other, and the second is the first to write. -/
def overtaking : List (Nat × CEnv Toy.crypto) :=
  [0, 1, 1, 1, 0, 0].map fun i => (i, HandshakeExample.env)

end OrderExample
open OrderExample

/-- **C138 is refuted**: two goroutines that share a session send their requests in the other order. -/
theorem C138_refuted : ¬ C138_claim := by
  intro h
  have := h Toy.crypto Toy.lawful 1 [writer 1, writer 1] ?_ ?_ ?_ overtaking
  · have hs : (((CSys.start Toy.crypto 1 [writer 1, writer 1]).sent overtaking).map fun x => (x.1, counterIn x.2)) =
        [(1, 2), (0, 1)] := by decide +kernel
    generalize (CSys.start Toy.crypto 1 [writer 1, writer 1]).sent overtaking = l at this hs
    rcases l with _ | ⟨x, _ | ⟨y, _ | ⟨z, l⟩⟩⟩
    · cases hs
    · simp at hs
    · simp only [List.map_cons, List.map_nil, List.cons.injEq, Prod.mk.injEq, and_true] at hs
      have := (List.pairwise_cons.mp this).1 y (by simp) ⟨writer 1, writer 1, by rw [hs.1.1]; rfl, by rw [hs.2.1]; rfl, rfl⟩
      omega
    · simp at hs
  · intro w hw
    simp only [List.mem_cons, List.not_mem_nil, or_false, or_self] at hw
    subst hw
    rfl
  · refine ⟨?_, ?_⟩
    · intro w hw
      simp only [List.mem_cons, List.not_mem_nil, or_false, or_self] at hw
      subst hw
      exact Nat.zero_lt_one
    · intro w hw w' hw' _ _ _
      simp only [List.mem_cons, List.not_mem_nil, or_false, or_self] at hw hw'
      rw [hw, hw']
  · intro a
    have : (writer 1).writes = 1 := rfl
    simp only [List.map_cons, List.map_nil, List.sum_cons, List.sum_nil, this]
    split <;> omega

/-- Without interference the same goroutines send in order. -/
example : (((CSys.start Toy.crypto 1 [writer 2, writer 1]).sent
    ([0, 0, 0, 1, 1, 1, 0, 0, 0].map fun i => (i, HandshakeExample.env))).map fun x => (x.1, counterIn x.2)) =
    [(0, 1), (1, 2), (0, 3)] := by decide +kernel

end Goe2ee
