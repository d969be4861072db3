import Verif.Proofs.Safe

/-!
# Invariants of the interleaved server

An automaton gives every goroutine a ghost state; an invariant relates the shared state to all ghost
states.  If every effect preserves the invariant, every schedule does.
-/

set_option autoImplicit false

namespace Goe2ee

section
variable {C : Crypto} {G : Type}

/-- A goroutine respects the automaton from its ghost state: in the current pass, in later passes
(from ghost states `L`) and in the deferred calls (from ghost states `D`). -/
def ThreadOK (A : Auto (SSig C) G) (t : Thread C) (g : G) : Prop :=
  ∃ L D : G → Prop,
    SafeE A t.prog g (fun b g' => if b then L g' else D g') (fun _ g' => D g') ∧
    (∀ g, L g → SafeE A t.loop g (fun b g' => if b then L g' else D g') (fun _ g' => D g')) ∧
    (∀ g, D g → SafeE A t.deferred g (fun _ _ => True) (fun _ _ => True))

theorem SafeE.trivially {A : Auto (SSig C) G} {α : Type} {p : SProg C α} {g : G}
    (h : SafeE A p g (fun _ _ => True) (fun _ _ => True)) {Q : α → G → Prop} {E : String → G → Prop}
    (hQ : ∀ a g, Q a g) (hE : ∀ m g, E m g) : SafeE A p g Q E :=
  h.mono (fun a g _ => hQ a g) (fun m g _ => hE m g)

/-- A goroutine that respects the automaton from every ghost state. -/
theorem ThreadOK.always {A : Auto (SSig C) G} {t : Thread C}
    (hp : ∀ g, Safe A t.prog g (fun _ _ => True)) (hl : ∀ g, Safe A t.loop g (fun _ _ => True))
    (hd : ∀ g, Safe A t.deferred g (fun _ _ => True)) (g : G) : ThreadOK A t g := by
  refine ⟨fun _ => True, fun _ => True, ?_, ?_, ?_⟩
  · exact (hp g).toE.trivially (fun a _ => by cases a <;> trivial) (fun _ _ => trivial)
  · exact fun g _ => (hl g).toE.trivially (fun a _ => by cases a <;> trivial) (fun _ _ => trivial)
  · exact fun g _ => (hd g).toE

/-- What it takes for an invariant to hold under every schedule that `allowed` permits. -/
structure Keeps (M : Manager C) (timeout : Nat) (A : Auto (SSig C) G) (I : World → List G → Prop)
    (fresh : G) (allowed : Answer C → Prop) : Prop where
  exec : ∀ (a : Answer C) (o : SOp) (c : Conn) (w : World) (gs : List G) (i : Nat) (g : G),
    allowed a → w.spawned = [] → gs[i]? = some g → A.pre o g → enabled w o = true → I w gs →
    I (exec C timeout a o (c, w)).2.2 (gs.set i (A.next o (exec C timeout a o (c, w)).1 g))
  spawn : ∀ (w : World) (gs : List G), I w gs →
    I { w with spawned := [] } (gs ++ List.replicate w.spawned.length fresh)
  thread : ∀ (a : Answer C) (o : SOp) (c : Conn) (w : World) (gs : List G) (i : Nat) (g : G),
    allowed a → w.spawned = [] → gs[i]? = some g → A.pre o g → enabled w o = true → I w gs →
    ∀ p ∈ (Goe2ee.exec C timeout a o (c, w)).2.2.spawned, ThreadOK A (Thread.ofPeer M p) fresh

/-- The invariant of the whole server. -/
structure Holds (A : Auto (SSig C) G) (I : World → List G → Prop) (s : Sys C) (gs : List G) : Prop where
  len : gs.length = s.threads.length
  safe : ∀ (i : Nat) (t : Thread C) (g : G), s.threads[i]? = some t → gs[i]? = some g → ThreadOK A t g
  world : I s.world gs
  spawned : s.world.spawned = []

theorem set_same {α : Type} {l : List α} {i : Nat} {a : α} (h : l[i]? = some a) : l.set i a = l := by
  apply List.ext_getElem?
  intro j
  rw [List.getElem?_set]
  split
  · rename_i hij
    subst hij
    rw [h]
    simp [(List.getElem?_eq_some_iff.mp h).1]
  · rfl

theorem Keeps.thread_step {M : Manager C} {timeout : Nat} {A : Auto (SSig C) G}
    {I : World → List G → Prop} {fresh : G} {allowed : Answer C → Prop}
    (hk : Keeps M timeout A I fresh allowed)
    (a : Answer C) (ha : allowed a) (t : Thread C) (w : World) (gs : List G) (i : Nat) (g : G)
    (hs : w.spawned = []) (hg : gs[i]? = some g) (ht : ThreadOK A t g) (h : I w gs) :
    ∃ g', ThreadOK A (t.step timeout a w).1 g' ∧ I (t.step timeout a w).2 (gs.set i g') ∧
      ∀ p ∈ (t.step timeout a w).2.spawned, ThreadOK A (Thread.ofPeer M p) fresh := by
  obtain ⟨L, D, hp, hl, hd⟩ := ht
  have hdef : ∀ g, D g → ThreadOK A
      { t with prog := t.deferred, loop := .ret false, deferred := .ret false } g := by
    intro g hg
    refine ⟨fun _ => True, fun _ => True, ?_, fun _ _ => trivial, fun _ _ => trivial⟩
    exact (hd g hg).trivially (fun a _ => by cases a <;> trivial) (fun _ _ => trivial)
  unfold Thread.step
  split
  · rename_i hprog
    rw [hprog] at hp
    exact ⟨g, ⟨L, D, hl g hp, hl, hd⟩, by rw [set_same hg]; exact h, by simp [hs]⟩
  · rename_i hprog
    rw [hprog] at hp
    exact ⟨g, hdef g hp, by rw [set_same hg]; exact h, by simp [hs]⟩
  · rename_i hprog
    rw [hprog] at hp
    exact ⟨g, hdef g hp, by rw [set_same hg]; exact h, by simp [hs]⟩
  · rename_i o k hprog
    rw [hprog] at hp
    split
    · rename_i hen
      exact ⟨_, ⟨L, D, hp.2 _, hl, hd⟩, hk.exec a o t.conn w gs i g ha hs hg hp.1 hen h,
        hk.thread a o t.conn w gs i g ha hs hg hp.1 hen h⟩
    · exact ⟨g, ⟨L, D, by rw [hprog]; exact hp, hl, hd⟩, by rw [set_same hg]; exact h, by simp [hs]⟩

theorem Keeps.step {M : Manager C} {timeout : Nat} {A : Auto (SSig C) G}
    {I : World → List G → Prop} {fresh : G} {allowed : Answer C → Prop}
    (hk : Keeps M timeout A I fresh allowed)
    (s : Sys C) (gs : List G) (h : Holds A I s gs) (act : Nat × Answer C) (ha : allowed act.2) :
    ∃ gs', Holds A I (s.step M timeout act) gs' := by
  unfold Sys.step
  split
  · exact ⟨gs, h⟩
  · rename_i t ht
    have hi : act.1 < gs.length := by
      rw [h.len]; exact (List.getElem?_eq_some_iff.mp ht).1
    have hg : gs[act.1]? = some gs[act.1] := List.getElem?_eq_getElem hi
    obtain ⟨g', ht', hw', hsp⟩ := hk.thread_step act.2 ha t s.world gs act.1 _ h.spawned hg
      (h.safe act.1 t _ ht hg) h.world
    refine ⟨gs.set act.1 g' ++
      List.replicate (t.step timeout act.2 s.world).2.spawned.length fresh, ?_, ?_, ?_, rfl⟩
    · simp [h.len]
    · intro j t'' g'' hj hgj
      dsimp only at hj
      have hlen : (s.threads.set act.1 (t.step timeout act.2 s.world).1).length =
          (gs.set act.1 g').length := by simp [h.len]
      rw [List.getElem?_append] at hj hgj
      rw [hlen] at hj
      split at hj
      · rename_i hjl
        rw [if_pos hjl] at hgj
        by_cases hij : act.1 = j
        · subst hij
          rw [List.getElem?_set_self (by rw [← h.len]; exact hi)] at hj
          rw [List.getElem?_set_self hi] at hgj
          cases hj; cases hgj
          exact ht'
        · rw [List.getElem?_set_ne hij] at hj hgj
          exact h.safe j t'' g'' hj hgj
      · rename_i hjl
        rw [if_neg hjl] at hgj
        obtain ⟨p, hp, rfl⟩ := List.mem_map.mp (List.mem_of_getElem? hj)
        rw [(List.mem_replicate.mp (List.mem_of_getElem? hgj)).2]
        exact hsp p hp
    · exact hk.spawn _ _ hw'

theorem Keeps.run {M : Manager C} {timeout : Nat} {A : Auto (SSig C) G}
    {I : World → List G → Prop} {fresh : G} {allowed : Answer C → Prop}
    (hk : Keeps M timeout A I fresh allowed)
    (acts : List (Nat × Answer C)) (ha : ∀ act ∈ acts, allowed act.2) (s : Sys C) (gs : List G)
    (h : Holds A I s gs) : ∃ gs', Holds A I (s.run M timeout acts) gs' := by
  induction acts generalizing s gs with
  | nil => exact ⟨gs, h⟩
  | cons a acts ih =>
    obtain ⟨gs', h'⟩ := hk.step s gs h a (ha a (List.mem_cons_self ..))
    exact ih (fun x hx => ha x (List.mem_cons_of_mem _ hx)) _ gs' h'

/-- The goroutines a server starts with. -/
theorem start_threads {ttl closers : Nat} {P : Thread C → Prop}
    (ha : P (.repeating acceptPass)) (hp : P (.repeating packetPass))
    (hg : P (.repeating (gcVisit ttl)))
    (hc : P { conn := .none, prog := closeServer, loop := .ret false, deferred := .ret false }) :
    ∀ t ∈ (Sys.start (C := C) ttl closers).threads, P t := by
  intro t hm
  simp only [Sys.start, List.mem_append, List.mem_cons, List.not_mem_nil, or_false] at hm
  rcases hm with ((rfl | rfl) | hm) | hm
  · exact ha
  · exact hp
  · split at hm
    · simp only [List.mem_singleton] at hm
      subst hm
      exact hg
    · simp at hm
  · obtain ⟨-, rfl⟩ := List.mem_replicate.mp hm
    exact hc

end

end Goe2ee
