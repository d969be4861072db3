import Verif.Proofs.Interleave
import Verif.Proofs.Shutdown

/-!
# Invariants of single goroutines

Like `Verif.Proofs.Interleave`, for relations between a goroutine's ghost state and its own
connection.
-/

set_option autoImplicit false

namespace Goe2ee

section
variable {C : Crypto} {G : Type}

/-- What it takes for `R` to relate every goroutine's ghost state and connection. -/
structure KeepsLocal (M : Manager C) (timeout : Nat) (A : Auto (SSig C) G) (R : G → Conn → Prop)
    (allowed : Answer C → Prop) : Prop where
  exec : ∀ (a : Answer C) (o : SOp) (c : Conn) (w : World) (g : G), allowed a → A.pre o g → R g c →
    R (A.next o (exec C timeout a o (c, w)).1 g) (exec C timeout a o (c, w)).2.1
  spawn : ∀ (p : Peer) (c : Conn) (g : G), A.pre (.spawn p) g → R g c →
    ∃ g', ThreadOK A (Thread.ofPeer M p) g' ∧ R g' (Conn.ofPeer p)

/-- A goroutine respects the automaton, and its connection is related to its ghost state. -/
def LocalOK (A : Auto (SSig C) G) (R : G → Conn → Prop) (t : Thread C) : Prop :=
  ∃ g, ThreadOK A t g ∧ R g t.conn

theorem ofPeer_conn (M : Manager C) (p : Peer) : (Thread.ofPeer M p).conn = .ofPeer p := by
  cases p <;> rfl

theorem KeepsLocal.thread_step {M : Manager C} {timeout : Nat} {A : Auto (SSig C) G}
    {R : G → Conn → Prop} {allowed : Answer C → Prop} (hk : KeepsLocal M timeout A R allowed)
    (a : Answer C) (ha : allowed a) (t : Thread C) (w : World) (hs : w.spawned = [])
    (ht : LocalOK A R t) :
    LocalOK A R (t.step timeout a w).1 ∧
      ∀ p ∈ (t.step timeout a w).2.spawned, LocalOK A R (Thread.ofPeer M p) := by
  obtain ⟨g, ⟨L, D, hp, hl, hd⟩, hR⟩ := ht
  have hdef : D g → LocalOK A R
      { t with prog := t.deferred, loop := .ret false, deferred := .ret false } := by
    intro hg
    refine ⟨g, ⟨fun _ => True, fun _ => True, ?_, fun _ _ => trivial, fun _ _ => trivial⟩, hR⟩
    exact (hd g hg).trivially (fun a _ => by cases a <;> trivial) (fun _ _ => trivial)
  unfold Thread.step
  split
  · rename_i hprog
    rw [hprog] at hp
    exact ⟨⟨g, ⟨L, D, hl g hp, hl, hd⟩, hR⟩, by simp [hs]⟩
  · rename_i hprog
    rw [hprog] at hp
    exact ⟨hdef hp, by simp [hs]⟩
  · rename_i hprog
    rw [hprog] at hp
    exact ⟨hdef hp, by simp [hs]⟩
  · rename_i o k hprog
    rw [hprog] at hp
    split
    · refine ⟨⟨_, ⟨L, D, hp.2 _, hl, hd⟩, hk.exec a o t.conn w g ha hp.1 hR⟩, ?_⟩
      intro p hm
      dsimp only at hm
      rw [exec_spawned, hs] at hm
      cases o with
      | spawn q =>
        simp only [List.nil_append, List.mem_singleton] at hm
        subst hm
        obtain ⟨g', h1, h2⟩ := hk.spawn p t.conn g hp.1 hR
        exact ⟨g', h1, by rw [ofPeer_conn]; exact h2⟩
      | _ => simp at hm
    · exact ⟨⟨g, ⟨L, D, by rw [hprog]; exact hp, hl, hd⟩, hR⟩, by simp [hs]⟩

theorem KeepsLocal.run {M : Manager C} {timeout : Nat} {A : Auto (SSig C) G}
    {R : G → Conn → Prop} {allowed : Answer C → Prop} (hk : KeepsLocal M timeout A R allowed)
    (acts : List (Nat × Answer C)) (ha : ∀ act ∈ acts, allowed act.2) (s : Sys C)
    (hs : s.world.spawned = []) (h : ∀ t ∈ s.threads, LocalOK A R t) :
    ∀ t ∈ (s.run M timeout acts).threads, LocalOK A R t := by
  induction acts generalizing s with
  | nil => exact h
  | cons act acts ih =>
    refine ih (fun b hb => ha b (List.mem_cons_of_mem _ hb)) (s.step M timeout act) ?_ ?_
    · unfold Sys.step
      split
      · exact hs
      · rfl
    · intro t ht
      unfold Sys.step at ht
      split at ht
      · exact h t ht
      · rename_i t₀ ht₀
        obtain ⟨h1, h2⟩ := hk.thread_step act.2 (ha act (List.mem_cons_self ..)) t₀ s.world hs
          (h t₀ (List.mem_of_getElem? ht₀))
        rcases List.mem_append.mp ht with ht | ht
        · rcases List.mem_or_eq_of_mem_set ht with ht | rfl
          · exact h t ht
          · exact h1
        · obtain ⟨p, hp, rfl⟩ := List.mem_map.mp ht
          exact h2 p hp

end

/-- What single reads preserve, the read effects preserve. -/
theorem readInterp_keeps {σ : Type} {rd : ReadFn σ} {P : σ → Prop}
    (hrd : ∀ s k, P s → P (rd s k).2) (o : ROp) (s : σ) (h : P s) : P (readInterp rd o s).2 := by
  have hfull : ∀ fuel r acc s, P s → P (readFullLoop rd fuel r acc s).2 := by
    intro fuel
    induction fuel with
    | zero => intro r acc s h; cases r <;> exact h
    | succ fuel ih =>
      intro r acc s h
      cases r with
      | zero => exact h
      | succ r =>
        have h' := hrd s (r + 1) h
        rw [readFullLoop]
        split
        rename_i bs err s' heq
        rw [heq] at h'
        split
        · exact h'
        · split
          · exact ih _ _ _ h'
          · exact h'
  have hcopy : ∀ fuel r acc s, P s → P (copyLoop rd fuel r acc s).2 := by
    intro fuel
    induction fuel with
    | zero => intro r acc s h; cases r <;> exact h
    | succ fuel ih =>
      intro r acc s h
      cases r with
      | zero => exact h
      | succ r =>
        have h' := hrd s (r + 1) h
        rw [copyLoop]
        split
        rename_i bs err s' heq
        rw [heq] at h'
        split
        · exact ih _ _ _ h'
        · exact h'
        · exact h'
  cases o with
  | alloc n => exact h
  | readFull n => exact hfull _ _ _ _ h
  | copyLimit n => exact hcopy _ _ _ _ h

theorem readEv_suffix (evs : List Ev) (k : Nat) : flatten (readEv evs k).2 <:+ flatten evs := by
  induction evs with
  | nil => exact List.suffix_rfl
  | cons ev evs ih =>
    match ev with
    | .fail e => exact List.suffix_cons _ _
    | .data [] => simpa [readEv, flatten] using ih
    | .data (b :: bs) =>
      rw [readEv]
      dsimp only
      split
      · exact List.suffix_append _ _
      · refine ⟨((b :: bs).take k).map Sum.inl, ?_⟩
        rw [flatten, flatten, ← List.append_assoc, ← List.map_append, List.take_append_drop]

end Goe2ee
