import Verif.Proofs.Local
import Verif.Proofs.Persist
import Verif.Spec.Trace

/-!
# Invariants over everything a schedule did

Like `Keeps`, but the invariant relates a goroutine's ghost state and connection to the shared state,
which grows, and every effect performed was allowed in some such ghost state.
-/

set_option autoImplicit false

namespace Goe2ee

/-- Nothing is forgotten: the log grows and sessions keep their secrets. -/
structure Grows (w w' : World) : Prop where
  log : ∀ e ∈ w.log, e ∈ w'.log
  heap : ∀ (r : Nat) (secret : Bytes), (∃ window, w.heap[r]? = some (secret, window)) →
    ∃ window, w'.heap[r]? = some (secret, window)

theorem Grows.refl (w : World) : Grows w w := ⟨fun _ h => h, fun _ _ h => h⟩

theorem Grows.trans {a b c : World} (h : Grows a b) (h' : Grows b c) : Grows a c :=
  ⟨fun e he => h'.log e (h.log e he), fun r s hs => h'.heap r s (h.heap r s hs)⟩

section
variable {C : Crypto} {G : Type}

theorem exec_grows (timeout : Nat) (a : Answer C) (o : SOp) (c : Conn) (w : World) :
    Grows w (exec C timeout a o (c, w)).2.2 :=
  ⟨exec_log_grows timeout a o c w, fun r s => exec_secret timeout a o c w r s⟩

/-- What it takes for `R` to relate every goroutine's ghost state and connection to the shared state,
when every effect performed satisfies `P`. -/
structure KeepsGrow (M : Manager C) (timeout : Nat) (A : Auto (SSig C) G)
    (R : G → Conn → World → Prop) (P : SOp → Prop) : Prop where
  exec : ∀ (a : Answer C) (o : SOp) (c : Conn) (w : World) (g : G), P o → A.pre o g → R g c w →
    R (A.next o (exec C timeout a o (c, w)).1 g) (exec C timeout a o (c, w)).2.1
      (exec C timeout a o (c, w)).2.2
  mono : ∀ (g : G) (c : Conn) (w w' : World), Grows w w' → R g c w → R g c w'
  spawn : ∀ (p : Peer) (w : World), P (.spawn p) →
    ∃ g, ThreadOK A (Thread.ofPeer M p) g ∧ R g (Conn.ofPeer p) w

/-- A goroutine respects the automaton, and its ghost state and connection fit the shared state. -/
def GrowOK (A : Auto (SSig C) G) (R : G → Conn → World → Prop) (w : World) (t : Thread C) : Prop :=
  ∃ g, ThreadOK A t g ∧ R g t.conn w

theorem KeepsGrow.step {M : Manager C} {timeout : Nat} {A : Auto (SSig C) G}
    {R : G → Conn → World → Prop} {P : SOp → Prop} (hk : KeepsGrow M timeout A R P) (s : Sys C)
    (act : Nat × Answer C) (hP : ∀ o ∈ s.effect act, P o) (hs : s.world.spawned = [])
    (h : ∀ t ∈ s.threads, GrowOK A R s.world t) :
    (∀ t ∈ (s.step M timeout act).threads, GrowOK A R (s.step M timeout act).world t) ∧
    Grows s.world (s.step M timeout act).world ∧ (s.step M timeout act).world.spawned = [] ∧
    ∀ o ∈ s.effect act, ∃ g c, A.pre o g ∧ R g c s.world := by
  unfold Sys.effect at hP
  unfold Sys.step Sys.effect
  cases ht : s.threads[act.1]? with
  | none => exact ⟨h, .refl _, hs, by simp⟩
  | some t =>
    rw [ht] at hP
    dsimp only at hP ⊢
    obtain ⟨g, ⟨L, D, hp, hl, hd⟩, hR⟩ := h t (List.mem_of_getElem? ht)
    have hdef : D g → GrowOK A R s.world
        { t with prog := t.deferred, loop := .ret false, deferred := .ret false } := by
      intro hg
      refine ⟨g, ⟨fun _ => True, fun _ => True, ?_, fun _ _ => trivial, fun _ _ => trivial⟩, hR⟩
      exact (hd g hg).trivially (fun a _ => by cases a <;> trivial) (fun _ _ => trivial)
    have hquiet : ∀ t' : Thread C, GrowOK A R s.world t' → t.step timeout act.2 s.world = (t', s.world) →
        (∀ t'' ∈ s.threads.set act.1 (t.step timeout act.2 s.world).1 ++
            (t.step timeout act.2 s.world).2.spawned.map (Thread.ofPeer M),
          GrowOK A R { (t.step timeout act.2 s.world).2 with spawned := [] } t'') ∧
        Grows s.world { (t.step timeout act.2 s.world).2 with spawned := [] } := by
      intro t' ht' heq
      rw [heq]
      have hg : Grows s.world { s.world with spawned := [] } := ⟨fun _ h => h, fun _ _ h => h⟩
      refine ⟨fun t'' hm => ?_, hg⟩
      rw [hs] at hm
      simp only [List.map_nil, List.append_nil] at hm
      have : GrowOK A R s.world t'' := by
        rcases List.mem_or_eq_of_mem_set hm with hm | rfl
        · exact h t'' hm
        · exact ht'
      obtain ⟨g', h1, h2⟩ := this
      exact ⟨g', h1, hk.mono _ _ _ _ hg h2⟩
    cases hprog : t.prog with
    | ret b =>
      rw [hprog] at hp
      have heq : ∃ t', t.step timeout act.2 s.world = (t', s.world) ∧ GrowOK A R s.world t' := by
        cases b with
        | true =>
          exact ⟨{ t with prog := t.loop }, by unfold Thread.step; rw [hprog], g, ⟨L, D, hl g hp, hl, hd⟩, hR⟩
        | false =>
          exact ⟨{ t with prog := t.deferred, loop := .ret false, deferred := .ret false },
            by unfold Thread.step; rw [hprog], hdef hp⟩
      obtain ⟨t', heq, ht'⟩ := heq
      obtain ⟨h1, h2⟩ := hquiet t' ht' heq
      exact ⟨h1, h2, by simp, by simp⟩
    | panic m =>
      rw [hprog] at hp
      obtain ⟨h1, h2⟩ := hquiet _ (hdef hp) (by unfold Thread.step; rw [hprog])
      exact ⟨h1, h2, by simp, by simp⟩
    | op o k =>
      rw [hprog] at hp hP
      dsimp only at hP ⊢
      by_cases hen : enabled s.world o = true
      · rw [if_pos hen] at hP ⊢
        have hPo := hP o (List.mem_singleton.mpr rfl)
        have heq : t.step timeout act.2 s.world =
            ({ t with prog := k (Goe2ee.exec C timeout act.2 o (t.conn, s.world)).1,
                      conn := (Goe2ee.exec C timeout act.2 o (t.conn, s.world)).2.1 },
              (Goe2ee.exec C timeout act.2 o (t.conn, s.world)).2.2) := by
          unfold Thread.step
          rw [hprog]
          dsimp only
          rw [if_pos hen]
        rw [heq]
        dsimp only
        have hg0 := exec_grows timeout act.2 o t.conn s.world
        have hg : Grows s.world { (Goe2ee.exec C timeout act.2 o (t.conn, s.world)).2.2 with spawned := [] } :=
          ⟨hg0.log, hg0.heap⟩
        refine ⟨fun t'' hm => ?_, hg, rfl, fun o' ho' => ?_⟩
        · rcases List.mem_append.mp hm with hm | hm
          · rcases List.mem_or_eq_of_mem_set hm with hm | rfl
            · obtain ⟨g', h1, h2⟩ := h t'' hm
              exact ⟨g', h1, hk.mono _ _ _ _ hg h2⟩
            · refine ⟨_, ⟨L, D, hp.2 _, hl, hd⟩, hk.mono _ _ (Goe2ee.exec C timeout act.2 o (t.conn, s.world)).2.2 _
                ⟨fun _ h => h, fun _ _ h => h⟩ (hk.exec act.2 o t.conn s.world g hPo hp.1 hR)⟩
          · obtain ⟨p, hpm, rfl⟩ := List.mem_map.mp hm
            rw [exec_spawned, hs] at hpm
            have ho : o = .spawn p := by
              cases o <;> simp at hpm
              rw [hpm]
            · subst ho
              obtain ⟨g', h1, h2⟩ := hk.spawn p _ hPo
              exact ⟨g', h1, by rw [ofPeer_conn]; exact h2⟩
        · rw [List.mem_singleton] at ho'
          subst ho'
          exact ⟨g, t.conn, hp.1, hR⟩
      · rw [if_neg hen]
        have heq : t.step timeout act.2 s.world = (t, s.world) := by
          unfold Thread.step
          rw [hprog]
          dsimp only
          rw [if_neg hen]
        obtain ⟨h1, h2⟩ := hquiet t ⟨g, ⟨L, D, by rw [hprog]; exact hp, hl, hd⟩, hR⟩ heq
        exact ⟨h1, h2, by simp, by simp⟩

theorem KeepsGrow.run {M : Manager C} {timeout : Nat} {A : Auto (SSig C) G}
    {R : G → Conn → World → Prop} {P : SOp → Prop} (hk : KeepsGrow M timeout A R P)
    (acts : List (Nat × Answer C)) (s : Sys C) (hP : ∀ o ∈ s.effects M timeout acts, P o)
    (hs : s.world.spawned = []) (h : ∀ t ∈ s.threads, GrowOK A R s.world t) :
    (∀ t ∈ (s.run M timeout acts).threads, GrowOK A R (s.run M timeout acts).world t) ∧
    Grows s.world (s.run M timeout acts).world ∧
    ∀ o ∈ s.effects M timeout acts, ∃ g c, A.pre o g ∧ R g c (s.run M timeout acts).world := by
  induction acts generalizing s with
  | nil => exact ⟨h, .refl _, by simp [Sys.effects]⟩
  | cons act acts ih =>
    rw [Sys.effects] at hP ⊢
    obtain ⟨h1, h2, h3, h4⟩ := hk.step s act (fun o ho => hP o (List.mem_append_left _ ho)) hs h
    obtain ⟨g1, g2, g3⟩ := ih (s.step M timeout act) (fun o ho => hP o (List.mem_append_right _ ho)) h3 h1
    refine ⟨g1, h2.trans g2, fun o ho => ?_⟩
    rcases List.mem_append.mp ho with ho | ho
    · obtain ⟨g, c, e1, e2⟩ := h4 o ho
      exact ⟨g, c, e1, hk.mono _ _ _ _ (h2.trans g2) e2⟩
    · exact g3 o ho

/-! ## The log and the effects -/

/-- The effect that an entry of the log tells of. -/
def Event.Of (ops : List SOp) : Event → Prop
  | .established _ host id => ∃ secret, .newSession secret host id ∈ ops
  | .accepted r c => .check r c ∈ ops
  | .invoked r c host id m _ => .invoke r c host id m ∈ ops
  | .sealed r key n pt => .aead r key n pt ∈ ops
  | .closeReturned => .closeReturned ∈ ops

theorem Event.Of.mono {ops ops' : List SOp} (h : ∀ o ∈ ops, o ∈ ops') {e : Event} (he : e.Of ops) :
    e.Of ops' := by
  cases e with
  | established r host id =>
    obtain ⟨s, hs⟩ := he
    exact ⟨s, h _ hs⟩
  | _ => exact h _ he

theorem exec_event (timeout : Nat) (a : Answer C) (o : SOp) (c : Conn) (w : World) (e : Event)
    (h : e ∈ (exec C timeout a o (c, w)).2.2.log) : e ∈ w.log ∨ e.Of [o] := by
  cases o with
  | write bs =>
    refine .inl ?_
    simp only [exec, execWrite] at h
    split at h
    · exact h
    · split at h
      · split at h <;> exact h
      · exact h
  | flush =>
    refine .inl ?_
    simp only [exec] at h
    split at h <;> exact h
  | check r n =>
    simp only [exec] at h
    split at h
    · exact .inl h
    · dsimp only at h
      split at h
      · rcases List.mem_append.mp h with h | h
        · exact .inl h
        · rw [List.mem_singleton] at h
          subst h
          exact .inr (List.mem_singleton.mpr rfl)
      · exact .inl h
  | newSession s ho i =>
    rcases List.mem_append.mp h with h | h
    · exact .inl h
    · rw [List.mem_singleton] at h
      subst h
      exact .inr ⟨s, List.mem_singleton.mpr rfl⟩
  | invoke r n ho i m =>
    rcases List.mem_append.mp h with h | h
    · exact .inl h
    · rw [List.mem_singleton] at h
      subst h
      exact .inr (List.mem_singleton.mpr rfl)
  | aead r k n p =>
    rcases List.mem_append.mp h with h | h
    · exact .inl h
    · rw [List.mem_singleton] at h
      subst h
      exact .inr (List.mem_singleton.mpr rfl)
  | closeReturned =>
    rcases List.mem_append.mp h with h | h
    · exact .inl h
    · rw [List.mem_singleton] at h
      subst h
      exact .inr (List.mem_singleton.mpr rfl)
  | _ => exact .inl h

theorem step_event (M : Manager C) (timeout : Nat) (s : Sys C) (act : Nat × Answer C) (e : Event)
    (h : e ∈ (s.step M timeout act).world.log) : e ∈ s.world.log ∨ e.Of (s.effect act) := by
  unfold Sys.step at h
  unfold Sys.effect
  cases ht : s.threads[act.1]? with
  | none => rw [ht] at h; exact .inl h
  | some t =>
    rw [ht] at h
    dsimp only at h ⊢
    unfold Thread.step at h
    cases hprog : t.prog with
    | ret b => rw [hprog] at h; cases b <;> exact .inl h
    | panic m => rw [hprog] at h; exact .inl h
    | op o k =>
      rw [hprog] at h
      dsimp only at h ⊢
      by_cases hen : enabled s.world o = true
      · rw [if_pos hen] at h ⊢
        exact exec_event timeout act.2 o t.conn s.world e h
      · rw [if_neg hen] at h
        exact .inl h

/-- Every entry of the log tells of an effect that was performed. -/
theorem run_event (M : Manager C) (timeout : Nat) (acts : List (Nat × Answer C)) (s : Sys C) (e : Event)
    (h : e ∈ (s.run M timeout acts).world.log) : e ∈ s.world.log ∨ e.Of (s.effects M timeout acts) := by
  induction acts generalizing s with
  | nil => exact .inl h
  | cons act acts ih =>
    rw [Sys.effects]
    rcases ih (s.step M timeout act) h with h | h
    · rcases step_event M timeout s act e h with h | h
      · exact .inl h
      · exact .inr (h.mono fun o ho => List.mem_append_left _ ho)
    · exact .inr (h.mono fun o ho => List.mem_append_right _ ho)

end

end Goe2ee
