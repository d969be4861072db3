import Verif.Props.PoolHolder

/-!
# C175: a `Get` that waits for its server and the other users of the pool

`Get` of a pool waits for the server in two places: in the test of an idle client, and while it dials.
The others can use the pool during the former, but not during the latter: `Get` dials with the pool's
mutex locked.
-/

set_option autoImplicit false

namespace Goe2ee

/-- The goroutine is inside a call of the pool and needs the pool's mutex for what comes next. -/
def wantsMutex (p : Prog PSig PLoop) : Bool :=
  match p with
  | .op .lock _ => true
  | _ => false

/-- The goroutine is inside `Get` and waits for an answer of the server: it connects, or tests a client. -/
def asksServer (p : Prog PSig PLoop) : Bool :=
  match p with
  | .op (.dial _) _ => true
  | .op (.test _) _ => true
  | _ => false

/-- **C175**: while a goroutine waits in `Get` for the server, the call of another one does not wait for
it: that call can get on, although the former stays where it is. -/
def C175_claim : Prop :=
  ∀ (cfg : PoolCfg) (threads : List PLoop), (∀ b, .scan b ∉ threads) →
    ∀ (acts : List (Nat × PEnv)) (i j : Nat) (p q : Prog PSig PLoop), i ≠ j →
    (PoolSys.run cfg (poolStart threads) acts).threads[i]? = some p → asksServer p = true →
    (PoolSys.run cfg (poolStart threads) acts).threads[j]? = some q → wantsMutex q = true →
    ∃ (more : List (Nat × PEnv)) (q' : Prog PSig PLoop), (∀ act ∈ more, act.1 ≠ i) ∧
      (PoolSys.run cfg (poolStart threads) (acts ++ more)).threads[j]? = some q' ∧ wantsMutex q' = false

theorem wantsMutex_iff {p : Prog PSig PLoop} (h : wantsMutex p = true) :
    ∃ k : POp.Ret .lock → Prog PSig PLoop, p = .op .lock k := by
  unfold wantsMutex at h
  split at h
  · exact ⟨_, rfl⟩
  · cases h

/-- Nobody gets past the mutex while goroutine `i` holds it and does not move. -/
theorem Holding.keepsOut {cfg : PoolCfg} {s : PoolSys} {i j : Nat} {p q : Prog PSig PLoop}
    (h : Holding s i p) (hj : s.threads[j]? = some q) (hq : wantsMutex q = true)
    (more : List (Nat × PEnv)) (hmore : ∀ act ∈ more, act.1 ≠ i) :
    (PoolSys.run cfg s more).threads[j]? = some q := by
  induction more generalizing s with
  | nil => exact hj
  | cons act more ih =>
    have hne := hmore act (List.mem_cons_self ..)
    refine ih (s := s.step cfg act) (h.other hne) ?_ fun a ha => hmore a (List.mem_cons_of_mem _ ha)
    by_cases haj : act.1 = j
    · obtain ⟨k, rfl⟩ := wantsMutex_iff hq
      obtain ⟨gs, h1, h2, -⟩ := h
      have hl := h1.held h2
      unfold PoolSys.step Loops.step
      rw [haj, hj]
      simp [pexec, hl, hj]
    · rw [PoolSys.step, step_other s act.2 haj]
      exact hj

/-- **C175**, how it fails: as long as a goroutine dials, every call of the pool that needs the mutex waits
for it, whatever else happens: `Get` although a client is idle, `Close` of a borrowed client, and `Close`
of the pool. -/
theorem C175_everybody_waits (cfg : PoolCfg) (threads : List PLoop) (hscan : ∀ b, .scan b ∉ threads)
    (acts more : List (Nat × PEnv)) (i j : Nat) (handshake : Bool)
    (k : POp.Ret (.dial handshake) → Prog PSig PLoop) (q : Prog PSig PLoop)
    (hi : (PoolSys.run cfg (poolStart threads) acts).threads[i]? = some (.op (.dial handshake) k))
    (hj : (PoolSys.run cfg (poolStart threads) acts).threads[j]? = some q) (hq : wantsMutex q = true)
    (hmore : ∀ act ∈ more, act.1 ≠ i) :
    (PoolSys.run cfg (poolStart threads) (acts ++ more)).threads[j]? = some q := by
  obtain ⟨gs, h, -⟩ := holder_reach cfg threads hscan acts
  have hlt : i < gs.length := by
    rw [h.len]; exact (List.getElem?_eq_some_iff.mp hi).1
  have hg := List.getElem?_eq_getElem hlt
  have hpre : gs[i] = true := (h.safe _ _ _ hi hg).1
  rw [hpre] at hg
  have := Holding.keepsOut (cfg := cfg) ⟨gs, h, hg, hi⟩ hj hq more hmore
  rw [PoolSys.run, Loops.run, List.foldl_append]
  exact this

/-- The goroutine that holds the mutex releases it by steps of its own. -/
theorem Holding.finishes {cfg : PoolCfg} {i : Nat} {p : Prog PSig PLoop} (hp : Releases p) :
    ∀ {s : PoolSys}, Holding s i p → ∃ n gs, (PoolSys.run cfg s (go i n)).world.locked = false ∧
      MutexOK (PoolSys.run cfg s (go i n)) gs := by
  induction p with
  | ret l => exact hp.elim
  | panic m => exact hp.elim
  | op o k ih =>
    intro s h
    have hable : ableTo s (i, {}) = true := by
      obtain ⟨gs, h1, h2, h3⟩ := h
      obtain ⟨-, -, -, h4⟩ := h1.able h2
      exact h4 none none
    rcases h.moves (cfg := cfg) (act := (i, {})) rfl hable with ⟨-, h4⟩ | ⟨h4, r, h5⟩
    · obtain ⟨gs, h1, -, -⟩ := h
      obtain ⟨gs', h1', -⟩ := h1.move (cfg := cfg) (i, {})
      exact ⟨1, gs', h4, h1'⟩
    · obtain ⟨n, gs, h6, h7⟩ := ih r (hp.next h4 r) h5
      exact ⟨n + 1, gs, h6, h7⟩

theorem Holding.letsGo {cfg : PoolCfg} {i : Nat} {p : Prog PSig PLoop} :
    ∀ {s : PoolSys}, Holding s i p → ∃ n gs, (PoolSys.run cfg s (go i n)).world.locked = false ∧
      MutexOK (PoolSys.run cfg s (go i n)) gs := by
  induction p with
  | ret l =>
    intro s h
    have hl := h.safe
    cases l with
    | scan b =>
      have h' : Holding (s.step cfg (i, {})) i (poolScan cfg b) := by
        obtain ⟨gs, h4, h5, h6⟩ := h
        obtain ⟨gs', h4', hc⟩ := h4.move (cfg := cfg) (i, {})
        refine ⟨gs', h4', ?_, ?_⟩
        · rcases hc with ⟨rfl, -⟩ | ⟨o, k, r, ht, -⟩
          · exact h5
          · rw [h6] at ht
            cases ht
        · unfold PoolSys.step Loops.step
          rw [h6]
          exact List.getElem?_set_self (List.getElem?_eq_some_iff.mp h6).1
      obtain ⟨n, gs, h6, h7⟩ := h'.finishes (cfg := cfg) (releases_scan cfg b)
      exact ⟨n + 1, gs, h6, h7⟩
    | _ => cases hl
  | panic m =>
    intro s h
    exact absurd h.safe (by intro h; cases h)
  | op o k ih =>
    intro s h
    have hable : ableTo s (i, {}) = true := by
      obtain ⟨gs, h1, h2, h3⟩ := h
      obtain ⟨-, -, -, h4⟩ := h1.able h2
      exact h4 none none
    rcases h.moves (cfg := cfg) (act := (i, {})) rfl hable with ⟨-, h4⟩ | ⟨h4, r, h5⟩
    · obtain ⟨gs, h1, -, -⟩ := h
      obtain ⟨gs', h1', -⟩ := h1.move (cfg := cfg) (i, {})
      exact ⟨1, gs', h4, h1'⟩
    · obtain ⟨n, gs, h6, h7⟩ := ih r h5
      exact ⟨n + 1, gs, h6, h7⟩

theorem run_go_other {cfg : PoolCfg} {i j : Nat} (hij : i ≠ j) (n : Nat) (s : PoolSys) :
    (PoolSys.run cfg s (go i n)).threads[j]? = s.threads[j]? := by
  induction n generalizing s with
  | zero => rfl
  | succ n ih => exact (ih (s.step cfg (i, {}))).trans (step_other s {} hij)

/-- A goroutine that is about to lock the free mutex gets it. -/
theorem takes_mutex {cfg : PoolCfg} {s : PoolSys} {gs : List Bool} (h : MutexOK s gs) {j : Nat}
    {q : Prog PSig PLoop} (hj : s.threads[j]? = some q) (hq : wantsMutex q = true)
    (hl : s.world.locked = false) :
    ∃ q', (s.step cfg (j, {})).threads[j]? = some q' ∧ wantsMutex q' = false := by
  obtain ⟨k, rfl⟩ := wantsMutex_iff hq
  have hlt : j < gs.length := by
    rw [h.len]; exact (List.getElem?_eq_some_iff.mp hj).1
  have hs := (h.safe _ _ _ hj (List.getElem?_eq_getElem hlt)).2 ()
  refine ⟨k (), ?_, ?_⟩
  · unfold PoolSys.step Loops.step
    rw [hj]
    simp only [pexec, hl]
    exact List.getElem?_set_self (List.getElem?_eq_some_iff.mp hj).1
  · cases hw : wantsMutex (k ()) with
    | false => rfl
    | true =>
      obtain ⟨k', hk'⟩ := wantsMutex_iff hw
      rw [hk'] at hs
      exact absurd hs.1 (by intro h; cases h)

/-- **C175**, what holds: while a goroutine tests a client, or waits for one to be returned, the calls of the
others can get on without it. -/
theorem C175_test_partial (cfg : PoolCfg) (threads : List PLoop) (hscan : ∀ b, .scan b ∉ threads)
    (acts : List (Nat × PEnv)) (i j : Nat) (o : POp) (k : POp.Ret o → Prog PSig PLoop)
    (q : Prog PSig PLoop) (hij : i ≠ j) (ho : (∃ c, o = .test c) ∨ o = .park ∨ o = .await)
    (hi : (PoolSys.run cfg (poolStart threads) acts).threads[i]? = some (.op o k))
    (hj : (PoolSys.run cfg (poolStart threads) acts).threads[j]? = some q) (hq : wantsMutex q = true) :
    ∃ (more : List (Nat × PEnv)) (q' : Prog PSig PLoop), (∀ act ∈ more, act.1 ≠ i) ∧
      (PoolSys.run cfg (poolStart threads) (acts ++ more)).threads[j]? = some q' ∧
      wantsMutex q' = false := by
  obtain ⟨gs, h, hh⟩ := holder_reach cfg threads hscan acts
  cases hl : (PoolSys.run cfg (poolStart threads) acts).world.locked with
  | false =>
    obtain ⟨q', h1, h2⟩ := takes_mutex (cfg := cfg) h hj hq hl
    refine ⟨[(j, {})], q', by simpa using Ne.symm hij, ?_, h2⟩
    rw [PoolSys.run, Loops.run, List.foldl_append]
    exact h1
  | true =>
    obtain ⟨m, p, hm, hp, -⟩ := C68_holder cfg threads hscan acts hl
    have hg := (hh m).mpr hm
    have hmi : m ≠ i := by
      rintro rfl
      have hpre : mutexPre o true := (h.safe _ _ _ hi hg).1
      rcases ho with ⟨c, rfl⟩ | rfl | rfl <;> cases hpre
    have hmj : m ≠ j := by
      rintro rfl
      obtain ⟨k', rfl⟩ := wantsMutex_iff hq
      have hpre : mutexPre .lock true := (h.safe _ _ _ hj hg).1
      cases hpre
    obtain ⟨n, gs', h1, h2⟩ := Holding.letsGo (cfg := cfg) ⟨gs, h, hg, hp⟩
    obtain ⟨q', h3, h4⟩ := takes_mutex (cfg := cfg) h2 ((run_go_other hmj n _).trans hj) hq h1
    refine ⟨go m n ++ [(j, ({} : PEnv))], q', ?_, ?_, h4⟩
    · intro act hact
      rcases List.mem_append.mp hact with hact | hact
      · rw [(List.mem_replicate.mp hact).2]
        exact hmi
      · rw [List.mem_singleton.mp hact]
        exact Ne.symm hij
    · rw [PoolSys.run, Loops.run, List.foldl_append, List.foldl_append]
      exact h3

namespace PoolDialExample

/-- Goroutine 0 has borrowed a client and is about to return it; goroutine 1 dials. -/
def dialActs : List (Nat × PEnv) := go 0 13 ++ go 1 7 ++ go 0 2 { cmd := .close 0 }

theorem states : ((careful ⟨2, 2⟩ 2 dialActs).threads.map fun p => (asksServer p, wantsMutex p)) =
      [(false, true), (true, false)] ∧
    (careful ⟨2, 2⟩ 2 dialActs).world.held = [] ∧ (careful ⟨2, 2⟩ 2 dialActs).world.lent = [0] ∧
    (careful ⟨2, 2⟩ 2 dialActs).world.locked = true := by
  decide +kernel

end PoolDialExample

/-- **C175 is refuted**: one goroutine dials, another one wants to return a client and cannot. -/
theorem C175_refuted : ¬ C175_claim := by
  intro h
  obtain ⟨more, q', h1, h2, h3⟩ := h ⟨2, 2⟩ [.user false, .user false] (by simp) PoolDialExample.dialActs 1 0 _ _
    (by decide) rfl rfl rfl rfl
  rw [C175_everybody_waits ⟨2, 2⟩ [.user false, .user false] (by simp) PoolDialExample.dialActs more 1 0 false _ _
    rfl rfl rfl h1] at h2
  cases h2
  exact absurd h3 (by decide)

/-- While goroutine 1 tests the only idle client, goroutine 0 locks the mutex and dials. -/
example :
    let acts := go 0 13 ++ go 0 2 { cmd := .close 0 } ++ go 0 5 ++ go 1 6 ++ go 0 2
    ((careful ⟨2, 2⟩ 2 acts).threads.map fun p => (asksServer p, wantsMutex p)) =
      [(false, true), (true, false)] ∧
    ((careful ⟨2, 2⟩ 2 (acts ++ go 0 5)).threads.map fun p => (asksServer p, wantsMutex p)) =
      [(true, false), (true, false)] := by
  decide +kernel

end Goe2ee
