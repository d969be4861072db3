import Verif.Props.PoolClose
import Verif.Props.PoolHolder

/-!
# C76: closing the pool while other goroutines use it
-/

set_option autoImplicit false

namespace Goe2ee

/-- What `Close` of the pool does once it has tried to close the idle clients (client_pool.go:124-134). -/
def closeRest (e : Option Err) : Prog PSig PLoop :=
  match e with
  | some _ => .op .unlock fun _ => .ret .done
  | none =>
  .op .clearIdle fun _ =>
  .op .zeroNumber fun _ =>
  .op (.setSession none) fun _ =>
  .op .closeChan fun (ok : Bool) =>
  .op .unlock fun _ =>
  if ok then .ret .done else .panic "close of closed channel"

theorem poolClose_eq : poolClose = .op .lock fun _ => .op .listIdle fun (cs : List Nat) => (closeAll cs).bind closeRest :=
  rfl

/-- The connection of this client was closed. -/
def PoolSys.Shut (s : PoolSys) (c : Nat) : Prop := ∃ y, s.world.clients[c]? = some y ∧ y.isOpen = false

theorem pexec_client (e : PEnv) (i : Nat) (o : POp) (w w' : PWorld) (r : POp.Ret o) (h : pexec e i o w = some (r, w'))
    (c : Nat) (y : PClient) (hy : w.clients[c]? = some y) :
    ∃ y', w'.clients[c]? = some y' ∧ (y.isOpen = false → y'.isOpen = false) := by
  have hlt := (List.getElem?_eq_some_iff.mp hy).1
  cases o with
  | dial handshake =>
    simp only [pexec] at h
    split at h
    · cases h; exact ⟨y, hy, id⟩
    · cases h
      cases handshake
      · exact ⟨y, (List.getElem?_append_left hlt).trans hy, id⟩
      · exact ⟨y, (List.getElem?_append_left hlt).trans hy, id⟩
  | setSessionOf d s =>
    simp only [pexec] at h
    cases h
    refine ⟨if d = c then { y with session := s } else y, ?_, ?_⟩
    · show (w.clients.modify d _)[c]? = _
      rw [List.getElem?_modify, hy]
      split <;> rfl
    · split <;> exact id
  | closeConn d =>
    simp only [pexec] at h
    cases h
    refine ⟨if d = c then { y with isOpen := false } else y, ?_, ?_⟩
    · show (w.clients.modify d _)[c]? = _
      rw [List.getElem?_modify, hy]
      split <;> rfl
    · split
      · exact fun _ => rfl
      · exact id
  | _ =>
    simp only [pexec] at h
    repeat' split at h
    all_goals first
      | (cases h; exact ⟨y, hy, id⟩)
      | (cases h; refine ⟨y, ?_, id⟩; split <;> exact hy)
      | cases h

theorem step_client (cfg : PoolCfg) (s : PoolSys) (act : Nat × PEnv) (c : Nat) (y : PClient)
    (hy : s.world.clients[c]? = some y) :
    ∃ y', (s.step cfg act).world.clients[c]? = some y' ∧ (y.isOpen = false → y'.isOpen = false) := by
  unfold PoolSys.step Loops.step
  split
  · exact ⟨y, hy, id⟩
  · split
    · rename_i r hr
      exact pexec_client _ _ _ _ r.2 r.1 hr c y hy
    · exact ⟨y, hy, id⟩
  · exact ⟨y, hy, id⟩

theorem PoolSys.Shut.step {s : PoolSys} {c : Nat} (h : s.Shut c) (cfg : PoolCfg) (act : Nat × PEnv) :
    (s.step cfg act).Shut c := by
  obtain ⟨y, h1, h2⟩ := h
  obtain ⟨y', h3, h4⟩ := step_client cfg s act c y h1
  exact ⟨y', h3, h4 h2⟩

/-- Nobody else touches the list of the idle clients while a goroutine holds the mutex. -/
theorem Holding.idle {cfg : PoolCfg} {s : PoolSys} {i : Nat} {p : Prog PSig PLoop} (h : Holding s i p)
    {act : Nat × PEnv} (hne : act.1 ≠ i) : (s.step cfg act).world.idle = s.world.idle := by
  obtain ⟨gs, h1, h2, -⟩ := h
  obtain ⟨gs', -, hc⟩ := h1.move (cfg := cfg) act
  rcases hc with ⟨-, hw⟩ | ⟨o, k, r, -, hx, -, g, hg, hpre, -⟩
  · rw [hw]
  · cases g with
    | true => exact absurd (h1.unique hg h2) hne
    | false =>
      revert hx
      generalize (s.step cfg act).world = w'
      intro hx
      cases o with
      | lock => simp only [pexec] at hx; split at hx <;> cases hx; rfl
      | test d => simp only [pexec] at hx; cases hx; rfl
      | park => simp only [pexec] at hx; cases hx; split <;> rfl
      | await => simp only [pexec] at hx; split at hx <;> cases hx; rfl
      | command b =>
        simp only [pexec] at hx
        repeat' split at hx
        all_goals first
          | (cases hx; rfl)
          | (cases hx; split <;> rfl)
          | cases hx
      | lend r' => simp only [pexec] at hx; split at hx <;> cases hx <;> rfl
      | _ => cases hpre

/-- `Close` of the pool is going to close the connection of this client, or it was closed. -/
def Condemned (s : PoolSys) (i c : Nat) : Prop :=
  (Holding s i (.op .listIdle fun (cs : List Nat) => (closeAll cs).bind closeRest) ∧ c ∈ s.world.idle ∧
    ∃ y, s.world.clients[c]? = some y) ∨
  (∃ rest, s.threads[i]? = some ((closeAll rest).bind closeRest) ∧ c ∈ rest ∧ ∃ y, s.world.clients[c]? = some y) ∨
  s.Shut c

theorem Condemned.step {s : PoolSys} {i c : Nat} (h : Condemned s i c) (cfg : PoolCfg) (act : Nat × PEnv)
    (hact : act.1 = i → act.2.close = none) : Condemned (s.step cfg act) i c := by
  have stays : (∃ y, s.world.clients[c]? = some y) → ∃ y, (s.step cfg act).world.clients[c]? = some y := by
    rintro ⟨y, hy⟩
    obtain ⟨y', hy', -⟩ := step_client cfg s act c y hy
    exact ⟨y', hy'⟩
  rcases h with ⟨h1, h2, h3⟩ | ⟨rest, h1, h2, h3⟩ | h
  · by_cases hne : act.1 = i
    · refine .inr (.inl ⟨s.world.idle, ?_, h2, stays h3⟩)
      obtain ⟨gs, -, -, ht⟩ := h1
      subst hne
      unfold PoolSys.step Loops.step
      rw [ht]
      exact List.getElem?_set_self (List.getElem?_eq_some_iff.mp ht).1
    · exact .inl ⟨h1.other hne, by rw [h1.idle hne]; exact h2, stays h3⟩
  · by_cases hne : act.1 = i
    · have hclose := hact hne
      subst hne
      cases rest with
      | nil => cases h2
      | cons d rest =>
        obtain ⟨y, hy⟩ := h3
        have hstep : (s.step cfg act).threads[act.1]? = some ((closeAll rest).bind closeRest) ∧
            (s.step cfg act).world = { s.world with clients := s.world.clients.modify d ({ · with isOpen := false }) } := by
          have ht : s.threads[act.1]? = some (.op (.closeConn d) fun (e : Option Err) =>
            (match e with | some e => .ret (some e) | none => closeAll rest : Prog PSig (Option Err)).bind closeRest) := h1
          unfold PoolSys.step Loops.step
          rw [ht]
          simp only [pexec, hclose]
          exact ⟨List.getElem?_set_self (List.getElem?_eq_some_iff.mp ht).1, trivial⟩
        by_cases hd : d = c
        · subst hd
          refine .inr (.inr ⟨{ y with isOpen := false }, ?_, rfl⟩)
          rw [hstep.2]
          show (s.world.clients.modify d _)[d]? = _
          rw [List.getElem?_modify, hy]
          simp
        · refine .inr (.inl ⟨rest, hstep.1, ?_, stays ⟨y, hy⟩⟩)
          rcases List.mem_cons.mp h2 with rfl | h2
          · exact absurd rfl hd
          · exact h2
    · refine .inr (.inl ⟨rest, ?_, h2, stays h3⟩)
      rw [PoolSys.step, step_other s act.2 hne]
      exact h1
  · exact .inr (.inr (h.step cfg act))

theorem Condemned.run {i c : Nat} (cfg : PoolCfg) (acts : List (Nat × PEnv))
    (hacts : ∀ act ∈ acts, act.1 = i → act.2.close = none) {s : PoolSys} (h : Condemned s i c) :
    Condemned (s.run cfg acts) i c := by
  induction acts generalizing s with
  | nil => exact h
  | cons act acts ih =>
    exact ih (fun a ha => hacts a (List.mem_cons_of_mem _ ha)) (h.step cfg act (hacts act List.mem_cons_self))

/-- **C76**, what holds while other goroutines use the pool: `Close` of the pool gets the mutex; then any goroutines move
in any order; when `Close` has returned and none of the connections it closed gave an error, the connection of every
client that was idle when it got the mutex is closed. -/
theorem C76_busy_partial (cfg : PoolCfg) (threads : List PLoop) (hscan : ∀ b, .scan b ∉ threads)
    (before after : List (Nat × PEnv)) (i : Nat) (e : PEnv) (s s' : PoolSys)
    (hs : s = (poolStart threads).run cfg before) (hs' : s' = s.run cfg ((i, e) :: after))
    (hi : s.threads[i]? = some poolClose) (hfree : s.world.locked = false)
    (hclose : ∀ act ∈ after, act.1 = i → act.2.close = none) (hdone : s'.threads[i]? = some (.ret .done)) (c : Nat)
    (x : PClient) (hc : c ∈ s.world.idle) (hx : s.world.clients[c]? = some x) :
    ∃ y, s'.world.clients[c]? = some y ∧ y.isOpen = false := by
  obtain ⟨gs, hgs⟩ := mutex_reach cfg threads hscan before
  rw [← hs] at hgs
  have hworld : (s.step cfg (i, e)).world = { s.world with locked := true } ∧ (s.step cfg (i, e)).threads[i]? =
      some (.op .listIdle fun (cs : List Nat) => (closeAll cs).bind closeRest) := by
    rw [poolClose_eq] at hi
    unfold PoolSys.step Loops.step
    rw [hi]
    simp only [pexec, hfree]
    exact ⟨rfl, List.getElem?_set_self (List.getElem?_eq_some_iff.mp hi).1⟩
  have hhold : Holding (s.step cfg (i, e)) i (.op .listIdle fun (cs : List Nat) => (closeAll cs).bind closeRest) := by
    obtain ⟨gs', h1, hm⟩ := MutexOK.move (cfg := cfg) hgs (i, e)
    refine ⟨gs', h1, ?_, hworld.2⟩
    rcases hm with ⟨-, hw⟩ | ⟨o, k, r, ht, -, -, g, hg, -, rfl⟩
    · rw [hworld.1] at hw
      have := congrArg PWorld.locked hw
      rw [hfree] at this
      cases this
    · rw [show s.threads[(i, e).1]? = some poolClose from hi, poolClose_eq] at ht
      cases ht
      exact List.getElem?_set_self (List.getElem?_eq_some_iff.mp hg).1
  have hfinal : Condemned s' i c := by
    rw [hs']
    refine Condemned.run cfg after hclose (.inl ⟨hhold, ?_, x, ?_⟩)
    · rw [hworld.1]; exact hc
    · rw [hworld.1]; exact hx
  rcases hfinal with ⟨⟨-, -, -, h⟩, -⟩ | ⟨rest, h, hr, -⟩ | h
  · rw [hdone] at h; cases h
  · rw [hdone] at h
    cases rest with
    | nil => cases hr
    | cons d rest => cases h
  · exact h

/-- Two clients are idle; `Close` gets the mutex, a user tries to borrow a client between each two of its steps. -/
example :
    let s := (poolStart [.closer, .user false, .user false]).run ⟨2, 2⟩ (closeFails ++ go 0 1)
    let after : List (Nat × PEnv) := (List.replicate 9 [(0, ({} : PEnv)), (1, {})]).flatten
    let s' := s.run ⟨2, 2⟩ ((0, ({} : PEnv)) :: after)
    s.world.idle = [0, 1] ∧ s.world.locked = false ∧
    s'.threads.map (fun p => match p with | .ret .done => true | _ => false) = [true, false, false] ∧
    s.world.clients.map (·.isOpen) = [true, true] ∧ (s'.world.clients.map (·.isOpen)).take 2 = [false, false] := by
  decide +kernel

end Goe2ee
