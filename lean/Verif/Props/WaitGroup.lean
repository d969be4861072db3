import Verif.Proofs.WaitGroup

/-!
# C155: clients may connect while the server closes
-/

set_option autoImplicit false

namespace Goe2ee

/-- **C155**: whenever clients connect and leave, and whenever `Close` is called (once): no goroutine of the server
panics, and `Close` does not. -/
def C155_claim : Prop :=
  ∀ (listeners connections : Nat) (acts : List (Nat × Bool)) (m : String),
    .panic m ∉ ((WSys.start listeners connections).run acts).threads

namespace WaitGroupExample

/-- Goroutines: 0 listens, 1 and 2 are for connections, 3 calls `Close`.  A client connects; the listener waits for the
next; `Close` waits for the connection; the connection notices that the server is closed. -/
def closing : List (Nat × Bool) :=
  [(0, true), (0, true), (0, true), (0, true), (0, true), (1, true), (1, true), (0, true), (0, true), (0, true),
    (3, true), (3, true), (3, true), (3, true), (3, true), (1, true), (1, true)]

/-- The last connection ends: it sets the counter to zero. -/
def lastEnds : List (Nat × Bool) := [(1, true)]

/-- It resets the wait group and wakes the goroutine that waits. -/
def wakes : List (Nat × Bool) := [(1, true), (1, true), (1, true)]

/-- The listener gets the next client and counts it. -/
def connects : List (Nat × Bool) := [(0, true)]

/-- `Wait` goes on. -/
def goesOn : List (Nat × Bool) := [(3, true), (3, true)]

end WaitGroupExample

def wgPanics : WProg → Bool
  | .panic _ => true
  | _ => false

def wgLabel : WProg → Option WLoop
  | .ret l => some l
  | _ => none

open WaitGroupExample in
/-- **C155 is refuted**: a client connects while the last connection ends and `Close` waits.  The listener panics, and
nobody recovers: the process ends. -/
theorem C155_refuted : ¬ C155_claim := fun h =>
  h 1 2 (closing ++ lastEnds ++ connects) "sync: WaitGroup misuse: Add called concurrently with Wait"
    (List.mem_of_getElem? (i := 0) (by rfl))

open WaitGroupExample in
/-- **C155 is refuted** another way: `Close` itself panics, if the client connects after the last connection has ended,
before the goroutine that waits goes on. -/
theorem C155_close_panics : ∃ listeners connections acts m,
    ((WSys.start listeners connections).run acts).threads[listeners + connections]? = some (.panic m) ∧
    ∀ i < listeners + connections, ∀ m, ((WSys.start listeners connections).run acts).threads[i]? ≠ some (.panic m) := by
  refine ⟨1, 2, closing ++ lastEnds ++ wakes ++ connects ++ goesOn, "sync: WaitGroup is reused before previous Wait has returned",
    by rfl, fun i hi m => ?_⟩
  intro h
  have hp := congrArg (fun o : Option WProg => o.map wgPanics) h
  rcases i with _ | _ | _ | i
  · exact Bool.false_ne_true (Option.some.inj hp)
  · exact Bool.false_ne_true (Option.some.inj hp)
  · exact Bool.false_ne_true (Option.some.inj hp)
  · omega

/-- Is the next effect of this goroutine to count a connection (`s.wg.Add(1)`)? -/
def WSys.counting (s : WSys) (i : Nat) : Bool :=
  match s.threads[i]? with
  | some (.op o _) => o == .add 1
  | _ => false

/-- In this schedule every connection that is accepted is counted before `Close` is called. -/
def countedInTime : WSys → List (Nat × Bool) → Bool
  | _, [] => true
  | s, act :: acts => (!s.counting act.1 || !s.world.quit) && countedInTime (s.run [act]) acts

theorem wg_run {gs : List WPt} {w : WWorld} (h : WgInv gs w) (acts : List (Nat × Bool))
    (hc : countedInTime ⟨w, gs.map WPt.prog⟩ acts = true) :
    ∃ gs' w', WSys.run ⟨w, gs.map WPt.prog⟩ acts = ⟨w', gs'.map WPt.prog⟩ ∧ WgInv gs' w' ∧
      gs'.map WPt.role = gs.map WPt.role := by
  induction acts generalizing gs w with
  | nil => exact ⟨gs, w, rfl, h, rfl⟩
  | cons act acts ih =>
    rw [countedInTime, Bool.and_eq_true] at hc
    obtain ⟨hc1, hc2⟩ := hc
    obtain ⟨gs', w', h1, h2, h3⟩ := winv_step h act.1 act.2 (fun hg => by
      have : WSys.counting ⟨w, gs.map WPt.prog⟩ act.1 = true := by
        unfold WSys.counting
        simp only [List.getElem?_map, hg]
        rfl
      rw [this] at hc1
      simpa using hc1)
    have hs : WSys.run ⟨w, gs.map WPt.prog⟩ [act] = ⟨w', gs'.map WPt.prog⟩ := h1
    rw [hs] at hc2
    obtain ⟨gs'', w'', h4, h5, h6⟩ := ih h2 hc2
    refine ⟨gs'', w'', ?_, h5, h6.trans h3⟩
    show WSys.run (WSys.run ⟨w, gs.map WPt.prog⟩ [act]) acts = _
    rw [hs, h4]

/-- The program points at the start. -/
def wgStart (listeners connections : Nat) : List WPt :=
  List.replicate listeners .accTop ++ List.replicate connections .sleeping ++ [.idle]

theorem wgTotal_start (f : WPt → Nat) (h1 : f .accTop = 0) (h2 : f .sleeping = 0) (listeners connections : Nat) :
    wgTotal f (wgStart listeners connections) = f .idle := by
  unfold wgStart
  simp only [wgTotal, List.map_append, List.sum_append]
  simp [h1, h2]

theorem winv_start (listeners connections : Nat) : WgInv (wgStart listeners connections) {} := by
  have e := fun f h1 h2 => wgTotal_start f h1 h2 listeners connections
  refine ⟨?_, ?_, .inl (e _ rfl rfl), ?_, ?_, .inl (e _ rfl rfl), .inl ?_, fun old h => ?_⟩
  · rw [e _ rfl rfl]; rfl
  · rw [e _ rfl rfl]; decide
  · rw [e _ rfl rfl, e _ rfl rfl]; rfl
  · rw [e _ rfl rfl]; decide
  · rw [e _ rfl rfl, e _ rfl rfl]; rfl
  · exfalso
    simp [wgStart] at h

theorem wg_reach (listeners connections : Nat) (acts : List (Nat × Bool))
    (hc : countedInTime (WSys.start listeners connections) acts = true) :
    ∃ gs w, (WSys.start listeners connections).run acts = ⟨w, gs.map WPt.prog⟩ ∧ WgInv gs w ∧
      gs.map WPt.role = (wgStart listeners connections).map WPt.role := by
  have hs : WSys.start listeners connections = ⟨{}, (wgStart listeners connections).map WPt.prog⟩ := by
    simp [WSys.start, wgStart, WPt.prog]
  rw [hs] at hc ⊢
  exact wg_run (winv_start listeners connections) acts hc

/-- **C155**, what holds: nothing panics, in any schedule and with any number of listeners and connections, if every
accepted connection is counted before `Close` is called; in particular if no client connects after that. -/
theorem C155_no_panic_partial (listeners connections : Nat) (acts : List (Nat × Bool))
    (hc : countedInTime (WSys.start listeners connections) acts = true) (m : String) :
    .panic m ∉ ((WSys.start listeners connections).run acts).threads := by
  obtain ⟨gs, w, h, -, -⟩ := wg_reach listeners connections acts hc
  rw [h]
  intro hm
  obtain ⟨g, -, hg⟩ := List.mem_map.mp hm
  have hp := congrArg wgPanics hg
  cases g <;> exact Bool.false_ne_true hp

/-- **C155**, what holds: under the same condition, once `Close` has waited, no connection is being served or about to
be: each goroutine for a connection was never started, or has ended. -/
theorem C155_waited_partial (listeners connections : Nat) (acts : List (Nat × Bool))
    (hc : countedInTime (WSys.start listeners connections) acts = true)
    (hclosed : .ret .closed ∈ ((WSys.start listeners connections).run acts).threads) :
    let s := (WSys.start listeners connections).run acts
    s.world.pending = 0 ∧
    ∀ i, listeners ≤ i → i < listeners + connections → s.threads[i]? = some (.ret .sleeping) ∨
      s.threads[i]? = some (wgBody .sleeping) ∨ s.threads[i]? = some (.ret .ended) := by
  obtain ⟨gs, w, h, hinv, hrole⟩ := wg_reach listeners connections acts hc
  intro s
  have hs : s = ⟨w, gs.map WPt.prog⟩ := h
  rw [h] at hclosed
  obtain ⟨g, hg, hp⟩ := List.mem_map.mp hclosed
  have hg' : g = .closed := by
    have hp := congrArg wgLabel hp
    cases g <;> first | rfl | exact nomatch hp
  subst hg'
  obtain ⟨i0, hi0⟩ := List.getElem?_of_mem hg
  have hw : 1 ≤ wgTotal WPt.woken gs := wgTotal_le WPt.woken gs i0 .closed hi0
  obtain ⟨b1, b2, b3⟩ := wgTotal_bounds gs
  obtain ⟨hcounter, hone, hquit, hwaiters, hsingle, hzero, hover, hswap⟩ := hinv
  have hlive : wgTotal WPt.live gs = 0 ∧ w.pending = 0 ∧ wgTotal WPt.checking gs = 0 ∧ wgTotal WPt.tokens gs = 0 := by omega
  rw [hs]
  refine ⟨hlive.2.1, fun i h1 h2 => ?_⟩
  have hri : (gs.map WPt.role)[i]? = some 1 := by
    rw [hrole]
    unfold wgStart
    rw [List.map_append, List.map_append, List.map_replicate, List.map_replicate, List.append_assoc,
      List.getElem?_append_right (by simpa using h1), List.getElem?_append_left (by simp; omega), List.getElem?_replicate]
    rw [if_pos (by simp; omega)]
    rfl
  rw [List.getElem?_map] at hri
  cases hgi : gs[i]? with
  | none => rw [hgi] at hri; cases hri
  | some g =>
    rw [hgi] at hri
    have hr : g.role = 1 := by simpa using hri
    have l1 := wgTotal_le WPt.live gs i g hgi
    have l2 := wgTotal_le WPt.checking gs i g hgi
    have l3 := wgTotal_le WPt.tokens gs i g hgi
    rw [hlive.1] at l1
    rw [hlive.2.2.1] at l2
    rw [hlive.2.2.2] at l3
    show (gs.map WPt.prog)[i]? = _ ∨ (gs.map WPt.prog)[i]? = _ ∨ (gs.map WPt.prog)[i]? = _
    rw [List.getElem?_map, hgi]
    cases g <;> first
      | exact .inl rfl
      | exact .inr (.inl rfl)
      | exact .inr (.inr rfl)
      | (exfalso; simp [WPt.role] at hr; done)
      | (exfalso; revert l1; decide)
      | (exfalso; revert l2; decide)
      | (exfalso; revert l3; decide)

open WaitGroupExample in
/-- The connection is counted in time, and `Close` returns; with the next client it is not. -/
example :
    countedInTime (WSys.start 1 2) (closing ++ lastEnds ++ wakes ++ goesOn) = true ∧
    ((((WSys.start 1 2).run (closing ++ lastEnds ++ wakes ++ goesOn)).threads[3]?).bind wgLabel) = some .closed ∧
    countedInTime (WSys.start 1 2) (closing ++ lastEnds ++ connects) = false := by decide +kernel

end Goe2ee
