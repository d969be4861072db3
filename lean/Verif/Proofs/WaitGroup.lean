import Verif.Model.WaitGroup

/-!
# The wait group of the server: program points and invariant
-/

set_option autoImplicit false

namespace Goe2ee

/-- Program points. -/
inductive WPt where
  | accTop | accQuit | accAccept | accAdd | accSpawn | accEnd
  | sleeping | start | servTop | servQuit | serv | done | doneLoad | doneReset | doneRelease | connEnd
  | idle | closing | waitTop | waitLoad | waitSwap (old : Int × Nat) | waitSema | waitCheck | closed

/-- The program from there on. -/
def WPt.prog : WPt → WProg
  | .accTop => .ret .accepting
  | .accQuit => wgBody .accepting
  | .accAccept => .op .accept fun (ok : Bool) =>
    if !ok then .ret .accepting else wgAddThen 1 (.op .spawn fun _ => .ret .accepting) .accepting
  | .accAdd => wgAddThen 1 (.op .spawn fun _ => .ret .accepting) .accepting
  | .accSpawn => .op .spawn fun _ => .ret .accepting
  | .accEnd => .ret .ended
  | .sleeping => .ret .sleeping
  | .start => wgBody .sleeping
  | .servTop => .ret .serving
  | .servQuit => wgBody .serving
  | .serv => .op .serve fun (more : Bool) => if more then .ret .serving else wgAddThen (-1) (.ret .ended) .ended
  | .done => wgAddThen (-1) (.ret .ended) .ended
  | .doneLoad => .op .load fun (now : Int × Nat) =>
    if now ≠ (0, 1) then .panic "sync: WaitGroup misuse: Add called concurrently with Wait"
    else .op .reset fun _ => releaseAll .ended 1
  | .doneReset => .op .reset fun _ => releaseAll .ended 1
  | .doneRelease => .op .release fun _ => .ret .ended
  | .connEnd => .ret .ended
  | .idle => .ret .open
  | .closing => wgBody .open
  | .waitTop => .ret .waiting
  | .waitLoad => wgBody .waiting
  | .waitSwap old => .op (.addWaiter old) fun (ok : Bool) =>
    if !ok then .ret .waiting
    else
    .op .acquire fun _ =>
    .op .load fun (now : Int × Nat) =>
    if now ≠ (0, 0) then .panic "sync: WaitGroup is reused before previous Wait has returned"
    else .ret .closed
  | .waitSema => .op .acquire fun _ =>
    .op .load fun (now : Int × Nat) =>
    if now ≠ (0, 0) then .panic "sync: WaitGroup is reused before previous Wait has returned"
    else .ret .closed
  | .waitCheck => .op .load fun (now : Int × Nat) =>
    if now ≠ (0, 0) then .panic "sync: WaitGroup is reused before previous Wait has returned"
    else .ret .closed
  | .closed => .ret .closed

/-- Which goroutine: a listener, one for a connection, the one that closes. -/
def WPt.role : WPt → Nat
  | .accTop | .accQuit | .accAccept | .accAdd | .accSpawn | .accEnd => 0
  | .sleeping | .start | .servTop | .servQuit | .serv | .done | .doneLoad | .doneReset | .doneRelease | .connEnd => 1
  | _ => 2

/-- Counted in the wait group. -/
def WPt.live : WPt → Nat
  | .accSpawn | .servTop | .servQuit | .serv | .done => 1
  | _ => 0

def WPt.closer : WPt → Nat
  | .idle | .closing | .waitTop | .waitLoad | .waitSwap _ | .waitSema | .waitCheck | .closed => 1
  | _ => 0

/-- Has set the counter to zero while somebody waits. -/
def WPt.checking : WPt → Nat
  | .doneLoad | .doneReset => 1
  | _ => 0

def WPt.tokens : WPt → Nat
  | .doneRelease => 1
  | _ => 0

def WPt.sem : WPt → Nat
  | .waitSema => 1
  | _ => 0

def WPt.woken : WPt → Nat
  | .waitCheck | .closed => 1
  | _ => 0

/-- Only after `close(s.quit)`. -/
def WPt.late : WPt → Nat
  | .doneLoad | .doneReset | .doneRelease | .waitTop | .waitLoad | .waitSwap _ | .waitSema | .waitCheck | .closed => 1
  | _ => 0

/-- The sum over all goroutines. -/
def wgTotal (f : WPt → Nat) (gs : List WPt) : Nat := (gs.map f).sum

theorem wgTotal_set (f : WPt → Nat) (gs : List WPt) (i : Nat) (g g' : WPt) (h : gs[i]? = some g) :
    wgTotal f (gs.set i g') + f g = wgTotal f gs + f g' := by
  induction gs generalizing i with
  | nil => cases h
  | cons x gs ih =>
    cases i with
    | zero =>
      cases h
      simp only [wgTotal, List.set_cons_zero, List.map_cons, List.sum_cons]
      omega
    | succ i =>
      have := ih i h
      simp only [wgTotal, List.set_cons_succ, List.map_cons, List.sum_cons] at this ⊢
      omega

theorem wgTotal_le (f : WPt → Nat) (gs : List WPt) (i : Nat) (g : WPt) (h : gs[i]? = some g) : f g ≤ wgTotal f gs := by
  induction gs generalizing i with
  | nil => cases h
  | cons x gs ih =>
    cases i with
    | zero => cases h; simp only [wgTotal, List.map_cons, List.sum_cons]; omega
    | succ i =>
      have := ih i h
      simp only [wgTotal, List.map_cons, List.sum_cons] at this ⊢
      omega

theorem wgTotal_mono (f g : WPt → Nat) (hfg : ∀ p, f p ≤ g p) (gs : List WPt) : wgTotal f gs ≤ wgTotal g gs := by
  induction gs with
  | nil => exact Nat.le_refl 0
  | cons x gs ih =>
    have := hfg x
    simp only [wgTotal, List.map_cons, List.sum_cons] at ih ⊢
    omega

theorem wgTotal_add (f g : WPt → Nat) (gs : List WPt) : wgTotal (fun p => f p + g p) gs = wgTotal f gs + wgTotal g gs := by
  induction gs with
  | nil => rfl
  | cons x gs ih =>
    simp only [wgTotal, List.map_cons, List.sum_cons] at ih ⊢
    omega

/-- The invariant. -/
structure WgInv (gs : List WPt) (w : WWorld) : Prop where
  counter : w.state.1 = ((wgTotal WPt.live gs + w.pending : Nat) : Int)
  one : wgTotal WPt.closer gs ≤ 1
  quit : wgTotal WPt.late gs = 0 ∨ w.quit.toNat = 1
  waiters : wgTotal WPt.sem gs = w.state.2 + wgTotal WPt.tokens gs + w.sema
  single : wgTotal WPt.checking gs ≤ 1
  zero : wgTotal WPt.checking gs = 0 ∨ w.state.1 = 0 ∧ w.state.2 = 1
  over : wgTotal WPt.tokens gs + w.sema + wgTotal WPt.woken gs = 0 ∨ w.state.1 = 0
  swap : ∀ old, WPt.waitSwap old ∈ gs → old.1 ≠ 0

theorem wgTotal_bounds (gs : List WPt) :
    wgTotal WPt.sem gs + wgTotal WPt.woken gs ≤ wgTotal WPt.closer gs ∧ wgTotal WPt.sem gs ≤ wgTotal WPt.late gs ∧
    wgTotal WPt.checking gs + wgTotal WPt.tokens gs + wgTotal WPt.woken gs ≤ wgTotal WPt.late gs := by
  refine ⟨?_, ?_, ?_⟩
  · rw [← wgTotal_add]
    exact wgTotal_mono _ _ (fun p => by cases p <;> simp [WPt.sem, WPt.woken, WPt.closer, WPt.late, WPt.checking, WPt.tokens]) gs
  · exact wgTotal_mono _ _ (fun p => by cases p <;> simp [WPt.sem, WPt.woken, WPt.closer, WPt.late, WPt.checking, WPt.tokens]) gs
  · rw [← wgTotal_add, ← wgTotal_add]
    exact wgTotal_mono _ _ (fun p => by cases p <;> simp [WPt.sem, WPt.woken, WPt.closer, WPt.late, WPt.checking, WPt.tokens]) gs

/-- What the step of one goroutine does to the sums. -/
theorem wgTotal_facts {gs : List WPt} {i : Nat} {g : WPt} (hg : gs[i]? = some g) (g' : WPt) :
    (wgTotal WPt.live (gs.set i g') + g.live = wgTotal WPt.live gs + g'.live ∧ g.live ≤ wgTotal WPt.live gs) ∧
    (wgTotal WPt.closer (gs.set i g') + g.closer = wgTotal WPt.closer gs + g'.closer ∧ g.closer ≤ wgTotal WPt.closer gs) ∧
    (wgTotal WPt.checking (gs.set i g') + g.checking = wgTotal WPt.checking gs + g'.checking ∧
      g.checking ≤ wgTotal WPt.checking gs) ∧
    (wgTotal WPt.tokens (gs.set i g') + g.tokens = wgTotal WPt.tokens gs + g'.tokens ∧ g.tokens ≤ wgTotal WPt.tokens gs) ∧
    (wgTotal WPt.sem (gs.set i g') + g.sem = wgTotal WPt.sem gs + g'.sem ∧ g.sem ≤ wgTotal WPt.sem gs) ∧
    (wgTotal WPt.woken (gs.set i g') + g.woken = wgTotal WPt.woken gs + g'.woken ∧ g.woken ≤ wgTotal WPt.woken gs) ∧
    (wgTotal WPt.late (gs.set i g') + g.late = wgTotal WPt.late gs + g'.late ∧ g.late ≤ wgTotal WPt.late gs) ∧
    (wgTotal WPt.sem gs + wgTotal WPt.woken gs ≤ wgTotal WPt.closer gs ∧ wgTotal WPt.sem gs ≤ wgTotal WPt.late gs ∧
    wgTotal WPt.checking gs + wgTotal WPt.tokens gs + wgTotal WPt.woken gs ≤ wgTotal WPt.late gs) ∧
    (∀ old, WPt.waitSwap old ∈ gs.set i g' → WPt.waitSwap old ∈ gs ∨ WPt.waitSwap old = g') :=
  ⟨⟨wgTotal_set _ gs i g g' hg, wgTotal_le _ gs i g hg⟩, ⟨wgTotal_set _ gs i g g' hg, wgTotal_le _ gs i g hg⟩,
    ⟨wgTotal_set _ gs i g g' hg, wgTotal_le _ gs i g hg⟩, ⟨wgTotal_set _ gs i g g' hg, wgTotal_le _ gs i g hg⟩,
    ⟨wgTotal_set _ gs i g g' hg, wgTotal_le _ gs i g hg⟩, ⟨wgTotal_set _ gs i g g' hg, wgTotal_le _ gs i g hg⟩,
    ⟨wgTotal_set _ gs i g g' hg, wgTotal_le _ gs i g hg⟩, wgTotal_bounds gs,
    fun _ h => List.mem_or_eq_of_mem_set h⟩

theorem wg_move {gs : List WPt} {i : Nat} {g : WPt} {w w' : WWorld} {choice : Bool} {o : WOp} {k : o.Ret → WProg}
    {r : o.Ret} (g' : WPt) (hg : gs[i]? = some g) (hp : g.prog = .op o k) (he : wgExec choice i o w = some (r, w'))
    (hk : k r = g'.prog) :
    Loops.step wgBody wgExec (⟨w, gs.map WPt.prog⟩ : WSys) (i, choice) = ⟨w', (gs.set i g').map WPt.prog⟩ := by
  have ht : (gs.map WPt.prog)[i]? = some (.op o k) := by rw [List.getElem?_map, hg, ← hp]; rfl
  unfold Loops.step
  simp only [ht, he, List.map_set, hk]

theorem wg_round {gs : List WPt} {i : Nat} {g : WPt} {w : WWorld} {choice : Bool} {l : WLoop} (g' : WPt)
    (hg : gs[i]? = some g) (hp : g.prog = .ret l) (hk : wgBody l = g'.prog) :
    Loops.step wgBody wgExec (⟨w, gs.map WPt.prog⟩ : WSys) (i, choice) = ⟨w, (gs.set i g').map WPt.prog⟩ := by
  have ht : (gs.map WPt.prog)[i]? = some (.ret l) := by rw [List.getElem?_map, hg, ← hp]; rfl
  unfold Loops.step
  simp only [ht, List.map_set, hk]

local macro "wsolve" : tactic => `(tactic| (
  simp only [WPt.live, WPt.closer, WPt.checking, WPt.tokens, WPt.sem, WPt.woken, WPt.late, Bool.toNat_true, Bool.toNat_false, or_true, true_or, and_true, true_and] at *
  omega))

/-- One step, if connections are counted only before `close(s.quit)`. -/
theorem winv_step {gs : List WPt} {w : WWorld} (h : WgInv gs w) (i : Nat) (choice : Bool)
    (hadd : gs[i]? = some .accAdd → w.quit = false) :
    ∃ gs' w', Loops.step wgBody wgExec (⟨w, gs.map WPt.prog⟩ : WSys) (i, choice) = ⟨w', gs'.map WPt.prog⟩ ∧
      WgInv gs' w' ∧ gs'.map WPt.role = gs.map WPt.role := by
  cases hg : gs[i]? with
  | none =>
    refine ⟨gs, w, ?_, h, rfl⟩
    have : (gs.map WPt.prog)[i]? = none := by rw [List.getElem?_map, hg]; rfl
    unfold Loops.step
    simp only [this]
  | some g =>
  have hrole : ∀ g' : WPt, g'.role = g.role → (gs.set i g').map WPt.role = gs.map WPt.role := by
    intro g' hr
    rw [List.map_set, hr]
    refine List.ext_getElem? fun j => ?_
    rw [List.getElem?_set, List.getElem?_map]
    split
    · rename_i hj
      subst hj
      split
      · rw [hg]; rfl
      · rename_i hlt
        rw [List.length_map] at hlt
        rw [List.getElem?_eq_none (by omega)]; rfl
    · rfl
  obtain ⟨hcounter, hone, hquit, hwaiters, hsingle, hzero, hover, hswap⟩ := h
  obtain ⟨quit, ⟨v, n⟩, sema, pending⟩ := w
  have close : ∀ (g' : WPt) (w' : WWorld), (∀ old, WPt.waitSwap old = g' → old.1 ≠ 0) →
      (WgInv (gs.set i g') w' ↔ (
        w'.state.1 = ((wgTotal WPt.live (gs.set i g') + w'.pending : Nat) : Int) ∧
        wgTotal WPt.closer (gs.set i g') ≤ 1 ∧
        (wgTotal WPt.late (gs.set i g') = 0 ∨ w'.quit.toNat = 1) ∧
        wgTotal WPt.sem (gs.set i g') = w'.state.2 + wgTotal WPt.tokens (gs.set i g') + w'.sema ∧
        wgTotal WPt.checking (gs.set i g') ≤ 1 ∧
        (wgTotal WPt.checking (gs.set i g') = 0 ∨ w'.state.1 = 0 ∧ w'.state.2 = 1) ∧
        (wgTotal WPt.tokens (gs.set i g') + w'.sema + wgTotal WPt.woken (gs.set i g') = 0 ∨ w'.state.1 = 0))) := by
    intro g' w' hs
    refine ⟨fun h => ⟨h.1, h.2, h.3, h.4, h.5, h.6, h.7⟩, fun h => ⟨h.1, h.2.1, h.2.2.1, h.2.2.2.1, h.2.2.2.2.1, h.2.2.2.2.2.1,
      h.2.2.2.2.2.2, fun old hm => ?_⟩⟩
    rcases List.mem_or_eq_of_mem_set hm with hm | hm
    · exact hswap old hm
    · exact hs old hm
  cases g with
  | accTop =>
    refine ⟨_, _, wg_round .accQuit hg rfl rfl, (close _ _ (by intro _ h; cases h)).mpr ?_, hrole _ rfl⟩
    have facts := wgTotal_facts hg .accQuit
    wsolve
  | accQuit =>
    cases quit with
    | true =>
      refine ⟨_, _, wg_move .accEnd hg rfl rfl rfl, (close _ _ (by intro _ h; cases h)).mpr ?_, hrole _ rfl⟩
      have facts := wgTotal_facts hg .accEnd
      wsolve
    | false =>
      refine ⟨_, _, wg_move .accAccept hg rfl rfl rfl, (close _ _ (by intro _ h; cases h)).mpr ?_, hrole _ rfl⟩
      have facts := wgTotal_facts hg .accAccept
      wsolve
  | accAccept =>
    cases choice with
    | false =>
      refine ⟨_, _, wg_move .accTop hg rfl rfl rfl, (close _ _ (by intro _ h; cases h)).mpr ?_, hrole _ rfl⟩
      have facts := wgTotal_facts hg .accTop
      wsolve
    | true =>
      refine ⟨_, _, wg_move .accAdd hg rfl rfl rfl, (close _ _ (by intro _ h; cases h)).mpr ?_, hrole _ rfl⟩
      have facts := wgTotal_facts hg .accAdd
      wsolve
  | accAdd =>
    have hq : quit = false := hadd hg
    subst hq
    have facts := wgTotal_facts hg .accSpawn
    simp only [WPt.live, WPt.closer, WPt.checking, WPt.tokens, WPt.sem, WPt.woken, WPt.late, Bool.toNat_false] at facts hquit hcounter hwaiters hzero hover
    have hn : n = 0 := by omega
    subst hn
    refine ⟨_, _, wg_move .accSpawn hg rfl rfl ?_, (close _ _ (by intro _ h; cases h)).mpr ?_, hrole _ rfl⟩
    · dsimp only
      rw [if_neg (by omega), if_neg (by simp), if_pos (.inr rfl)]
      rfl
    · wsolve
  | accSpawn =>
    refine ⟨_, _, wg_move .accTop hg rfl rfl rfl, (close _ _ (by intro _ h; cases h)).mpr ?_, hrole _ rfl⟩
    have facts := wgTotal_facts hg .accTop
    wsolve
  | accEnd =>
    refine ⟨_, _, wg_round .accEnd hg rfl rfl, (close _ _ (by intro _ h; cases h)).mpr ?_, hrole _ rfl⟩
    have facts := wgTotal_facts hg .accEnd
    wsolve
  | sleeping =>
    refine ⟨_, _, wg_round .start hg rfl rfl, (close _ _ (by intro _ h; cases h)).mpr ?_, hrole _ rfl⟩
    have facts := wgTotal_facts hg .start
    wsolve
  | start =>
    by_cases hp : pending = 0
    · subst hp
      refine ⟨gs, _, ?_, ⟨hcounter, hone, hquit, hwaiters, hsingle, hzero, hover, hswap⟩, rfl⟩
      have ht : (gs.map WPt.prog)[i]? = some WPt.start.prog := by rw [List.getElem?_map, hg]; rfl
      unfold Loops.step
      simp only [ht]
      rfl
    · refine ⟨_, _, wg_move .servTop hg rfl (if_neg hp) rfl, (close _ _ (by intro _ h; cases h)).mpr ?_, hrole _ rfl⟩
      have facts := wgTotal_facts hg .servTop
      wsolve
  | servTop =>
    refine ⟨_, _, wg_round .servQuit hg rfl rfl, (close _ _ (by intro _ h; cases h)).mpr ?_, hrole _ rfl⟩
    have facts := wgTotal_facts hg .servQuit
    wsolve
  | servQuit =>
    cases quit with
    | true =>
      refine ⟨_, _, wg_move .done hg rfl rfl rfl, (close _ _ (by intro _ h; cases h)).mpr ?_, hrole _ rfl⟩
      have facts := wgTotal_facts hg .done
      wsolve
    | false =>
      refine ⟨_, _, wg_move .serv hg rfl rfl rfl, (close _ _ (by intro _ h; cases h)).mpr ?_, hrole _ rfl⟩
      have facts := wgTotal_facts hg .serv
      wsolve
  | serv =>
    cases choice with
    | false =>
      refine ⟨_, _, wg_move .done hg rfl rfl rfl, (close _ _ (by intro _ h; cases h)).mpr ?_, hrole _ rfl⟩
      have facts := wgTotal_facts hg .done
      wsolve
    | true =>
      refine ⟨_, _, wg_move .servTop hg rfl rfl rfl, (close _ _ (by intro _ h; cases h)).mpr ?_, hrole _ rfl⟩
      have facts := wgTotal_facts hg .servTop
      wsolve
  | done =>
    have facts := wgTotal_facts hg .connEnd
    have facts' := wgTotal_facts hg .doneLoad
    simp only [WPt.live, WPt.closer, WPt.checking, WPt.tokens, WPt.sem, WPt.woken, WPt.late] at facts facts'
    dsimp only at hcounter hwaiters hzero hover hquit
    by_cases hend : 0 < v + -1 ∨ n = 0
    · refine ⟨_, _, wg_move .connEnd hg rfl rfl ?_, (close _ _ (by intro _ h; cases h)).mpr ?_, hrole _ rfl⟩
      · dsimp only
        rw [if_neg (by omega), if_neg (by simp), if_pos hend]
        rfl
      · wsolve
    · have hv : v = 1 := by omega
      have hn : n = 1 := by omega
      subst hv hn
      refine ⟨_, _, wg_move .doneLoad hg rfl rfl rfl, (close _ _ (by intro _ h; cases h)).mpr ?_, hrole _ rfl⟩
      wsolve
  | doneLoad =>
    have facts := wgTotal_facts hg .doneReset
    simp only [WPt.live, WPt.closer, WPt.checking, WPt.tokens, WPt.sem, WPt.woken, WPt.late] at facts
    dsimp only at hzero
    have hv : v = 0 := by omega
    have hn : n = 1 := by omega
    subst hv hn
    refine ⟨_, _, wg_move .doneReset hg rfl rfl rfl, (close _ _ (by intro _ h; cases h)).mpr ?_, hrole _ rfl⟩
    wsolve
  | doneReset =>
    refine ⟨_, _, wg_move .doneRelease hg rfl rfl rfl, (close _ _ (by intro _ h; cases h)).mpr ?_, hrole _ rfl⟩
    have facts := wgTotal_facts hg .doneRelease
    wsolve
  | doneRelease =>
    refine ⟨_, _, wg_move .connEnd hg rfl rfl rfl, (close _ _ (by intro _ h; cases h)).mpr ?_, hrole _ rfl⟩
    have facts := wgTotal_facts hg .connEnd
    wsolve
  | connEnd =>
    refine ⟨_, _, wg_round .connEnd hg rfl rfl, (close _ _ (by intro _ h; cases h)).mpr ?_, hrole _ rfl⟩
    have facts := wgTotal_facts hg .connEnd
    wsolve
  | idle =>
    refine ⟨_, _, wg_round .closing hg rfl rfl, (close _ _ (by intro _ h; cases h)).mpr ?_, hrole _ rfl⟩
    have facts := wgTotal_facts hg .closing
    wsolve
  | closing =>
    refine ⟨_, _, wg_move .waitTop hg rfl rfl rfl, (close _ _ (by intro _ h; cases h)).mpr ?_, hrole _ rfl⟩
    have facts := wgTotal_facts hg .waitTop
    wsolve
  | waitTop =>
    refine ⟨_, _, wg_round .waitLoad hg rfl rfl, (close _ _ (by intro _ h; cases h)).mpr ?_, hrole _ rfl⟩
    have facts := wgTotal_facts hg .waitLoad
    wsolve
  | waitLoad =>
    by_cases hv : v = 0
    · refine ⟨_, _, wg_move .closed hg rfl rfl (if_pos hv), (close _ _ (by intro _ h; cases h)).mpr ?_, hrole _ rfl⟩
      have facts := wgTotal_facts hg .closed
      wsolve
    · refine ⟨_, _, wg_move (.waitSwap (v, n)) hg rfl rfl (if_neg hv), (close _ _ (by intro _ h; cases h; exact hv)).mpr ?_,
        hrole _ rfl⟩
      have facts := wgTotal_facts hg (.waitSwap (v, n))
      wsolve
  | waitSwap old =>
    have hold : old.1 ≠ 0 := hswap old (List.mem_of_getElem? hg)
    by_cases hst : (v, n) = old
    · subst hst
      dsimp only at hold
      refine ⟨_, _, wg_move .waitSema hg rfl (if_pos rfl) rfl, (close _ _ (by intro _ h; cases h)).mpr ?_, hrole _ rfl⟩
      have facts := wgTotal_facts hg .waitSema
      wsolve
    · refine ⟨_, _, wg_move .waitTop hg rfl (if_neg hst) rfl, (close _ _ (by intro _ h; cases h)).mpr ?_, hrole _ rfl⟩
      have facts := wgTotal_facts hg .waitTop
      wsolve
  | waitSema =>
    by_cases hs : sema = 0
    · subst hs
      refine ⟨gs, _, ?_, ⟨hcounter, hone, hquit, hwaiters, hsingle, hzero, hover, hswap⟩, rfl⟩
      have ht : (gs.map WPt.prog)[i]? = some WPt.waitSema.prog := by rw [List.getElem?_map, hg]; rfl
      unfold Loops.step
      simp only [ht]
      rfl
    · refine ⟨_, _, wg_move .waitCheck hg rfl (if_neg hs) rfl, (close _ _ (by intro _ h; cases h)).mpr ?_, hrole _ rfl⟩
      have facts := wgTotal_facts hg .waitCheck
      wsolve
  | waitCheck =>
    have facts := wgTotal_facts hg .closed
    simp only [WPt.live, WPt.closer, WPt.checking, WPt.tokens, WPt.sem, WPt.woken, WPt.late] at facts
    dsimp only at hover hwaiters
    have hv : v = 0 := by omega
    have hn : n = 0 := by omega
    subst hv hn
    refine ⟨_, _, wg_move .closed hg rfl rfl rfl, (close _ _ (by intro _ h; cases h)).mpr ?_, hrole _ rfl⟩
    wsolve
  | closed =>
    refine ⟨_, _, wg_round .closed hg rfl rfl, (close _ _ (by intro _ h; cases h)).mpr ?_, hrole _ rfl⟩
    have facts := wgTotal_facts hg .closed
    wsolve

end Goe2ee
