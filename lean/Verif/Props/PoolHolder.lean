import Verif.Props.Pool

/-!
# C68: the goroutine that holds the pool's mutex

Who holds the mutex is read off the run: the goroutine whose step locked it last.
-/

set_option autoImplicit false

namespace Goe2ee

/-- The goroutine whose step locked the mutex, if it is locked. -/
def holderAfter (s s' : PoolSys) (i : Nat) (holder : Option Nat) : Option Nat :=
  if s'.world.locked = false then none
  else if s.world.locked = false then some i
  else holder

/-- Who holds the mutex at the end of a schedule. -/
def lockedBy (cfg : PoolCfg) (s : PoolSys) (holder : Option Nat) : List (Nat × PEnv) → Option Nat
  | [] => holder
  | act :: acts => lockedBy cfg (s.step cfg act) (holderAfter s (s.step cfg act) act.1 holder) acts

/-- Can the goroutine do what it is about to do? -/
def ableTo (s : PoolSys) (act : Nat × PEnv) : Bool :=
  match s.threads[act.1]? with
  | some (.op o _) => (pexec act.2 act.1 o s.world).isSome
  | _ => true

/-- The state after `n` steps of an endless schedule. -/
def PoolSys.after (cfg : PoolCfg) (s : PoolSys) (σ : Nat → Nat × PEnv) : Nat → PoolSys
  | 0 => s
  | n + 1 => (PoolSys.after cfg s σ n).step cfg (σ n)

/-! ## The invariant -/

abbrev MutexOK (s : PoolSys) (gs : List Bool) : Prop := LoopsOK mutexA mutexAt mutexX MutexInv s gs

theorem MutexOK.free {s : PoolSys} {gs : List Bool} (h : MutexOK s gs) (hl : s.world.locked = false) (j : Nat) :
    gs[j]? ≠ some true := by
  intro hj
  have h1 : tot Bool.toNat gs = _ := h.inv
  have h2 := le_tot Bool.toNat hj
  rw [hl] at h1
  simp only [Bool.toNat_true, Bool.toNat_false] at h1 h2
  omega

theorem MutexOK.unique {s : PoolSys} {gs : List Bool} (h : MutexOK s gs) {i j : Nat} (hi : gs[i]? = some true)
    (hj : gs[j]? = some true) : i = j := by
  refine Classical.byContradiction fun hij => ?_
  have h1 : tot Bool.toNat gs = _ := h.inv
  have h2 := add_le_tot Bool.toNat hi hj hij
  have h3 := Bool.toNat_le s.world.locked
  simp only [Bool.toNat_true] at h2
  omega

theorem MutexOK.held {s : PoolSys} {gs : List Bool} (h : MutexOK s gs) {i : Nat} (hi : gs[i]? = some true) :
    s.world.locked = true := by
  cases hl : s.world.locked with
  | true => rfl
  | false => exact absurd hi (h.free hl i)

/-- One step: the goroutines that did not move hold the mutex or not, as before; the one that moved does as the automaton
says. -/
theorem MutexOK.move {cfg : PoolCfg} {s : PoolSys} {gs : List Bool} (h : MutexOK s gs) (act : Nat × PEnv) :
    ∃ gs', MutexOK (s.step cfg act) gs' ∧
      (gs' = gs ∧ (s.step cfg act).world = s.world ∨
       ∃ o k r, s.threads[act.1]? = some (.op o k) ∧ pexec act.2 act.1 o s.world = some (r, (s.step cfg act).world) ∧
         (s.step cfg act).threads[act.1]? = some (k r) ∧
         ∃ g, gs[act.1]? = some g ∧ mutexPre o g ∧ gs' = gs.set act.1 (mutexA.next o r g)) := by
  unfold PoolSys.step Loops.step
  split
  · rename_i l hl
    refine ⟨gs, ⟨by simp [h.len], ?_, h.inv⟩, .inl ⟨rfl, rfl⟩⟩
    intro j p g hp hg
    by_cases hij : act.1 = j
    · subst hij
      rw [List.getElem?_set_self (List.getElem?_eq_some_iff.mp hl).1] at hp
      cases hp
      exact mutex_body cfg _ _ (h.safe _ _ _ hl hg)
    · rw [List.getElem?_set_ne hij] at hp
      exact h.safe j p g hp hg
  · rename_i o k hk
    have hi : act.1 < gs.length := by
      rw [h.len]; exact (List.getElem?_eq_some_iff.mp hk).1
    have hg : gs[act.1]? = some gs[act.1] := List.getElem?_eq_getElem hi
    have hs := h.safe _ _ _ hk hg
    split
    · rename_i r hr
      refine ⟨gs.set act.1 (mutexA.next o r.1 gs[act.1]), ⟨by simp [h.len], ?_,
        mutex_step _ _ _ _ _ _ _ _ hg hs.1 h.inv hr⟩, .inr ⟨o, k, r.1, hk, hr, ?_, _, hg, hs.1, rfl⟩⟩
      · intro j p g hp hgj
        by_cases hij : act.1 = j
        · subst hij
          rw [List.getElem?_set_self (by rw [← h.len]; exact hi)] at hp
          rw [List.getElem?_set_self hi] at hgj
          cases hp; cases hgj
          exact hs.2 _
        · rw [List.getElem?_set_ne hij] at hp hgj
          exact h.safe j p g hp hgj
      · exact List.getElem?_set_self (by rw [← h.len]; exact hi)
    · exact ⟨gs, h, .inl ⟨rfl, rfl⟩⟩
  · exact ⟨gs, h, .inl ⟨rfl, rfl⟩⟩

theorem setBool_same {gs : List Bool} {i : Nat} {g : Bool} (h : gs[i]? = some g) : gs.set i g = gs := by
  obtain ⟨hlt, rfl⟩ := List.getElem?_eq_some_iff.mp h
  exact List.set_getElem_self hlt

/-- Who locked the mutex is whom the automaton takes for the holder. -/
theorem holder_move {cfg : PoolCfg} {s : PoolSys} {gs : List Bool} {holder : Option Nat} (h : MutexOK s gs)
    (hh : ∀ j, gs[j]? = some true ↔ holder = some j) (act : Nat × PEnv) :
    ∃ gs', MutexOK (s.step cfg act) gs' ∧
      ∀ j, gs'[j]? = some true ↔ holderAfter s (s.step cfg act) act.1 holder = some j := by
  obtain ⟨gs', h', hc⟩ := h.move (cfg := cfg) act
  refine ⟨gs', h', fun j => ?_⟩
  unfold holderAfter
  by_cases hl' : (s.step cfg act).world.locked = false
  · rw [if_pos hl']
    exact ⟨fun hj => absurd hj (h'.free hl' j), fun hj => by cases hj⟩
  · rw [if_neg hl']
    rcases hc with ⟨rfl, hw⟩ | ⟨o, k, r, -, hx, -, g, hg, hpre, rfl⟩
    · rw [hw] at hl'
      rw [if_neg hl']
      exact hh j
    · have hlen := (List.getElem?_eq_some_iff.mp hg).1
      by_cases hol : o = .lock
      · subst hol
        have hi : (gs.set act.1 true)[act.1]? = some true := List.getElem?_set_self hlen
        simp only [pexec] at hx
        split at hx
        · cases hx
        · rename_i hw
          rw [if_pos (by simpa using hw)]
          constructor
          · intro hj
            rw [h'.unique hi hj]
          · intro hj
            cases hj
            exact hi
      · by_cases hou : o = .unlock
        · subst hou
          have h1 := congrArg (Prod.snd (α := POp.Ret .unlock) (β := PWorld)) (Option.some.inj hx)
          have h2 : (s.step cfg act).world.locked = false := (congrArg PWorld.locked h1).symm
          exact absurd h2 hl'
        · have hn : mutexA.next o r g = g := by cases o <;> first | rfl | contradiction
          rw [mutex_other _ _ _ _ _ _ hol hou hx] at hl'
          rw [if_neg hl', hn, setBool_same hg]
          exact hh j

theorem holder_run {cfg : PoolCfg} (acts : List (Nat × PEnv)) {s : PoolSys} {gs : List Bool} {holder : Option Nat}
    (h : MutexOK s gs) (hh : ∀ j, gs[j]? = some true ↔ holder = some j) :
    ∃ gs', MutexOK (PoolSys.run cfg s acts) gs' ∧ ∀ j, gs'[j]? = some true ↔ lockedBy cfg s holder acts = some j := by
  induction acts generalizing s gs holder with
  | nil => exact ⟨gs, h, hh⟩
  | cons act acts ih =>
    obtain ⟨gs', h', hh'⟩ := holder_move (cfg := cfg) h hh act
    exact ih h' hh'

theorem holder_reach (cfg : PoolCfg) (threads : List PLoop) (hscan : ∀ b, .scan b ∉ threads)
    (acts : List (Nat × PEnv)) :
    ∃ gs, MutexOK (PoolSys.run cfg (poolStart threads) acts) gs ∧
      ∀ j, gs[j]? = some true ↔ lockedBy cfg (poolStart threads) none acts = some j := by
  obtain ⟨gs, h⟩ := mutex_reach cfg threads hscan []
  refine holder_run acts h fun j => ⟨fun hj => absurd hj (MutexOK.free h rfl j), fun hj => by cases hj⟩

/-- The goroutine that holds the mutex has not ended and has not panicked, and can do what comes next. -/
theorem MutexOK.able {s : PoolSys} {gs : List Bool} (h : MutexOK s gs) {i : Nat} (hi : gs[i]? = some true) :
    ∃ p, s.threads[i]? = some p ∧ ((∃ b, p = .ret (.scan b)) ∨ ∃ o k, p = .op o k) ∧
      ∀ dial close, ableTo s (i, { dial := dial, close := close }) = true := by
  have hlt : i < s.threads.length := by
    rw [← h.len]; exact (List.getElem?_eq_some_iff.mp hi).1
  have ht := List.getElem?_eq_getElem hlt
  have hs := h.safe i _ _ ht hi
  refine ⟨_, ht, ?_⟩
  simp only [ableTo, ht]
  generalize s.threads[i] = p at hs
  cases p with
  | ret l =>
    cases l with
    | scan b => exact ⟨.inl ⟨b, rfl⟩, fun _ _ => rfl⟩
    | _ => cases hs
  | panic m => cases hs
  | op o k =>
    refine ⟨.inr ⟨o, k, rfl⟩, fun dial close => ?_⟩
    have hpre := hs.1
    cases o with
    | lock => cases hpre
    | test c => cases hpre
    | park => cases hpre
    | await => cases hpre
    | command b => cases hpre
    | lend r => cases hpre
    | dial b => cases dial <;> rfl
    | send c =>
      simp only [pexec]
      split
      · rfl
      · split
        · rfl
        · rename_i hw
          rw [if_pos]
          · rfl
          · simpa using hw
    | closeChan =>
      simp only [pexec]
      split <;> rfl
    | _ => rfl

/-- **C68**, the holder: whenever the mutex is locked, the goroutine that locked it has neither ended nor panicked, and
can go on whatever dialling and closing a connection return: it does not wait for any other goroutine. -/
theorem C68_holder (cfg : PoolCfg) (threads : List PLoop) (hscan : ∀ b, .scan b ∉ threads) (acts : List (Nat × PEnv))
    (hl : (PoolSys.run cfg (poolStart threads) acts).world.locked = true) :
    ∃ i p, lockedBy cfg (poolStart threads) none acts = some i ∧
      (PoolSys.run cfg (poolStart threads) acts).threads[i]? = some p ∧
      ((∃ b, p = .ret (.scan b)) ∨ ∃ o k, p = .op o k) ∧
      ∀ dial close, ableTo (PoolSys.run cfg (poolStart threads) acts) (i, { dial := dial, close := close }) = true := by
  obtain ⟨gs, h, hh⟩ := holder_reach cfg threads hscan acts
  have h1 : tot Bool.toNat gs = _ := h.inv
  rw [hl] at h1
  obtain ⟨i, g, hg, hpos⟩ := tot_pos Bool.toNat (gs := gs) (by rw [h1]; decide)
  have hgt : g = true := by cases g <;> simp at hpos ⊢
  subst hgt
  obtain ⟨p, hp⟩ := MutexOK.able h hg
  exact ⟨i, p, (hh i).mp hg, hp⟩

/-! ## The mutex is released -/

/-- Every path of the program unlocks the mutex before it returns. -/
def Releases : Prog PSig PLoop → Prop
  | .op .unlock _ => True
  | .op _ k => ∀ r, Releases (k r)
  | .ret _ => False
  | .panic _ => False

theorem Releases.next {o : POp} {k : POp.Ret o → Prog PSig PLoop} (h : Releases (.op o k)) (ho : o ≠ .unlock)
    (r : POp.Ret o) : Releases (k r) := by
  cases o <;> first | exact h r | exact absurd rfl ho

theorem releases_dial (b : Bool) : Releases (poolDial b) := by
  intro s
  rcases (s : Option Nat) with _ | k
  · intro r
    rcases (r : Except Err Nat) with e | c
    · trivial
    · exact fun _ _ _ => trivial
  · intro r
    rcases (r : Except Err Nat) with e | c
    · trivial
    · exact fun _ _ _ => trivial

theorem releases_scan (cfg : PoolCfg) (b : Bool) : Releases (poolScan cfg b) := by
  intro o
  rcases (o : Option Nat) with _ | c
  · intro (n : Int)
    show Releases (poolFull cfg b n)
    unfold poolFull
    split
    · trivial
    · exact releases_dial b
  · trivial

section
variable {cfg : PoolCfg} {s : PoolSys} {σ : Nat → Nat × PEnv} {i : Nat}

/-- Goroutine `i` holds the mutex and is at `p`. -/
def Holding (s : PoolSys) (i : Nat) (p : Prog PSig PLoop) : Prop :=
  ∃ gs, MutexOK s gs ∧ gs[i]? = some true ∧ s.threads[i]? = some p

theorem Holding.safe {p : Prog PSig PLoop} (h : Holding s i p) : SafeE mutexA p true mutexAt mutexX := by
  obtain ⟨gs, h1, h2, h3⟩ := h
  exact h1.safe _ _ _ h3 h2

/-- While another goroutine moves. -/
theorem Holding.other {p : Prog PSig PLoop} (h : Holding s i p) {act : Nat × PEnv} (hne : act.1 ≠ i) :
    Holding (s.step cfg act) i p := by
  obtain ⟨gs, h1, h2, h3⟩ := h
  obtain ⟨gs', h1', hc⟩ := h1.move (cfg := cfg) act
  refine ⟨gs', h1', ?_, ?_⟩
  · rcases hc with ⟨rfl, -⟩ | ⟨o, k, r, -, -, -, g, -, -, rfl⟩
    · exact h2
    · rw [List.getElem?_set_ne hne]
      exact h2
  · rw [PoolSys.step, step_other s act.2 hne]
    exact h3

theorem Holding.blocked {o : POp} {k : POp.Ret o → Prog PSig PLoop} (h : Holding s i (.op o k)) {act : Nat × PEnv}
    (hi : act.1 = i) (hx : pexec act.2 act.1 o s.world = none) : s.step cfg act = s := by
  obtain ⟨gs, -, -, h3⟩ := h
  subst hi
  unfold PoolSys.step Loops.step
  rw [h3]
  dsimp only
  rw [hx]

/-- The holder moves: it unlocks the mutex, or goes on holding it. -/
theorem Holding.moves {o : POp} {k : POp.Ret o → Prog PSig PLoop} (h : Holding s i (.op o k)) {act : Nat × PEnv}
    (hi : act.1 = i) (hable : ableTo s act = true) :
    (o = .unlock ∧ (s.step cfg act).world.locked = false) ∨
    (o ≠ .unlock ∧ ∃ r, Holding (s.step cfg act) i (k r)) := by
  obtain ⟨gs, h1, h2, h3⟩ := h
  subst hi
  have hpre : mutexPre o true := (h1.safe _ _ _ h3 h2).1
  obtain ⟨gs', h1', hc⟩ := h1.move (cfg := cfg) act
  unfold ableTo at hable
  rw [h3] at hable
  obtain ⟨x, hx⟩ := Option.isSome_iff_exists.mp hable
  have hthreads : (s.step cfg act).threads[act.1]? = some (k x.1) ∧ (s.step cfg act).world = x.2 := by
    unfold PoolSys.step Loops.step
    rw [h3]
    dsimp only
    rw [hx]
    exact ⟨List.getElem?_set_self (List.getElem?_eq_some_iff.mp h3).1, rfl⟩
  by_cases ho : o = .unlock
  · subst ho
    refine .inl ⟨rfl, ?_⟩
    rw [hthreads.2]
    simp only [pexec] at hx
    cases hx
    rfl
  · refine .inr ⟨ho, x.1, gs', h1', ?_, hthreads.1⟩
    have hol : o ≠ .lock := by
      rintro rfl
      cases hpre
    rcases hc with ⟨rfl, -⟩ | ⟨o', k', r, ht, -, -, g, hg, -, rfl⟩
    · exact h2
    · rw [h3] at ht
      cases ht
      rw [h2] at hg
      cases hg
      have hn : mutexA.next o r true = true := by cases o <;> first | rfl | contradiction
      rw [hn]
      exact List.getElem?_set_self (List.getElem?_eq_some_iff.mp h2).1

/-- Goroutine `i` gets its turn, at a moment when it can move, again and again. -/
def FairTo (cfg : PoolCfg) (s : PoolSys) (σ : Nat → Nat × PEnv) (i : Nat) : Prop :=
  ∀ n, ∃ m, n ≤ m ∧ (σ m).1 = i ∧ ableTo (s.after cfg σ m) (σ m) = true

/-- Until it moves, the holder stays where it is. -/
theorem Holding.turn {p : Prog PSig PLoop} (hfair : FairTo cfg s σ i) {n : Nat} (h : Holding (s.after cfg σ n) i p) :
    ∃ m, Holding (s.after cfg σ m) i p ∧ (σ m).1 = i ∧ ableTo (s.after cfg σ m) (σ m) = true := by
  have key : ∀ d n, Holding (s.after cfg σ n) i p → (σ (n + d)).1 = i →
      ableTo (s.after cfg σ (n + d)) (σ (n + d)) = true →
      ∃ m, Holding (s.after cfg σ m) i p ∧ (σ m).1 = i ∧ ableTo (s.after cfg σ m) (σ m) = true := by
    intro d
    induction d with
    | zero => exact fun n h h1 h2 => ⟨n, h, h1, h2⟩
    | succ d ih =>
      intro n h h1 h2
      rw [show n + (d + 1) = n + 1 + d by omega] at h1 h2
      by_cases hi : (σ n).1 = i
      · cases hable : ableTo (s.after cfg σ n) (σ n) with
        | true => exact ⟨n, h, hi, hable⟩
        | false =>
          refine ih (n + 1) ?_ h1 h2
          show Holding ((s.after cfg σ n).step cfg (σ n)) i p
          cases p with
          | ret l =>
            obtain ⟨gs, -, -, h3⟩ := h
            unfold ableTo at hable
            rw [hi, h3] at hable
            cases hable
          | panic m => exact absurd h.safe (by intro h; cases h)
          | op o k =>
            have hx : pexec (σ n).2 (σ n).1 o (s.after cfg σ n).world = none := by
              obtain ⟨gs, -, -, h3⟩ := h
              unfold ableTo at hable
              rw [hi, h3] at hable
              rw [hi]
              simpa using hable
            rw [h.blocked hi hx]
            exact h
      · exact ih (n + 1) (h.other hi) h1 h2
  obtain ⟨m, hm, h1, h2⟩ := hfair n
  obtain ⟨d, rfl⟩ := Nat.exists_eq_add_of_le hm
  exact key d n h h1 h2

theorem Holding.released {p : Prog PSig PLoop} (hfair : FairTo cfg s σ i) (hp : Releases p) {n : Nat}
    (h : Holding (s.after cfg σ n) i p) : ∃ m, (s.after cfg σ m).world.locked = false := by
  induction p generalizing n with
  | ret l => exact hp.elim
  | panic m => exact hp.elim
  | op o k ih =>
    obtain ⟨m, h1, h2, h3⟩ := h.turn hfair
    rcases h1.moves (cfg := cfg) h2 h3 with ⟨-, h4⟩ | ⟨h4, r, h5⟩
    · exact ⟨m + 1, h4⟩
    · exact ih r (hp.next h4 r) (n := m + 1) h5

theorem Holding.ends {p : Prog PSig PLoop} (hfair : FairTo cfg s σ i) {n : Nat}
    (h : Holding (s.after cfg σ n) i p) : ∃ m, (s.after cfg σ m).world.locked = false := by
  induction p generalizing n with
  | ret l =>
    obtain ⟨m, h1, h2, -⟩ := h.turn hfair
    have hl := h1.safe
    cases l with
    | scan b =>
      refine Holding.released (p := poolScan cfg b) hfair (releases_scan cfg b) (n := m + 1) ?_
      obtain ⟨gs, h4, h5, h6⟩ := h1
      obtain ⟨gs', h4', hc⟩ := h4.move (cfg := cfg) (σ m)
      refine ⟨gs', h4', ?_, ?_⟩
      · rcases hc with ⟨rfl, -⟩ | ⟨o, k, r, ht, -⟩
        · exact h5
        · rw [h2, h6] at ht
          cases ht
      · show ((s.after cfg σ m).step cfg (σ m)).threads[i]? = _
        unfold PoolSys.step Loops.step
        rw [h2, h6]
        exact List.getElem?_set_self (List.getElem?_eq_some_iff.mp h6).1
    | _ => cases hl
  | panic m => exact absurd h.safe (by intro h; cases h)
  | op o k ih =>
    obtain ⟨m, h1, h2, h3⟩ := h.turn hfair
    rcases h1.moves (cfg := cfg) h2 h3 with ⟨-, h4⟩ | ⟨h4, r, h5⟩
    · exact ⟨m + 1, h4⟩
    · exact ih r (n := m + 1) h5

end

/-- **C68**, the mutex is released: in every endless schedule in which the goroutine that holds the mutex goes on
sooner or later, the mutex becomes free, whatever the others do and whatever dialling and closing return. -/
theorem C68_released (cfg : PoolCfg) (threads : List PLoop) (hscan : ∀ b, .scan b ∉ threads) (acts : List (Nat × PEnv))
    (i : Nat) (σ : Nat → Nat × PEnv) (hi : lockedBy cfg (poolStart threads) none acts = some i)
    (hfair : FairTo cfg (PoolSys.run cfg (poolStart threads) acts) σ i) :
    ∃ m, (PoolSys.after cfg (PoolSys.run cfg (poolStart threads) acts) σ m).world.locked = false := by
  obtain ⟨gs, h, hh⟩ := holder_reach cfg threads hscan acts
  have hg := (hh i).mpr hi
  obtain ⟨p, hp, -⟩ := MutexOK.able h hg
  exact Holding.ends (n := 0) hfair ⟨gs, h, hg, hp⟩

/-- Goroutine 0 holds the mutex while goroutine 1 waits for it; after nine steps of goroutine 0 it is free. -/
example : lockedBy ⟨1, 1⟩ (poolStart [.user false, .user false]) none (go 0 4 ++ go 1 4) = some 0 ∧
    (PoolSys.after ⟨1, 1⟩ (careful ⟨1, 1⟩ 2 (go 0 4 ++ go 1 4)) (fun _ => (0, {})) 9).world.locked = false ∧
    lockedBy ⟨1, 1⟩ (poolStart [.user false, .user false]) none (go 0 4 ++ go 1 4 ++ go 0 9 ++ go 1 1) = some 1 := by
  decide +kernel

/-- A schedule in which goroutine 0 always has its turn with the first waiting goroutine to be picked is fair to it, as
long as it holds the mutex: it is never blocked (`C68_holder`). -/
example : ableTo (careful ⟨1, 1⟩ 2 (go 0 4 ++ go 1 4)) (0, {}) = true ∧
    ableTo (careful ⟨1, 1⟩ 2 (go 0 4 ++ go 1 4)) (1, {}) = false := by decide +kernel

end Goe2ee
