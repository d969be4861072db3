import Verif.Props.PoolCloseBusy

/-!
# C76: nothing is kept in a pool that was closed
-/

set_option autoImplicit false

namespace Goe2ee

/-- Where a goroutine is: without the mutex; with it; with it, and nobody waited on the open channel; with it, and it has
emptied the list of the idle clients. -/
inductive ShutPh where
  | out
  | held
  | noReceiver
  | emptied
  deriving DecidableEq

def shutPre : POp → ShutPh → Prop
  | .lock, g => g = .out
  | .test _, g => g = .out
  | .park, g => g = .out
  | .await, g => g = .out
  | .command _, g => g = .out
  | .lend _, g => g = .out
  | .pushIdle _, g => g = .noReceiver
  | .closeChan, g => g = .emptied
  | _, g => g ≠ .out

def shutA : Auto PSig ShutPh where
  pre := shutPre
  next
    | .lock, _, _ => .held
    | .unlock, _, _ => .out
    | .send _, (r : SendRes), _ => if r = .noReceiver then .noReceiver else .held
    | .clearIdle, _, _ => .emptied
    | _, _, g => g

def shutAt : PLoop → ShutPh → Prop
  | .scan _, g => g = .held
  | _, g => g = .out

def shutX (_ : String) (g : ShutPh) : Prop := g = .out

section
variable (cfg : PoolCfg)

theorem shut_put (c : Nat) (Q : Option Err → ShutPh → Prop) (hQ : ∀ e, Q e .out) :
    SafeE shutA (poolPut cfg c) .out Q shutX := by
  refine ⟨rfl, fun _ => ⟨(by intro h; cases h), fun r => ?_⟩⟩
  cases (r : SendRes) with
  | sent => exact ⟨(by intro h; cases h), fun _ => hQ _⟩
  | closed => exact ⟨(by intro h; cases h), fun _ => rfl⟩
  | noReceiver =>
    refine ⟨(by intro h; cases h), fun n => ?_⟩
    show SafeE shutA (poolKeep cfg c n) ShutPh.noReceiver _ _
    unfold poolKeep
    split
    · exact ⟨(by intro h; cases h), fun _ => ⟨(by intro h; cases h), fun e => ⟨(by intro h; cases h), fun _ => hQ _⟩⟩⟩
    · exact ⟨rfl, fun _ => ⟨(by intro h; cases h), fun _ => hQ _⟩⟩

theorem shut_return (b : Bool) (r : Except Err Nat) : SafeE shutA (poolReturn b r) .out shutAt shutX :=
  ⟨rfl, fun _ => rfl⟩

theorem shut_dial (b : Bool) : SafeE shutA (poolDial b) .held shutAt shutX := by
  have hne : ShutPh.held ≠ .out := by intro h; cases h
  refine ⟨hne, fun s => ?_⟩
  rcases (s : Option Nat) with _ | k
  · refine ⟨hne, fun r => ?_⟩
    rcases (r : Except Err Nat) with e | c
    · exact ⟨hne, fun _ => shut_return b _⟩
    · exact ⟨hne, fun s => ⟨hne, fun _ => ⟨hne, fun _ => ⟨hne, fun _ => shut_return b _⟩⟩⟩⟩
  · refine ⟨hne, fun r => ?_⟩
    rcases (r : Except Err Nat) with e | c
    · exact ⟨hne, fun _ => shut_return b _⟩
    · exact ⟨hne, fun s => ⟨hne, fun _ => ⟨hne, fun _ => ⟨hne, fun _ => shut_return b _⟩⟩⟩⟩

theorem shut_try (b : Bool) (c : Nat) (next : Prog PSig PLoop) (hnext : SafeE shutA next .held shutAt shutX) :
    SafeE shutA (poolTry cfg b c next) .out shutAt shutX := by
  have hne : ShutPh.held ≠ .out := by intro h; cases h
  refine ⟨rfl, fun ok => ?_⟩
  cases (ok : Bool) with
  | true => exact shut_return b _
  | false => exact SafeE.bind (shut_put cfg c _ fun e => ⟨rfl, fun _ => ⟨hne, fun _ => hnext⟩⟩)

theorem shut_scan (b : Bool) : SafeE shutA (poolScan cfg b) .held shutAt shutX := by
  have hne : ShutPh.held ≠ .out := by intro h; cases h
  refine ⟨hne, fun o => ?_⟩
  rcases (o : Option Nat) with _ | c
  · refine ⟨hne, fun n => ?_⟩
    show SafeE _ (poolFull cfg b n) _ _ _
    unfold poolFull
    split
    · refine ⟨hne, fun _ => ⟨rfl, fun _ => ⟨rfl, fun o => ?_⟩⟩⟩
      rcases (o : Option Nat) with _ | c
      · rfl
      · exact shut_try cfg b c _ (shut_dial b)
    · exact shut_dial b
  · exact ⟨hne, fun _ => shut_try cfg b c _ rfl⟩

theorem shut_closeAll (cs : List Nat) (Q : Option Err → ShutPh → Prop) (hQ : ∀ e, Q e .held) :
    SafeE shutA (closeAll cs) .held Q shutX := by
  induction cs with
  | nil => exact hQ _
  | cons c cs ih =>
    refine ⟨(by intro h; cases h), fun e => ?_⟩
    rcases (e : Option Err) with _ | e
    · exact ih
    · exact hQ _

theorem shut_close : SafeE shutA poolClose .out shutAt shutX := by
  have hne : ShutPh.held ≠ .out := by intro h; cases h
  have hne' : ShutPh.emptied ≠ .out := by intro h; cases h
  refine ⟨rfl, fun _ => ⟨hne, fun cs => SafeE.bind (shut_closeAll cs _ fun e => ?_)⟩⟩
  rcases e with _ | e
  · refine ⟨hne, fun _ => ⟨hne', fun _ => ⟨hne', fun _ => ⟨rfl, fun ok => ⟨hne', fun _ => ?_⟩⟩⟩⟩⟩
    cases (ok : Bool) <;> rfl
  · exact ⟨hne, fun _ => rfl⟩

theorem shut_body (l : PLoop) (g : ShutPh) (h : shutAt l g) : SafeE shutA (poolBody cfg l) g shutAt shutX := by
  cases l with
  | user b =>
    cases h
    refine ⟨rfl, fun cmd => ?_⟩
    rcases (cmd : Option Nat) with _ | c
    · exact ⟨rfl, fun _ => rfl⟩
    · exact SafeE.bind (shut_put cfg c _ fun e => rfl)
  | scan b => cases h; exact shut_scan cfg b
  | closer => cases h; exact shut_close
  | done => exact h

end

/-- The invariant. -/
structure EmptiedInv (w : PWorld) (gs : List ShutPh) : Prop where
  one : ∀ (i j : Nat) (g g' : ShutPh), gs[i]? = some g → gs[j]? = some g' → g ≠ .out → g' ≠ .out → i = j
  locked : ∀ g ∈ gs, g ≠ .out → w.locked = true
  empty : w.closed = true → w.idle = []
  still : ∀ g ∈ gs, g = .noReceiver → w.closed = false
  emptied : ∀ g ∈ gs, g = .emptied → w.idle = []

/-- A step of a goroutine that holds the mutex, or takes it. -/
theorem EmptiedInv.mine {w w' : PWorld} {gs : List ShutPh} {i : Nat} {g g' : ShutPh} (_ : EmptiedInv w gs) (hg : gs[i]? = some g)
    (hout : ∀ (j : Nat) (g : ShutPh), j ≠ i → gs[j]? = some g → g = .out) (hl : g' ≠ .out → w'.locked = true)
    (he : w'.closed = true → w'.idle = []) (hs : g' = .noReceiver → w'.closed = false)
    (hm : g' = .emptied → w'.idle = []) : EmptiedInv w' (gs.set i g') := by
  have hcase : ∀ (j : Nat) (x : ShutPh), (gs.set i g')[j]? = some x → x ≠ .out → j = i ∧ x = g' := by
    intro j x hx hne
    by_cases hij : i = j
    · subst hij
      rw [List.getElem?_set_self (List.getElem?_eq_some_iff.mp hg).1] at hx
      cases hx
      exact ⟨rfl, rfl⟩
    · rw [List.getElem?_set_ne hij] at hx
      exact absurd (hout j x (fun e => hij e.symm) hx) hne
  have hmem : ∀ x ∈ gs.set i g', x ≠ .out → x = g' := by
    intro x hx hne
    obtain ⟨j, hj⟩ := List.mem_iff_getElem?.mp hx
    exact (hcase j x hj hne).2
  refine ⟨fun j k x y hx hy h1 h2 => ?_, fun x hx hne => ?_, he, fun x hx hxe => ?_, fun x hx hxe => ?_⟩
  · rw [(hcase j x hx h1).1, (hcase k y hy h2).1]
  · rw [hmem x hx hne] at hne; exact hl hne
  · have := hmem x hx (by rw [hxe]; intro h; cases h)
    exact hs (this ▸ hxe)
  · have := hmem x hx (by rw [hxe]; intro h; cases h)
    exact hm (this ▸ hxe)

/-- A step of a goroutine without the mutex. -/
theorem EmptiedInv.outside {w w' : PWorld} {gs : List ShutPh} {i : Nat} (h : EmptiedInv w gs) (hg : gs[i]? = some .out)
    (hl : w'.locked = w.locked) (hc : w'.closed = w.closed) (hi : w'.idle = w.idle) : EmptiedInv w' (gs.set i .out) := by
  have hself : gs.set i .out = gs := by
    apply List.ext_getElem?
    intro j
    by_cases hij : i = j
    · subst hij; rw [List.getElem?_set_self (List.getElem?_eq_some_iff.mp hg).1, hg]
    · rw [List.getElem?_set_ne hij]
  rw [hself]
  exact ⟨h.one, fun g hg hne => hl.trans (h.locked g hg hne), fun e => hi.trans (h.empty (hc ▸ e)),
    fun g hg hne => hc.trans (h.still g hg hne), fun g hg hne => hi.trans (h.emptied g hg hne)⟩

theorem shut_step (e : PEnv) (i : Nat) (o : POp) (w : PWorld) (gs : List ShutPh) (g : ShutPh) (r : POp.Ret o) (w' : PWorld)
    (hg : gs[i]? = some g) (hpre : shutA.pre o g) (h : EmptiedInv w gs) (hx : pexec e i o w = some (r, w')) :
    EmptiedInv w' (gs.set i (shutA.next o r g)) := by
  have hmem : g ∈ gs := List.mem_of_getElem? hg
  -- the others, when this goroutine holds the mutex
  have hout : g ≠ .out → ∀ (j : Nat) (x : ShutPh), j ≠ i → gs[j]? = some x → x = .out := by
    intro hne j x hj hxj
    refine Classical.byContradiction fun hxo => hj (h.one j i x g hxj hg hxo hne)
  -- a step that changes neither the mutex nor the channel nor the list
  have same : g ≠ .out → w'.locked = w.locked → w'.closed = w.closed → w'.idle = w.idle → EmptiedInv w' (gs.set i g) := by
    intro hne hl hc hi
    exact h.mine hg (hout hne) (fun _ => hl.trans (h.locked g hmem hne)) (fun e => hi.trans (h.empty (hc ▸ e)))
      (fun e => hc.trans (h.still g hmem e)) (fun e => hi.trans (h.emptied g hmem e))
  cases o with
  | lock =>
    have hpre : g = .out := hpre
    subst hpre
    simp only [pexec] at hx
    split at hx <;> cases hx
    rename_i hw
    refine h.mine hg (fun j x _ hxj => ?_) (fun _ => rfl) h.empty (fun e => by cases e) (fun e => by cases e)
    exact Classical.byContradiction fun hxo => hw (h.locked x (List.mem_of_getElem? hxj) hxo)
  | unlock =>
    simp only [pexec] at hx
    cases hx
    exact h.mine hg (hout hpre) (fun hne => absurd rfl hne) h.empty (fun e => by cases e) (fun e => by cases e)
  | test c =>
    have hpre : g = .out := hpre
    subst hpre
    simp only [pexec] at hx
    cases hx
    exact h.outside hg rfl rfl rfl
  | park =>
    have hpre : g = .out := hpre
    subst hpre
    simp only [pexec] at hx
    cases hx
    refine h.outside hg ?_ ?_ ?_ <;> split <;> rfl
  | await =>
    have hpre : g = .out := hpre
    subst hpre
    simp only [pexec] at hx
    split at hx <;> cases hx
    exact h.outside hg rfl rfl rfl
  | command b =>
    have hpre : g = .out := hpre
    subst hpre
    simp only [pexec] at hx
    split at hx
    · cases hx; exact h.outside hg rfl rfl rfl
    · split at hx <;> cases hx
      cases b <;> exact h.outside hg rfl rfl rfl
  | lend r' =>
    have hpre : g = .out := hpre
    subst hpre
    simp only [pexec] at hx
    split at hx <;> cases hx <;> exact h.outside hg rfl rfl rfl
  | pushIdle c =>
    have hpre : g = .noReceiver := hpre
    subst hpre
    simp only [pexec] at hx
    cases hx
    have hc := h.still _ hmem rfl
    have hne : ShutPh.noReceiver ≠ .out := by intro h; cases h
    refine h.mine hg (hout hne) (fun _ => h.locked _ hmem hne) (fun e => ?_) (fun _ => hc) (fun e => by cases e)
    exact absurd (hc.symm.trans e) (by decide)
  | closeChan =>
    have hpre : g = .emptied := hpre
    subst hpre
    have hi := h.emptied _ hmem rfl
    have hne : ShutPh.emptied ≠ .out := by intro h; cases h
    simp only [pexec] at hx
    split at hx <;> cases hx
    · exact h.mine hg (hout hne) (fun _ => h.locked _ hmem hne) (fun _ => hi) (fun e => by cases e) (fun _ => hi)
    · exact h.mine hg (hout hne) (fun _ => h.locked _ hmem hne) (fun _ => hi) (fun e => by cases e) (fun _ => hi)
  | clearIdle =>
    simp only [pexec] at hx
    cases hx
    exact h.mine hg (hout hpre) (fun _ => h.locked g hmem hpre) (fun _ => rfl) (fun e => by cases e) (fun _ => rfl)
  | popIdle =>
    simp only [pexec] at hx
    cases hx
    refine h.mine hg (hout hpre) (fun _ => h.locked g hmem hpre) (fun e => ?_) (h.still g hmem) (fun e => ?_)
    · show w.idle.tail = []
      rw [h.empty e]; rfl
    · show w.idle.tail = []
      rw [h.emptied g hmem e]; rfl
  | send c =>
    have hl := h.locked g hmem hpre
    simp only [pexec] at hx
    split at hx
    · cases hx
      exact h.mine hg (hout hpre) (fun _ => hl) h.empty (fun e => by cases e) (fun e => by cases e)
    · rename_i hc
      split at hx
      · cases hx
        exact h.mine hg (hout hpre) (fun _ => hl) h.empty (fun e => by cases e) (fun e => by cases e)
      · split at hx <;> cases hx
        exact h.mine hg (hout hpre) (fun _ => hl) h.empty (fun _ => by simpa using hc) (fun e => by cases e)
  | dial b =>
    simp only [pexec] at hx
    split at hx
    · cases hx; exact same hpre rfl rfl rfl
    · cases hx; cases b <;> exact same hpre rfl rfl rfl
  | _ =>
    simp only [pexec] at hx
    cases hx
    exact same hpre rfl rfl rfl

/-- **C76**, what holds after `Close`: once it has emptied the pool and closed the channel, no client is idle in the pool
ever again, whatever the goroutines do (careless ones and several that close the pool included); so no later `Get` finds
a client there from before. -/
theorem C76_stays_empty_partial (cfg : PoolCfg) (threads : List PLoop) (hscan : ∀ b, .scan b ∉ threads)
    (acts : List (Nat × PEnv)) (hclosed : ((poolStart threads).run cfg acts).world.closed = true) :
    ((poolStart threads).run cfg acts).world.idle = [] := by
  obtain ⟨gs, h⟩ := LoopsOK.run (I := EmptiedInv) (shut_body cfg) shut_step acts (s := poolStart threads)
    (gs := threads.map fun _ => .out) (P := shutAt) (X := shutX)
    ⟨by simp [poolStart], by
      intro i p g hp hg
      simp only [poolStart, List.getElem?_map, Option.map_eq_some_iff] at hp hg
      obtain ⟨l, hl, rfl⟩ := hp
      obtain ⟨-, -, rfl⟩ := hg
      cases l with
      | scan b => exact absurd (List.mem_of_getElem? hl) (hscan b)
      | _ => rfl, by
      have hall : ∀ g ∈ threads.map (fun _ => ShutPh.out), g = .out := by
        intro g hg
        obtain ⟨-, -, rfl⟩ := List.mem_map.mp hg
        rfl
      exact ⟨fun i j g g' hi _ hne => absurd (hall g (List.mem_of_getElem? hi)) hne,
        fun g hg hne => absurd (hall g hg) hne, (fun e => by cases e),
        fun g hg e => (by rw [hall g hg] at e; cases e), fun g hg e => (by rw [hall g hg] at e; cases e)⟩⟩
  exact h.inv.empty hclosed

/-- A client is borrowed while the pool is closed; returning it afterwards panics and leaves the pool empty. -/
example :
    let s := (poolStart [.closer, .user false, .user false]).run ⟨2, 2⟩ (go 1 13 ++ go 0 10)
    let s' := s.run ⟨2, 2⟩ (go 1 7 { cmd := .close 0 })
    s.world.closed = true ∧ s.world.held = [0] ∧ s'.world.closed = true ∧ s'.world.idle = [] ∧ s'.world.held = [] ∧
    s'.threads.map panicked = [false, true, false] := by
  decide +kernel

end Goe2ee
