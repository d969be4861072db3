import Verif.Model.Pool
import Verif.Proofs.Loops

/-!
# The pool's mutex and its channel

Two simple invariants that hold for every kind of goroutine: careful and careless application
goroutines and goroutines that close the pool.
-/

set_option autoImplicit false

namespace Goe2ee

/-! ## The mutex -/

/-- What a goroutine may do with and without the mutex. -/
def mutexPre : POp → Bool → Prop
  | .lock, g => g = false
  | .test _, g => g = false
  | .park, g => g = false
  | .await, g => g = false
  | .command _, g => g = false
  | .lend _, g => g = false
  | _, g => g = true

def mutexA : Auto PSig Bool where
  pre := mutexPre
  next o _ g :=
    match o with
    | .lock => true
    | .unlock => false
    | _ => g

def mutexAt : PLoop → Bool → Prop
  | .scan _, g => g = true
  | _, g => g = false

def mutexX (_ : String) (g : Bool) : Prop := g = false

section
variable (cfg : PoolCfg)

theorem mutex_put (c : Nat) (Q : Option Err → Bool → Prop) (hQ : ∀ e, Q e false) :
    SafeE mutexA (poolPut cfg c) false Q mutexX := by
  refine ⟨rfl, fun _ => ⟨rfl, fun r => ?_⟩⟩
  cases (r : SendRes) with
  | sent => exact ⟨rfl, fun _ => hQ _⟩
  | closed => exact ⟨rfl, fun _ => rfl⟩
  | noReceiver =>
    refine ⟨rfl, fun n => ?_⟩
    show SafeE _ (poolKeep cfg c n) _ _ _
    unfold poolKeep
    split
    · exact ⟨rfl, fun _ => ⟨rfl, fun e => ⟨rfl, fun _ => hQ _⟩⟩⟩
    · exact ⟨rfl, fun _ => ⟨rfl, fun _ => hQ _⟩⟩

theorem mutex_return (b : Bool) (r : Except Err Nat) :
    SafeE mutexA (poolReturn b r) false mutexAt mutexX :=
  ⟨rfl, fun _ => rfl⟩

theorem mutex_dial (b : Bool) : SafeE mutexA (poolDial b) true mutexAt mutexX := by
  refine ⟨rfl, fun s => ?_⟩
  rcases (s : Option Nat) with _ | k
  · refine ⟨rfl, fun r => ?_⟩
    rcases (r : Except Err Nat) with e | c
    · exact ⟨rfl, fun _ => mutex_return b _⟩
    · exact ⟨rfl, fun s => ⟨rfl, fun _ => ⟨rfl, fun _ => ⟨rfl, fun _ => mutex_return b _⟩⟩⟩⟩
  · refine ⟨rfl, fun r => ?_⟩
    rcases (r : Except Err Nat) with e | c
    · exact ⟨rfl, fun _ => mutex_return b _⟩
    · exact ⟨rfl, fun s => ⟨rfl, fun _ => ⟨rfl, fun _ => ⟨rfl, fun _ => mutex_return b _⟩⟩⟩⟩

theorem mutex_try (b : Bool) (c : Nat) (next : Prog PSig PLoop)
    (hnext : SafeE mutexA next true mutexAt mutexX) :
    SafeE mutexA (poolTry cfg b c next) false mutexAt mutexX := by
  refine ⟨rfl, fun ok => ?_⟩
  cases (ok : Bool) with
  | true => exact mutex_return b _
  | false => exact SafeE.bind (mutex_put cfg c _ fun e => ⟨rfl, fun _ => ⟨rfl, fun _ => hnext⟩⟩)

theorem mutex_scan (b : Bool) : SafeE mutexA (poolScan cfg b) true mutexAt mutexX := by
  refine ⟨rfl, fun o => ?_⟩
  rcases (o : Option Nat) with _ | c
  · refine ⟨rfl, fun n => ?_⟩
    show SafeE _ (poolFull cfg b n) _ _ _
    unfold poolFull
    split
    · refine ⟨rfl, fun _ => ⟨rfl, fun _ => ⟨rfl, fun o => ?_⟩⟩⟩
      rcases (o : Option Nat) with _ | c
      · rfl
      · exact mutex_try cfg b c _ (mutex_dial b)
    · exact mutex_dial b
  · exact ⟨rfl, fun _ => mutex_try cfg b c _ rfl⟩

theorem mutex_closeAll (cs : List Nat) (Q : Option Err → Bool → Prop) (hQ : ∀ e, Q e true) :
    SafeE mutexA (closeAll cs) true Q mutexX := by
  induction cs with
  | nil => exact hQ _
  | cons c cs ih =>
    refine ⟨rfl, fun e => ?_⟩
    rcases (e : Option Err) with _ | e
    · exact ih
    · exact hQ _

theorem mutex_close : SafeE mutexA poolClose false mutexAt mutexX := by
  refine ⟨rfl, fun _ => ⟨rfl, fun cs => SafeE.bind (mutex_closeAll cs _ fun e => ?_)⟩⟩
  rcases e with _ | e
  · refine ⟨rfl, fun _ => ⟨rfl, fun _ => ⟨rfl, fun _ => ⟨rfl, fun ok => ⟨rfl, fun _ => ?_⟩⟩⟩⟩⟩
    cases (ok : Bool) <;> rfl
  · exact ⟨rfl, fun _ => rfl⟩

theorem mutex_body (l : PLoop) (g : Bool) (h : mutexAt l g) :
    SafeE mutexA (poolBody cfg l) g mutexAt mutexX := by
  cases l with
  | user b =>
    cases h
    refine ⟨rfl, fun cmd => ?_⟩
    rcases (cmd : Option Nat) with _ | c
    · exact ⟨rfl, fun _ => rfl⟩
    · exact SafeE.bind (mutex_put cfg c _ fun e => rfl)
  | scan b => cases h; exact mutex_scan cfg b
  | closer => cases h; exact mutex_close
  | done => exact h

end

def MutexInv (w : PWorld) (gs : List Bool) : Prop :=
  tot Bool.toNat gs = w.locked.toNat

theorem mutex_other (e : PEnv) (i : Nat) (o : POp) (w w' : PWorld) (r : POp.Ret o) (h1 : o ≠ .lock)
    (h2 : o ≠ .unlock) (hx : pexec e i o w = some (r, w')) : w'.locked = w.locked := by
  cases o
  case lock => exact absurd rfl h1
  case unlock => exact absurd rfl h2
  case dial b =>
    simp only [pexec] at hx
    split at hx
    · cases hx; rfl
    · cases hx; cases b <;> rfl
  case await =>
    simp only [pexec] at hx
    split at hx <;> cases hx
    rfl
  case send =>
    simp only [pexec] at hx
    split at hx
    · cases hx; rfl
    · split at hx
      · cases hx; rfl
      · split at hx <;> cases hx
        rfl
  case closeChan =>
    simp only [pexec] at hx
    split at hx <;> cases hx <;> rfl
  case command b =>
    simp only [pexec] at hx
    split at hx
    · cases hx; rfl
    · split at hx <;> cases hx
      cases b <;> rfl
  case lend =>
    simp only [pexec] at hx
    split at hx <;> cases hx <;> rfl
  case park =>
    simp only [pexec] at hx
    cases hx
    split <;> rfl
  all_goals
    simp only [pexec] at hx
    cases hx
    rfl

theorem mutex_step (e : PEnv) (i : Nat) (o : POp) (w : PWorld) (gs : List Bool) (g : Bool)
    (r : POp.Ret o) (w' : PWorld) (hg : gs[i]? = some g) (hpre : mutexA.pre o g) (h : MutexInv w gs)
    (hx : pexec e i o w = some (r, w')) : MutexInv w' (gs.set i (mutexA.next o r g)) := by
  unfold MutexInv at h ⊢
  have h1 := tot_set Bool.toNat hg (mutexA.next o r g)
  by_cases hl : o = .lock
  · subst hl
    have hpre : g = false := hpre
    subst hpre
    simp only [pexec] at hx
    split at hx <;> cases hx
    rename_i hw
    simp only [mutexA, Bool.toNat_true, Bool.toNat_false] at h1
    rw [show w.locked = false by simpa using hw] at h
    simp only [Bool.toNat_false] at h
    simp only [mutexA, Bool.toNat_true]
    omega
  · by_cases hu : o = .unlock
    · subst hu
      have hpre : g = true := hpre
      subst hpre
      simp only [pexec] at hx
      cases hx
      have := Bool.toNat_le w.locked
      simp only [mutexA, Bool.toNat_true, Bool.toNat_false] at h1
      simp only [mutexA, Bool.toNat_false]
      omega
    · rw [mutex_other e i o w w' r hl hu hx]
      have hn : mutexA.next o r g = g := by cases o <;> first | rfl | contradiction
      rw [hn] at h1 ⊢
      omega

theorem mutex_reach (cfg : PoolCfg) (threads : List PLoop) (hscan : ∀ b, .scan b ∉ threads)
    (acts : List (Nat × PEnv)) :
    ∃ gs, LoopsOK mutexA mutexAt mutexX MutexInv (PoolSys.run cfg (poolStart threads) acts) gs := by
  refine LoopsOK.run (mutex_body cfg) mutex_step acts (gs := threads.map fun _ => false)
    ⟨by simp [poolStart], ?_, ?_⟩
  · intro i p g hp hg
    simp only [poolStart, List.getElem?_map, Option.map_eq_some_iff] at hp hg
    obtain ⟨l, hl, rfl⟩ := hp
    obtain ⟨-, -, rfl⟩ := hg
    cases l with
    | scan b => exact absurd (List.mem_of_getElem? hl) (hscan b)
    | _ => rfl
  · show tot _ _ = 0
    refine tot_zero _ fun g hg => ?_
    obtain ⟨-, -, rfl⟩ := List.mem_map.mp hg
    rfl

/-! ## The channel -/

def chanA : Auto PSig Bool where
  pre _ _ := True
  next
    | .await, (r : Option Nat), g => g || r.isNone
    | .send _, (r : SendRes), g => g || (r == .closed)
    | .closeChan, (ok : Bool), g => g || !ok
    | _, _, g => g

def chanAt (_ : PLoop) (_ : Bool) : Prop := True

def chanX (_ : String) (g : Bool) : Prop := g = true

section
variable (cfg : PoolCfg)

theorem chan_put (c : Nat) (g : Bool) (Q : Option Err → Bool → Prop) (hQ : ∀ e g, Q e g) :
    SafeE chanA (poolPut cfg c) g Q chanX := by
  refine ⟨trivial, fun _ => ⟨trivial, fun r => ?_⟩⟩
  cases (r : SendRes) with
  | sent => exact ⟨trivial, fun _ => hQ _ _⟩
  | closed => exact ⟨trivial, fun _ => by cases g <;> rfl⟩
  | noReceiver =>
    refine ⟨trivial, fun n => ?_⟩
    show SafeE _ (poolKeep cfg c n) _ _ _
    unfold poolKeep
    split
    · exact ⟨trivial, fun _ => ⟨trivial, fun e => ⟨trivial, fun _ => hQ _ _⟩⟩⟩
    · exact ⟨trivial, fun _ => ⟨trivial, fun _ => hQ _ _⟩⟩

theorem chan_return (b : Bool) (r : Except Err Nat) (g : Bool) :
    SafeE chanA (poolReturn b r) g chanAt chanX :=
  ⟨trivial, fun _ => trivial⟩

theorem chan_dial (b g : Bool) : SafeE chanA (poolDial b) g chanAt chanX := by
  refine ⟨trivial, fun s => ?_⟩
  rcases (s : Option Nat) with _ | k
  · refine ⟨trivial, fun r => ?_⟩
    rcases (r : Except Err Nat) with e | c
    · exact ⟨trivial, fun _ => chan_return b _ _⟩
    · exact ⟨trivial, fun s => ⟨trivial, fun _ => ⟨trivial, fun _ => ⟨trivial, fun _ =>
        chan_return b _ _⟩⟩⟩⟩
  · refine ⟨trivial, fun r => ?_⟩
    rcases (r : Except Err Nat) with e | c
    · exact ⟨trivial, fun _ => chan_return b _ _⟩
    · exact ⟨trivial, fun s => ⟨trivial, fun _ => ⟨trivial, fun _ => ⟨trivial, fun _ =>
        chan_return b _ _⟩⟩⟩⟩

theorem chan_try (b : Bool) (c : Nat) (next : Prog PSig PLoop) (g : Bool)
    (hnext : ∀ g, SafeE chanA next g chanAt chanX) :
    SafeE chanA (poolTry cfg b c next) g chanAt chanX := by
  refine ⟨trivial, fun ok => ?_⟩
  cases (ok : Bool) with
  | true => exact chan_return b _ _
  | false =>
    exact SafeE.bind (chan_put cfg c _ _ fun e g => ⟨trivial, fun _ => ⟨trivial, fun _ => hnext _⟩⟩)

theorem chan_scan (b g : Bool) : SafeE chanA (poolScan cfg b) g chanAt chanX := by
  refine ⟨trivial, fun o => ?_⟩
  rcases (o : Option Nat) with _ | c
  · refine ⟨trivial, fun n => ?_⟩
    show SafeE _ (poolFull cfg b n) _ _ _
    unfold poolFull
    split
    · refine ⟨trivial, fun _ => ⟨trivial, fun _ => ⟨trivial, fun o => ?_⟩⟩⟩
      rcases (o : Option Nat) with _ | c
      · show _ = true
        cases g <;> rfl
      · exact chan_try cfg b c _ _ (chan_dial b)
    · exact chan_dial b _
  · exact ⟨trivial, fun _ => chan_try cfg b c _ _ fun _ => trivial⟩

theorem chan_closeAll (cs : List Nat) (g : Bool) (Q : Option Err → Bool → Prop) (hQ : ∀ e g, Q e g) :
    SafeE chanA (closeAll cs) g Q chanX := by
  induction cs generalizing g with
  | nil => exact hQ _ _
  | cons c cs ih =>
    refine ⟨trivial, fun e => ?_⟩
    rcases (e : Option Err) with _ | e
    · exact ih _
    · exact hQ _ _

theorem chan_body (l : PLoop) (g : Bool) (_ : chanAt l g) :
    SafeE chanA (poolBody cfg l) g chanAt chanX := by
  cases l with
  | user b =>
    refine ⟨trivial, fun cmd => ?_⟩
    rcases (cmd : Option Nat) with _ | c
    · exact ⟨trivial, fun _ => trivial⟩
    · exact SafeE.bind (chan_put cfg c _ _ fun e _ => trivial)
  | scan b => exact chan_scan cfg b g
  | closer =>
    refine ⟨trivial, fun _ => ⟨trivial, fun cs => SafeE.bind (chan_closeAll cs _ _ fun e g => ?_)⟩⟩
    rcases e with _ | e
    · refine ⟨trivial, fun _ => ⟨trivial, fun _ => ⟨trivial, fun _ => ⟨trivial, fun ok =>
        ⟨trivial, fun _ => ?_⟩⟩⟩⟩⟩
      cases (ok : Bool)
      · show _ = true
        cases g <;> rfl
      · trivial
    · exact ⟨trivial, fun _ => trivial⟩
  | done => trivial

end

/-- Before the channel is closed nobody received nil or found it closed. -/
def ChanInv (w : PWorld) (gs : List Bool) : Prop :=
  w.closed = true ∨ ((∀ m ∈ w.mail, m.2.isSome = true) ∧ ∀ g ∈ gs, g = false)

theorem chan_step (e : PEnv) (i : Nat) (o : POp) (w : PWorld) (gs : List Bool) (g : Bool)
    (r : POp.Ret o) (w' : PWorld) (hg : gs[i]? = some g) (_hpre : chanA.pre o g) (h : ChanInv w gs)
    (hx : pexec e i o w = some (r, w')) : ChanInv w' (gs.set i (chanA.next o r g)) := by
  have hset : ∀ g', g' = false → (∀ g ∈ gs, g = false) → ∀ x ∈ gs.set i g', x = false := by
    intro g' hg' hall x hx
    rcases List.mem_or_eq_of_mem_set hx with h | h
    · exact hall x h
    · exact h.trans hg'
  have hgm := List.mem_of_getElem? hg
  have hsame : w'.closed = w.closed → w'.mail = w.mail → chanA.next o r g = g →
      ChanInv w' (gs.set i (chanA.next o r g)) := by
    intro h1 h2 h3
    rcases h with h | ⟨ha, hb⟩
    · exact .inl (h1.trans h)
    · exact .inr ⟨by rw [h2]; exact ha, hset _ (h3.trans (hb _ hgm)) hb⟩
  cases o
  case lock =>
    simp only [pexec] at hx
    split at hx <;> cases hx
    exact hsame rfl rfl rfl
  case dial b =>
    cases b <;> simp only [pexec] at hx <;> split at hx <;> cases hx <;> exact hsame rfl rfl rfl
  case command b =>
    cases b
    all_goals
      simp only [pexec] at hx
      split at hx
      · cases hx; exact hsame rfl rfl rfl
      · split at hx <;> cases hx
        exact hsame rfl rfl rfl
  case lend =>
    simp only [pexec] at hx
    split at hx <;> cases hx <;> exact hsame rfl rfl rfl
  case park =>
    simp only [pexec] at hx
    cases hx
    rcases h with h | ⟨ha, hb⟩
    · left
      split <;> exact h
    · cases hc : w.closed with
      | true => left; simp
      | false =>
        right
        refine ⟨?_, hset _ (hb _ hgm) hb⟩
        simp
        intro a b hm
        exact ha _ hm
  case await =>
    simp only [pexec] at hx
    split at hx <;> cases hx
    rename_i m hm
    rcases h with h | ⟨ha, hb⟩
    · exact .inl h
    · refine .inr ⟨fun x hx => ha x (List.mem_of_mem_erase hx), hset _ ?_ hb⟩
      have h1 := ha m (List.mem_of_find?_eq_some hm)
      have h2 := hb g hgm
      show (g || m.2.isNone) = false
      rw [h2, Option.isNone_eq_false_iff.mpr h1]
      rfl
  case send c =>
    simp only [pexec] at hx
    split at hx
    · cases hx; exact .inl (by assumption)
    · rename_i hc
      rcases h with h | ⟨ha, hb⟩
      · exact absurd h hc
      · have h2 := hb g hgm
        subst h2
        split at hx
        · cases hx
          refine .inr ⟨?_, hset _ rfl hb⟩
          intro m hm
          rcases List.mem_append.mp hm with hm | hm
          · exact ha m hm
          · rw [List.mem_singleton.mp hm]; rfl
        · split at hx <;> cases hx
          exact .inr ⟨ha, hset _ rfl hb⟩
  case closeChan =>
    simp only [pexec] at hx
    split at hx
    · cases hx; exact .inl (by assumption)
    · cases hx; exact .inl rfl
  all_goals
    simp only [pexec] at hx
    cases hx
    exact hsame rfl rfl rfl

theorem chan_reach (cfg : PoolCfg) (threads : List PLoop) (acts : List (Nat × PEnv)) :
    ∃ gs, LoopsOK chanA chanAt chanX ChanInv (PoolSys.run cfg (poolStart threads) acts) gs := by
  refine LoopsOK.run (chan_body cfg) chan_step acts (gs := threads.map fun _ => false)
    ⟨by simp [poolStart], ?_, ?_⟩
  · intro i p g hp hg
    simp only [poolStart, List.getElem?_map, Option.map_eq_some_iff] at hp hg
    obtain ⟨l, hl, rfl⟩ := hp
    trivial
  · refine .inr ⟨fun m hm => (by cases hm), fun g hg => ?_⟩
    obtain ⟨-, -, rfl⟩ := List.mem_map.mp hg
    rfl

end Goe2ee
