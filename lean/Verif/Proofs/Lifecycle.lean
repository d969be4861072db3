import Verif.Model.Lifecycle

/-!
# Invariants of a server's life
-/

set_option autoImplicit false

namespace Goe2ee

/-- The goroutine that will close the socket. -/
def Go.owns (l : Nat) : Go → Bool
  | .acceptTop k | .acceptWait k | .acceptGot k | .acceptGone k
  | .packetTop k | .packetWait k | .packetGot k | .packetGone k => k == l
  | _ => false

/-- Waits for the end of the server. -/
def Go.leaving : Go → Bool
  | .acceptGone _ | .packetGone _ | .closeWait _ => true
  | _ => false

/-- The manager whose collector this is. -/
def Go.collects (m : Nat) : Go → Bool
  | .gcStart k | .gcWait k | .gcVisit k => k == m
  | _ => false

/-- Counted by `s.wg`. -/
def Go.isConn : Go → Bool
  | .connTop | .connRead | .connServe | .connGone => true
  | _ => false

structure LInv (cfg : LConfig) (s : LState) : Prop where
  own : ∀ l : Nat, s.world.socks[l]? = some true → ∃ g ∈ s.gos, g.owns l = true
  shut : ∀ l : Nat, s.world.socks[l]? = some false → s.world.quit = true
  gone : ∀ g ∈ s.gos, g.leaving = true → s.world.quit = true
  mg : ∀ g ∈ s.gos, ∀ m, g.collects m = true → m < s.world.mgrs.length
  ret : s.world.returned = true → ∀ m x, cfg.store = .inMemory m → s.world.mgrs[m]? = some x →
    x.closed = true
  retq : s.world.returned = true → s.world.quit = true
  wg : s.world.wg = s.gos.countP Go.isConn
  lost : s.world.lost ≠ 0 → s.world.quit = true
  valid : ∀ g ∈ s.gos, ∀ l, g.owns l = true → l < s.world.socks.length
  over : s.world.returned = true → ∀ g ∈ s.gos, g ≠ .connRead ∧ g ≠ .connServe

theorem mem_step {gos new : List Go} {i : Nat} {g' x : Go} (h : x ∈ gos.set i g' ++ new) :
    x ∈ gos ∨ x = g' ∨ x ∈ new := by
  rcases List.mem_append.mp h with h | h
  · rcases List.mem_or_eq_of_mem_set h with h | h
    · exact .inl h
    · exact .inr (.inl h)
  · exact .inr (.inr h)

/-- An owner stays unless it is the goroutine that moves. -/
theorem own_step {gos new : List Go} {i : Nat} {g g' : Go} {p : Go → Bool} (hi : gos[i]? = some g)
    (h : ∃ x ∈ gos, p x = true) (hg : p g = true → (p g' = true ∨ ∃ x ∈ new, p x = true)) :
    ∃ x ∈ gos.set i g' ++ new, p x = true := by
  obtain ⟨x, hx, hp⟩ := h
  obtain ⟨j, hj⟩ := List.mem_iff_getElem?.mp hx
  have hlen : i < gos.length := (List.getElem?_eq_some_iff.mp hi).1
  by_cases hij : i = j
  · subst hij
    rw [hi] at hj
    cases hj
    rcases hg hp with h | ⟨y, hy, h⟩
    · exact ⟨g', List.mem_append_left _ (List.mem_iff_getElem?.mpr ⟨i, List.getElem?_set_self hlen⟩), h⟩
    · exact ⟨y, List.mem_append_right _ hy, h⟩
  · refine ⟨x, List.mem_append_left _ (List.mem_iff_getElem?.mpr ⟨j, ?_⟩), hp⟩
    rw [List.getElem?_set_ne hij, hj]

theorem count_step {gos new : List Go} {i : Nat} {g g' : Go} (hi : gos[i]? = some g) (p : Go → Bool) :
    (gos.set i g' ++ new).countP p + (if p g then 1 else 0) =
      gos.countP p + (if p g' then 1 else 0) + new.countP p := by
  obtain ⟨hlen, he⟩ := List.getElem?_eq_some_iff.mp hi
  rw [List.countP_append, List.countP_set hlen, he]
  have : (if p g = true then 1 else 0) ≤ gos.countP p := by
    split
    · exact List.countP_pos_iff.mpr ⟨g, List.mem_of_getElem? hi, by assumption⟩
    · omega
  omega

theorem set_shut {socks : List Bool} {k l : Nat} (h : (socks.set k false)[l]? = some false) :
    k = l ∨ socks[l]? = some false := by
  by_cases hk : k = l
  · exact .inl hk
  · rw [List.getElem?_set_ne hk] at h
    exact .inr h

theorem set_open {socks : List Bool} {k l : Nat} (h : (socks.set k false)[l]? = some true) :
    k ≠ l ∧ socks[l]? = some true := by
  by_cases hk : k = l
  · subst hk
    rw [List.getElem?_set_self'] at h
    cases hs : socks[k]? <;> simp [hs] at h
  · rw [List.getElem?_set_ne hk] at h
    exact ⟨hk, h⟩

theorem append_open {socks : List Bool} {l : Nat} (h : (socks ++ [true])[l]? = some true) :
    l = socks.length ∨ socks[l]? = some true := by
  rcases Nat.lt_trichotomy l socks.length with hl | hl | hl
  · rw [List.getElem?_append_left hl] at h; exact .inr h
  · exact .inl hl
  · rw [List.getElem?_eq_none (by simp; omega)] at h; cases h

theorem append_shut {socks : List Bool} {l : Nat} (h : (socks ++ [true])[l]? = some false) :
    socks[l]? = some false := by
  rcases Nat.lt_trichotomy l socks.length with hl | hl | hl
  · rw [List.getElem?_append_left hl] at h; exact h
  · subst hl; simp at h
  · rw [List.getElem?_eq_none (by simp; omega)] at h; cases h

theorem LInv.step {cfg : LConfig} {e : Option Ext} {s s' : LState} (h : LInv cfg s)
    (hs : LStep cfg e s s') : LInv cfg s' := by
  obtain ⟨hc, hi, hg⟩ := hs
  rename_i i g g' w' new
  have hmem := List.mem_of_getElem? hi
  have hwg := count_step (g' := g') (new := new) hi Go.isConn
  have hquit := h.gone g hmem
  have hmg := h.mg g hmem
  rw [← h.wg] at hwg
  have hmono : s.world.quit = true → w'.quit = true := by
    cases hg <;> first | exact id | exact fun _ => rfl
  have hgone : ∀ x ∈ s.gos.set i g' ++ new, x.leaving = true → w'.quit = true := by
    intro x hx hl
    rcases mem_step hx with hx | rfl | hn
    · exact hmono (h.gone x hx hl)
    · cases hg <;> first | assumption | rfl | cases hl
    · cases hg <;> simp at hn <;> subst hn <;> cases hl
  have hmgrs : w'.mgrs.length = s.world.mgrs.length := by
    cases hg <;> first | rfl | skip
    cases cfg.store <;> simp
  have hmg' : ∀ x ∈ s.gos.set i g' ++ new, ∀ m, x.collects m = true → m < w'.mgrs.length := by
    intro x hx m hm
    rw [hmgrs]
    rcases mem_step hx with hx | rfl | hn
    · exact h.mg x hx m hm
    · cases hg <;> first | exact hmg m hm | cases hm
    · cases hg <;> simp at hn <;> subst hn <;> cases hm
  have hown' : ∀ l : Nat, w'.socks[l]? = some true → ∃ x ∈ s.gos.set i g' ++ new, x.owns l = true := by
    intro l hl
    have old : s.world.socks[l]? = some true → (Go.owns l g = true → Go.owns l g' = true) →
        ∃ x ∈ s.gos.set i g' ++ new, x.owns l = true := fun h1 h2 =>
      own_step hi (h.own l h1) fun h3 => .inl (h2 h3)
    cases hg
    case acceptClose | packetClose =>
      obtain ⟨h1, h2⟩ := set_open hl
      exact old h2 fun h3 => absurd (by simpa [Go.owns] using h3) h1
    case startTCP | startUDP =>
      rcases append_open hl with rfl | h1
      · exact ⟨_, List.mem_append_right _ List.mem_cons_self, by simp [Go.owns]⟩
      · exact old h1 fun h3 => by cases h3
    all_goals exact old hl fun h3 => by first | exact h3 | cases h3
  have hshut : ∀ l : Nat, w'.socks[l]? = some false → w'.quit = true := by
    intro l hl
    have old : s.world.socks[l]? = some false → w'.quit = true := fun h1 => hmono (h.shut l h1)
    cases hg
    case acceptClose | packetClose => exact hquit rfl
    case startTCP | startUDP => exact old (append_shut hl)
    all_goals exact old hl
  have hret : w'.returned = true → w'.quit = true := by
    cases hg
    case closed => exact fun _ => hquit rfl
    all_goals exact fun h1 => hmono (h.retq h1)
  have hret' : w'.returned = true → ∀ m x, cfg.store = .inMemory m → w'.mgrs[m]? = some x →
      x.closed = true := by
    intro h1 m x h2 h3
    cases hg
    case closed =>
      rw [h2] at h3
      dsimp only at h3
      rw [List.getElem?_modify] at h3
      simp at h3
      obtain ⟨y, -, rfl⟩ := h3
      rfl
    all_goals exact h.ret h1 m x h2 h3
  have hlost : w'.lost ≠ 0 → w'.quit = true := by
    intro h1
    cases hg
    case datagramLost l hl => exact h.shut l hl
    all_goals exact hmono (h.lost h1)
  have hwg' : w'.wg = (s.gos.set i g' ++ new).countP Go.isConn := by
    cases hg <;> simp [Go.isConn, LWorld.log] at hwg ⊢ <;> omega
  have hsocks : s.world.socks.length ≤ w'.socks.length := by
    cases hg <;> simp [LWorld.log]
  have hvalid : ∀ x ∈ s.gos.set i g' ++ new, ∀ l, x.owns l = true → l < w'.socks.length := by
    intro x hx l hl
    have old : ∀ y ∈ s.gos, y.owns l = true → l < w'.socks.length := fun y hy h1 =>
      Nat.lt_of_lt_of_le (h.valid y hy l h1) hsocks
    rcases mem_step hx with hx | rfl | hn
    · exact old x hx hl
    · cases hg <;> first | exact old _ hmem hl | cases hl
    · cases hg <;> simp at hn <;> subst hn <;> first | cases hl | (simp [Go.owns] at hl; subst hl; simp)
  have hover : w'.returned = true → ∀ x ∈ s.gos.set i g' ++ new, x ≠ .connRead ∧ x ≠ .connServe := by
    intro hr x hx
    have old : s.world.returned = true → x ∈ s.gos → x ≠ .connRead ∧ x ≠ .connServe :=
      fun h1 h2 => h.over h1 x h2
    rcases mem_step hx with hy | rfl | hn
    · cases hg
      case closed h1 =>
        have h2 : s.gos.countP Go.isConn = 0 := by rw [← h.wg, h1]
        rw [List.countP_eq_zero] at h2
        have h3 := h2 x hy
        constructor <;> rintro rfl <;> exact h3 rfl
      all_goals exact old hr hy
    · cases hg
      case connGo h1 => rw [h.retq hr] at h1; cases h1
      case connRequest => exact absurd rfl (h.over hr _ hmem).1
      all_goals exact ⟨nofun, nofun⟩
    · cases hg <;> simp at hn <;> subst hn <;> exact ⟨nofun, nofun⟩
  exact ⟨hown', hshut, hgone, hmg', hret', hret, hwg', hlost, hvalid, hover⟩

theorem LInv.runs {cfg : LConfig} {s s' : LState} (h : LInv cfg s) (hs : LRuns cfg s s') : LInv cfg s' := by
  induction hs with
  | refl => exact h
  | step _ h1 ih => exact ih.step h1

/-- What a new server looks like. -/
theorem newServer_inv {opts : List ServerOption} {keyOk : Bool} {users : List (List Call)}
    {cfg : LConfig} {s : LState} (h : newServer opts keyOk users = some (cfg, s)) : LInv cfg s := by
  have husers : ∀ p : Go → Bool, (∀ cs, p (.user cs) = false) → ∀ g ∈ users.map Go.user, p g = false := by
    intro p hp g hg
    obtain ⟨cs, -, rfl⟩ := List.mem_map.mp hg
    exact hp cs
  have hcount : ∀ gs, (∀ g ∈ gs, Go.isConn g = false) →
      (gs ++ users.map Go.user).countP Go.isConn = 0 := by
    intro gs hgs
    rw [List.countP_eq_zero]
    intro g hg
    rcases List.mem_append.mp hg with hg | hg
    · simp [hgs g hg]
    · simp [husers Go.isConn (fun _ => rfl) g hg]
  have hcol : ∀ m x, ∀ g ∈ collector m x, g = .gcStart m := by
    intro m x g hg
    unfold collector at hg
    split at hg
    · simpa using hg
    · cases hg
  unfold newServer at h
  split at h
  · cases h
  · dsimp only at h
    split at h
    · cases h
    · split at h <;> cases h
      · refine ⟨by simp, by simp, ?_, ?_, by simp, by simp, ?_, by simp, ?_, by simp⟩
        · intro g hg hl
          rcases List.mem_append.mp hg with hg | hg
          · rcases List.mem_append.mp hg with hg | hg <;> cases hcol _ _ g hg <;> cases hl
          · rw [husers Go.leaving (fun _ => rfl) g hg] at hl; cases hl
        · intro g hg m hm
          rcases List.mem_append.mp hg with hg | hg
          · rcases List.mem_append.mp hg with hg | hg <;> cases hcol _ _ g hg <;>
              (simp [Go.collects] at hm; subst hm; simp)
          · rw [husers (Go.collects m) (fun _ => rfl) g hg] at hm; cases hm
        · refine (hcount _ ?_).symm
          intro g hg
          rcases List.mem_append.mp hg with hg | hg <;> cases hcol _ _ g hg <;> rfl
        · intro g hg l hl
          rcases List.mem_append.mp hg with hg | hg
          · rcases List.mem_append.mp hg with hg | hg <;> cases hcol _ _ g hg <;> cases hl
          · rw [husers (Go.owns l) (fun _ => rfl) g hg] at hl; cases hl
      all_goals
        refine ⟨by simp, by simp, ?_, ?_, by simp, by simp, ?_, by simp, ?_, by simp⟩
        · intro g hg hl
          rcases List.mem_append.mp hg with hg | hg
          · cases hcol _ _ g hg; cases hl
          · rw [husers Go.leaving (fun _ => rfl) g hg] at hl; cases hl
        · intro g hg m hm
          rcases List.mem_append.mp hg with hg | hg
          · cases hcol _ _ g hg
            simp [Go.collects] at hm; subst hm; simp
          · rw [husers (Go.collects m) (fun _ => rfl) g hg] at hm; cases hm
        · refine (hcount _ ?_).symm
          intro g hg
          cases hcol _ _ g hg; rfl
        · intro g hg l hl
          rcases List.mem_append.mp hg with hg | hg
          · cases hcol _ _ g hg; cases hl
          · rw [husers (Go.owns l) (fun _ => rfl) g hg] at hl; cases hl

/-! ## Rest -/

theorem rest_go {cfg : LConfig} {s : LState} (hr : s.AtRest cfg) (hc : s.world.crashed = false) {g : Go}
    (hg : g ∈ s.gos) (g' : Go) (w' : LWorld) (new : List Go) : ¬ GStep cfg none g s.world g' w' new := by
  intro h
  obtain ⟨i, hi⟩ := List.mem_iff_getElem?.mp hg
  exact hr _ (.go hc hi h)

/-- How many more steps a goroutine takes of its own accord, once the server was told to quit. -/
def Go.effort : Go → Nat
  | .acceptTop _ => 2 | .acceptWait _ => 0 | .acceptGot _ => 5 | .acceptGone _ => 1
  | .connTop => 2 | .connRead => 2 | .connServe => 3 | .connGone => 1
  | .packetTop _ => 2 | .packetWait _ => 3 | .packetGot _ => 4 | .packetGone _ => 1 | .datagram _ => 1
  | .gcStart _ => 2 | .gcWait _ => 1 | .gcVisit _ => 2
  | .user cs => 4 * cs.length | .closeWait cs => 4 * cs.length + 1 | .ended => 0

def LState.effort (s : LState) : Nat := (s.gos.map Go.effort).sum

theorem sum_set (f : Go → Nat) {gos : List Go} {i : Nat} {g : Go} (g' : Go) (hi : gos[i]? = some g) :
    ((gos.set i g').map f).sum + f g = (gos.map f).sum + f g' := by
  induction gos generalizing i with
  | nil => simp at hi
  | cons x gos ih =>
    cases i with
    | zero => simp at hi; subst hi; simp; omega
    | succ i =>
      simp only [List.getElem?_cons_succ] at hi
      have := ih hi
      simp only [List.set_cons_succ, List.map_cons, List.sum_cons]
      omega

theorem quit_stays {cfg : LConfig} {e : Option Ext} {s s' : LState} (hs : LStep cfg e s s')
    (hq : s.world.quit = true) : s'.world.quit = true := by
  obtain ⟨hc, hi, hg⟩ := hs
  cases hg <;> first | exact hq | rfl

theorem effort_step {cfg : LConfig} {s s' : LState} (hs : LStep cfg none s s')
    (hq : s.world.quit = true) : s'.effort < s.effort := by
  obtain ⟨hc, hi, hg⟩ := hs
  rename_i i g g' w' new
  have h1 := sum_set Go.effort g' hi
  unfold LState.effort
  rw [List.map_append, List.sum_append]
  have h2 : g'.effort + (new.map Go.effort).sum < g.effort := by
    cases hg <;> first
      | (rename_i h; rw [hq] at h; exact absurd h (by decide))
      | (simp [Go.effort]; try omega)
  omega

/-- `n` steps that need nothing from outside. -/
inductive LAlone (cfg : LConfig) : Nat → LState → LState → Prop where
  | refl {s} : LAlone cfg 0 s s
  | step {n s s' s''} : LAlone cfg n s s' → LStep cfg none s' s'' → LAlone cfg (n + 1) s s''

theorem LAlone.runs {cfg : LConfig} {n : Nat} {s s' : LState} (h : LAlone cfg n s s') : LRuns cfg s s' := by
  induction h with
  | refl => exact .refl
  | step _ h1 ih => exact .step ih h1

theorem LRuns.trans {cfg : LConfig} {s s' s'' : LState} (h : LRuns cfg s s') (h' : LRuns cfg s' s'') :
    LRuns cfg s s'' := by
  induction h' with
  | refl => exact h
  | step _ h1 ih => exact .step ih h1

theorem LAlone.quit {cfg : LConfig} {n : Nat} {s s' : LState} (h : LAlone cfg n s s')
    (hq : s.world.quit = true) : s'.world.quit = true := by
  induction h with
  | refl => exact hq
  | step _ h1 ih => exact quit_stays h1 (ih hq)

theorem LAlone.bound {cfg : LConfig} {n : Nat} {s s' : LState} (h : LAlone cfg n s s')
    (hq : s.world.quit = true) : n + s'.effort ≤ s.effort := by
  induction h with
  | refl => omega
  | step h0 h1 ih =>
    have := effort_step h1 (h0.quit hq)
    have := ih hq
    omega

/-- Rest is reached. -/
theorem LAlone.comes_to_rest {cfg : LConfig} (k : Nat) : ∀ s : LState, s.world.quit = true → s.effort ≤ k →
    ∃ n s', LAlone cfg n s s' ∧ s'.AtRest cfg := by
  induction k with
  | zero =>
    intro s hq hk
    refine ⟨0, s, .refl, ?_⟩
    intro s' hs
    have := effort_step hs hq
    omega
  | succ k ih =>
    intro s hq hk
    by_cases hr : s.AtRest cfg
    · exact ⟨0, s, .refl, hr⟩
    · obtain ⟨s1, hs⟩ : ∃ s1, LStep cfg none s s1 := by
        refine Classical.byContradiction fun hn => hr ?_
        intro s' hs
        exact hn ⟨s', hs⟩
      have := effort_step hs hq
      obtain ⟨n, s', h1, h2⟩ := ih s1 (quit_stays hs hq) (by omega)
      refine ⟨n + 1, s', ?_, h2⟩
      clear h2 this hk ih hr
      induction h1 with
      | refl => exact .step .refl hs
      | step _ h3 ih => exact .step (ih hs) h3

/-! ## Crashes -/

/-- Calls of `Close` that a goroutine of the application will still make. -/
def Go.closes : Go → Nat
  | .user cs | .closeWait cs => cs.count .close
  | _ => 0

structure SafeConfig (cfg : LConfig) (s : LState) : Prop where
  logger : cfg.logger = true
  crashed : s.world.crashed = false
  ticker : ∀ m x, s.world.mgrs[m]? = some x → .gcStart m ∈ s.gos → x.gcTicker > 0
  closes : (s.gos.map Go.closes).sum + (if s.world.quit then 1 else 0) ≤ 1

theorem SafeConfig.step {cfg : LConfig} {e : Option Ext} {s s' : LState} (h : SafeConfig cfg s)
    (hs : LStep cfg e s s') : SafeConfig cfg s' := by
  obtain ⟨hc, hi, hg⟩ := hs
  rename_i i g g' w' new
  have hmem := List.mem_of_getElem? hi
  have hsum := sum_set Go.closes g' hi
  have hlog : s.world.crashed = false → (s.world.log cfg).crashed = false := by
    intro h1; simp [LWorld.log, h1, h.logger]
  have hle := h.closes
  have hcr : w'.crashed = false := by
    cases hg
    case gcPanics h2 h1 => exact absurd (h.ticker _ _ h1 hmem) h2
    case closeTwice h1 =>
      rw [h1] at hle
      simp [Go.closes] at hsum hle
      omega
    case datagramLost => simp [LWorld.log, hc, h.logger]
    all_goals first | exact hc | exact hlog hc
  have htick : ∀ m x, w'.mgrs[m]? = some x → .gcStart m ∈ s.gos.set i g' ++ new → x.gcTicker > 0 := by
    intro m x hx hm
    have hm' : .gcStart m ∈ s.gos := by
      rcases mem_step hm with h1 | h1 | h1
      · exact h1
      · cases hg <;> cases h1
      · cases hg <;> simp at h1
    cases hg
    case closed =>
      revert hx
      cases hst : cfg.store with
      | custom => exact fun hx => h.ticker m x hx hm'
      | inMemory k =>
        dsimp only
        rw [List.getElem?_modify]
        intro hx
        obtain ⟨y, hy, rfl⟩ : ∃ y, s.world.mgrs[m]? = some y ∧
            (if k = m then { y with closed := true } else y) = x := by
          simpa using hx
        have := h.ticker m y hy hm'
        split <;> exact this
    all_goals exact h.ticker m x hx hm'
  refine ⟨h.logger, hcr, htick, ?_⟩
  rw [List.map_append, List.sum_append]
  cases hg <;> simp [Go.closes, LWorld.log] at hsum hle ⊢ <;> try omega
  case startFails c cs hne =>
    have hk : List.count Call.close (c :: cs) = List.count Call.close cs := by
      rw [List.count_cons]; simp [hne]
    rw [hk] at hsum
    refine Nat.le_trans (Nat.le_of_eq ?_) hle
    congr 1
    omega
  all_goals (rw [hsum]; exact hle)

theorem SafeConfig.runs {cfg : LConfig} {s s' : LState} (h : SafeConfig cfg s) (hs : LRuns cfg s s') :
    SafeConfig cfg s' := by
  induction hs with
  | refl => exact h
  | step _ h1 ih => exact ih.step h1

end Goe2ee
