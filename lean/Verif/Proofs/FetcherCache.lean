import Verif.Spec.FetcherCache
import Verif.Proofs.Procs

/-!
# The invariant of the caching key fetcher
-/

set_option autoImplicit false

namespace Goe2ee

theorem eventsOf_append (i : Nat) (l l' : List KEvent) :
    eventsOf i (l ++ l') = eventsOf i l ++ eventsOf i l' := by simp [eventsOf]

theorem eventsOf_own {i : Nat} {e : KEvent} (l : List KEvent) (h : e.who = i) :
    eventsOf i (l ++ [e]) = eventsOf i l ++ [e] := by simp [eventsOf, h]

theorem eventsOf_other {i : Nat} {e : KEvent} (l : List KEvent) (h : e.who ≠ i) :
    eventsOf i (l ++ [e]) = eventsOf i l := by simp [eventsOf, h]

theorem CachedAt.append {l : List KEvent} {host : Bytes} {key : PublicKey} {ta ts : Nat}
    (h : CachedAt l host key ta ts) (l' : List KEvent) : CachedAt (l ++ l') host key ta ts := by
  obtain ⟨hle, j, a, b, hj⟩ := h
  exact ⟨hle, j, a, b ++ eventsOf j l', by rw [eventsOf_append, hj]; simp⟩

/-- Where a goroutine is in its call. -/
inductive FPhase where
  | idle
  | gc
  | began (host : Bytes)
  | loaded (host : Bytes) (key : PublicKey) (ts : Nat)
  | checked (host : Bytes) (key : PublicKey) (ts tc : Nat)
  | got (host : Bytes) (key : PublicKey)
  | timed (host : Bytes) (key : PublicKey) (ts : Nat)
  | kept (host : Bytes) (key : PublicKey) (ts : Nat)
  | failed (host : Bytes) (e : Err)

/-- What a goroutine may do in each phase. -/
def fetchPre (ttl : Int) : KOp → FPhase → Prop
  | .called _, g => g = .idle
  | .load h, g => g = .began h ∨ g = .gc
  | .now, g => g = .gc ∨ (∃ h k ts, g = .loaded h k ts) ∨ ∃ h k, g = .got h k
  | .delete _, g => g = .gc ∨ ∃ h k ts tc, g = .checked h k ts tc
  | .fetch h, g => g = .began h
  | .store h k ts, g => g = .timed h k ts
  | .pickHost, g => g = .gc
  | .returned h (.error e), g => g = .failed h e
  | .returned h (.ok k), g =>
    (∃ ts, g = .loaded h k ts ∧ ttl ≤ 0) ∨ (∃ ts tc, g = .checked h k ts tc ∧ (tc : Int) ≤ ts + ttl) ∨
    ∃ ts, g = .kept h k ts

def fetchNext : (o : KOp) → KOp.Ret o → FPhase → FPhase
  | .called h, _, _ => .began h
  | .load h, (r : Option (PublicKey × Nat)), g =>
    match g, r with
    | .began _, some (k, ts) => .loaded h k ts
    | g, _ => g
  | .now, (t : Nat), g =>
    match g with
    | .loaded h k ts => .checked h k ts t
    | .got h k => .timed h k t
    | g => g
  | .delete _, _, g =>
    match g with
    | .checked h _ _ _ => .began h
    | g => g
  | .fetch h, (r : Except Err PublicKey), _ =>
    match r with
    | .ok k => .got h k
    | .error e => .failed h e
  | .store h k ts, _, _ => .kept h k ts
  | .pickHost, _, g => g
  | .returned _ _, _, _ => .idle

def fetchA (ttl : Int) : Auto KSig FPhase := ⟨fetchPre ttl, fetchNext⟩

theorem fetchAndStore_safe (ttl : Int) (host : Bytes) (Q : Except Err PublicKey → FPhase → Prop)
    (hok : ∀ k ts, Q (.ok k) (.kept host k ts)) (herr : ∀ e, Q (.error e) (.failed host e)) :
    SafeE (fetchA ttl) (fetchAndStore host) (.began host) Q (fun _ _ => True) := by
  refine ⟨rfl, fun r => ?_⟩
  cases (r : Except Err PublicKey) with
  | error e => exact herr e
  | ok k => exact ⟨Or.inr (Or.inr ⟨_, _, rfl⟩), fun t => ⟨rfl, fun _ => hok _ _⟩⟩

theorem cacheFetch_safe (ttl : Int) (host : Bytes) :
    SafeE (fetchA ttl) (cacheFetch ttl host) (.began host)
      (fun r g => fetchPre ttl (.returned host r) g) (fun _ _ => True) := by
  have hmiss := fetchAndStore_safe ttl host (fun r g => fetchPre ttl (.returned host r) g)
    (fun k ts => Or.inr (Or.inr ⟨ts, rfl⟩)) (fun e => rfl)
  refine ⟨Or.inl rfl, fun r => ?_⟩
  rcases (r : Option (PublicKey × Nat)) with _ | ⟨k, ts⟩
  · exact hmiss
  · show SafeE _ (if ttl ≤ 0 then _ else _) _ _ _
    split
    · exact Or.inl ⟨ts, rfl, ‹_›⟩
    · refine ⟨Or.inr (Or.inl ⟨_, _, _, rfl⟩), fun t => ?_⟩
      show SafeE _ (useCached ttl host k ts t) _ _ _
      unfold useCached
      split
      · refine Or.inr (Or.inl ⟨ts, t, rfl, ?_⟩)
        rename_i hle
        omega
      · exact ⟨Or.inr ⟨_, _, _, _, rfl⟩, fun _ => hmiss⟩

theorem fetchCalls_safe (ttl : Int) (hosts : List Bytes) :
    SafeE (fetchA ttl) (fetchCalls ttl hosts) .idle (fun _ _ => True) (fun _ _ => True) := by
  induction hosts with
  | nil => trivial
  | cons host hosts ih =>
    refine SafeE.bind ⟨rfl, fun _ => SafeE.bind ((cacheFetch_safe ttl host).mono ?_ fun _ _ h => h)⟩
    intro r g hg
    exact ⟨hg, fun _ => ih⟩

theorem cacheVisits_safe (ttl : Int) (n : Nat) :
    SafeE (fetchA ttl) (cacheVisits ttl n) .gc (fun _ _ => True) (fun _ _ => True) := by
  induction n with
  | zero => trivial
  | succ n ih =>
    refine SafeE.bind ⟨rfl, fun h => ⟨Or.inr rfl, fun r => ?_⟩⟩
    rcases (r : Option (PublicKey × Nat)) with _ | ⟨k, ts⟩
    · exact ih
    · refine ⟨Or.inl rfl, fun t => ?_⟩
      show SafeE _ (if _ then _ else _) _ _ _
      split
      · exact ⟨Or.inl rfl, fun _ => ih⟩
      · exact ih

/-- What is known of goroutine `i` in each phase. -/
def PhaseOK (i : Nat) (w : KWorld) : FPhase → Prop
  | .idle => True
  | .gc => True
  | .began h => ∃ a t0, t0 ≤ w.now ∧ eventsOf i w.log = a ++ [.called i h t0]
  | .loaded h k ts => ∃ a t0 ta, t0 ≤ w.now ∧ eventsOf i w.log = a ++ [.called i h t0] ∧
      CachedAt w.log h k ta ts
  | .checked h k ts tc => ∃ a t0 ta, t0 ≤ tc ∧ tc ≤ w.now ∧ eventsOf i w.log = a ++ [.called i h t0] ∧
      CachedAt w.log h k ta ts
  | .got h k => ∃ a t0 ta, t0 ≤ ta ∧ ta ≤ w.now ∧
      eventsOf i w.log = a ++ [.called i h t0, .asked i h (.ok k) ta]
  | .timed h k ts => ∃ a t0 ta, t0 ≤ ta ∧ ta ≤ ts ∧ ts ≤ w.now ∧
      eventsOf i w.log = a ++ [.called i h t0, .asked i h (.ok k) ta]
  | .kept h k ts => ∃ a t0 ta, t0 ≤ ta ∧ ta ≤ ts ∧ ts ≤ w.now ∧
      eventsOf i w.log = a ++ [.called i h t0, .asked i h (.ok k) ta, .stored i h k ts]
  | .failed h e => ∃ a t0 ta, t0 ≤ ta ∧ ta ≤ w.now ∧
      eventsOf i w.log = a ++ [.called i h t0, .asked i h (.error e) ta]

/-- A phase stays justified when time passes and others add to the log. -/
theorem PhaseOK.mono {i : Nat} {w w' : KWorld} {g : FPhase} (h : PhaseOK i w g)
    (hnow : w.now ≤ w'.now) (hev : eventsOf i w'.log = eventsOf i w.log)
    (hc : ∀ h k ta ts, CachedAt w.log h k ta ts → CachedAt w'.log h k ta ts) : PhaseOK i w' g := by
  cases g with
  | idle => trivial
  | gc => trivial
  | began h' =>
    obtain ⟨a, t0, h1, h2⟩ := h
    exact ⟨a, t0, by omega, hev.trans h2⟩
  | loaded h' k ts =>
    obtain ⟨a, t0, ta, h1, h2, h3⟩ := h
    exact ⟨a, t0, ta, by omega, hev.trans h2, hc _ _ _ _ h3⟩
  | checked h' k ts tc =>
    obtain ⟨a, t0, ta, h0, h1, h2, h3⟩ := h
    exact ⟨a, t0, ta, h0, by omega, hev.trans h2, hc _ _ _ _ h3⟩
  | got h' k =>
    obtain ⟨a, t0, ta, h0, h1, h2⟩ := h
    exact ⟨a, t0, ta, h0, by omega, hev.trans h2⟩
  | timed h' k ts =>
    obtain ⟨a, t0, ta, h0, h1, h2, h3⟩ := h
    exact ⟨a, t0, ta, h0, h1, by omega, hev.trans h3⟩
  | kept h' k ts =>
    obtain ⟨a, t0, ta, h0, h1, h2, h3⟩ := h
    exact ⟨a, t0, ta, h0, h1, by omega, hev.trans h3⟩
  | failed h' e =>
    obtain ⟨a, t0, ta, h0, h1, h2⟩ := h
    exact ⟨a, t0, ta, h0, by omega, hev.trans h2⟩

/-- The invariant. -/
structure KInv (ttl : Int) (w : KWorld) (gs : List FPhase) : Prop where
  table : ∀ h k ts, w.table h = some (k, ts) → ∃ ta, CachedAt w.log h k ta ts
  phase : ∀ (i : Nat) (g : FPhase), gs[i]? = some g → PhaseOK i w g
  log : ∀ l i h r t l', w.log = l ++ .returned i h r t :: l' → Justified ttl l i h r t

/-- The other goroutines, and the one that moved. -/
theorem phases_set {i : Nat} {gs : List FPhase} {w w' : KWorld} {g' : FPhase}
    (h : ∀ (j : Nat) (g : FPhase), gs[j]? = some g → PhaseOK j w g)
    (hnow : w.now ≤ w'.now) (hev : ∀ j, i ≠ j → eventsOf j w'.log = eventsOf j w.log)
    (hc : ∀ h k ta ts, CachedAt w.log h k ta ts → CachedAt w'.log h k ta ts)
    (hg : PhaseOK i w' g') :
    ∀ (j : Nat) (g : FPhase), (gs.set i g')[j]? = some g → PhaseOK j w' g := by
  intro j g hj
  by_cases hij : i = j
  · subst hij
    by_cases hlt : i < gs.length
    · rw [List.getElem?_set_self hlt] at hj
      cases hj
      exact hg
    · rw [List.getElem?_eq_none (by simp; omega)] at hj
      cases hj
  · rw [List.getElem?_set_ne hij] at hj
    exact (h j g hj).mono hnow (hev j hij) hc

theorem append_cons_last {α : Type} {l m l' : List α} {x e : α} (h : m ++ [x] = l ++ e :: l') :
    (l' = [] ∧ l = m ∧ e = x) ∨ ∃ l'', m = l ++ e :: l'' := by
  rcases List.eq_nil_or_concat l' with rfl | ⟨l'', y, rfl⟩
  · left
    have := List.append_inj' h rfl
    exact ⟨rfl, this.1.symm, by simpa using this.2.symm⟩
  · right
    have h' : m ++ [x] = (l ++ e :: l'') ++ [y] := by simpa using h
    exact ⟨l'', (List.append_inj' h' rfl).1⟩

/-- One event that is not a return keeps the log justified. -/
theorem log_add {ttl : Int} {log : List KEvent} {x : KEvent}
    (h : ∀ l i h r t l', log = l ++ .returned i h r t :: l' → Justified ttl l i h r t)
    (hx : ∀ i h r t, x = .returned i h r t → Justified ttl log i h r t) :
    ∀ l i h r t l', log ++ [x] = l ++ .returned i h r t :: l' → Justified ttl l i h r t := by
  intro l i hh r t l' heq
  rcases append_cons_last heq with ⟨_, rfl, he⟩ | ⟨l'', hl⟩
  · exact hx _ _ _ _ he.symm
  · exact h _ _ _ _ _ _ hl

theorem kinv_step (ttl : Int) (a : KAnswer) (i : Nat) (o : KOp) (w : KWorld) (gs : List FPhase)
    (g : FPhase) (hg : gs[i]? = some g) (hpre : fetchPre ttl o g) (hinv : KInv ttl w gs) :
    KInv ttl (kexec a i o w).2 (gs.set i (fetchNext o (kexec a i o w).1 g)) := by
  have hph := hinv.phase i g hg
  have happ : ∀ e : KEvent, ∀ h k ta ts, CachedAt w.log h k ta ts → CachedAt (w.log ++ [e]) h k ta ts :=
    fun e _ _ _ _ h => h.append _
  have htab : ∀ e : KEvent, ∀ h k ts, w.table h = some (k, ts) → ∃ ta, CachedAt (w.log ++ [e]) h k ta ts :=
    fun e h k ts ht => (hinv.table h k ts ht).imp fun _ h => h.append _
  have hoth : ∀ e : KEvent, e.who = i → ∀ j, i ≠ j → eventsOf j (w.log ++ [e]) = eventsOf j w.log :=
    fun e he j hj => eventsOf_other _ (by rw [he]; exact hj)
  cases o with
  | called h =>
    refine ⟨htab _, phases_set hinv.phase (Nat.le_add_right _ _) (hoth _ rfl) (happ _) ?_,
      log_add hinv.log (by intros; contradiction)⟩
    exact ⟨eventsOf i w.log, _, Nat.le_refl _, eventsOf_own _ rfl⟩
  | load h =>
    refine ⟨hinv.table, phases_set hinv.phase (Nat.le_add_right _ _) (fun _ _ => rfl)
      (fun _ _ _ _ h => h) ?_, hinv.log⟩
    rcases hpre with rfl | rfl
    · show PhaseOK i _ (match FPhase.began h, w.table h with | .began _, some (k, ts) => _ | g, _ => g)
      obtain ⟨l, t0, h1, h2⟩ := hph
      rcases ht : w.table h with _ | ⟨k, ts⟩
      · exact ⟨l, t0, Nat.le_trans h1 (Nat.le_add_right _ _), h2⟩
      · obtain ⟨ta, hc⟩ := hinv.table h k ts ht
        exact ⟨l, t0, ta, Nat.le_trans h1 (Nat.le_add_right _ _), h2, hc⟩
    · trivial
  | now =>
    refine ⟨hinv.table, phases_set hinv.phase (Nat.le_add_right _ _) (fun _ _ => rfl)
      (fun _ _ _ _ h => h) ?_, hinv.log⟩
    rcases hpre with rfl | ⟨h, k, ts, rfl⟩ | ⟨h, k, rfl⟩
    · trivial
    · obtain ⟨l, t0, ta, h1, h2, h3⟩ := hph
      exact ⟨l, t0, ta, Nat.le_trans h1 (Nat.le_add_right _ _), Nat.le_refl _, h2, h3⟩
    · obtain ⟨l, t0, ta, h1, h2, h3⟩ := hph
      exact ⟨l, t0, ta, h1, Nat.le_trans h2 (Nat.le_add_right _ _), Nat.le_refl _, h3⟩
  | delete h =>
    refine ⟨?_, phases_set hinv.phase (Nat.le_add_right _ _) (fun _ _ => rfl)
      (fun _ _ _ _ h => h) ?_, hinv.log⟩
    · intro h' k ts ht
      refine hinv.table h' k ts ?_
      have ht : (if h' = h then none else w.table h') = some (k, ts) := ht
      split at ht
      · cases ht
      · exact ht
    · rcases hpre with rfl | ⟨h', k, ts, tc, rfl⟩
      · trivial
      · obtain ⟨l, t0, ta, h1, h2, h3, h4⟩ := hph
        exact ⟨l, t0, Nat.le_trans h1 (Nat.le_trans h2 (Nat.le_add_right _ _)), h3⟩
  | fetch h =>
    refine ⟨htab _, phases_set hinv.phase (Nat.le_add_right _ _) (hoth _ rfl) (happ _) ?_,
      log_add hinv.log (by intros; contradiction)⟩
    have hpre : g = .began h := hpre
    subst hpre
    obtain ⟨l, t0, h1, h2⟩ := hph
    have hown : eventsOf i (w.log ++ [.asked i h a.fetch (w.now + a.tick)])
        = l ++ [.called i h t0, .asked i h a.fetch (w.now + a.tick)] := by
      rw [eventsOf_own (i := i) _ rfl, h2]; simp
    show PhaseOK i _ (match a.fetch with | .ok k => .got h k | .error e => .failed h e)
    rcases hr : a.fetch with e | k
    · rw [hr] at hown
      exact ⟨l, t0, _, Nat.le_trans h1 (Nat.le_add_right _ _), Nat.le_refl _, by simpa [kexec, hr] using hown⟩
    · rw [hr] at hown
      exact ⟨l, t0, _, Nat.le_trans h1 (Nat.le_add_right _ _), Nat.le_refl _, by simpa [kexec, hr] using hown⟩
  | store h k ts =>
    have hpre : g = .timed h k ts := hpre
    subst hpre
    obtain ⟨l, t0, ta, h0, h1, h2, h3⟩ := hph
    have hown : eventsOf i (w.log ++ [.stored i h k ts])
        = l ++ [.called i h t0, .asked i h (.ok k) ta, .stored i h k ts] := by
      rw [eventsOf_own (i := i) _ rfl, h3]; simp
    refine ⟨?_, phases_set hinv.phase (Nat.le_add_right _ _) (hoth _ rfl) (happ _) ?_,
      log_add hinv.log (by intros; contradiction)⟩
    · intro h' k' ts' ht
      replace ht : (if h' = h then some (k, ts) else w.table h') = some (k', ts') := ht
      by_cases heq : h' = h
      · subst heq
        rw [if_pos rfl] at ht
        cases ht
        refine ⟨ta, h1, i, l ++ [.called i h' t0], [], ?_⟩
        rw [show (kexec a i (.store h' k ts) w).2.log = w.log ++ [.stored i h' k ts] from rfl, hown]
        simp
      · rw [if_neg heq] at ht
        exact htab _ _ _ _ ht
    · exact ⟨l, t0, ta, h0, h1, Nat.le_trans h2 (Nat.le_add_right _ _), hown⟩
  | pickHost =>
    refine ⟨hinv.table, phases_set hinv.phase (Nat.le_add_right _ _) (fun _ _ => rfl)
      (fun _ _ _ _ h => h) ?_, hinv.log⟩
    have hpre : g = .gc := hpre
    subst hpre
    trivial
  | returned h r =>
    refine ⟨htab _, phases_set hinv.phase (Nat.le_add_right _ _) (hoth _ rfl) (happ _) trivial,
      log_add hinv.log ?_⟩
    rintro _ _ _ _ heq
    cases heq
    cases r with
    | error e =>
      have hpre : g = .failed h e := hpre
      subst hpre
      obtain ⟨l, t0, ta, h0, h1, h2⟩ := hph
      exact ⟨l, t0, Or.inl ⟨e, ta, rfl, h0, Nat.le_trans h1 (Nat.le_add_right _ _), h2⟩⟩
    | ok k =>
      rcases hpre with ⟨ts, rfl, httl⟩ | ⟨ts, tc, rfl, httl⟩ | ⟨ts, rfl⟩
      · obtain ⟨l, t0, ta, h0, h1, h2⟩ := hph
        exact ⟨l, t0, Or.inr (Or.inr ⟨k, ta, ts, t0, rfl, h1, h2, Nat.le_refl _,
          Nat.le_trans h0 (Nat.le_add_right _ _), Or.inl httl⟩)⟩
      · obtain ⟨l, t0, ta, h0, h1, h2, h3⟩ := hph
        exact ⟨l, t0, Or.inr (Or.inr ⟨k, ta, ts, tc, rfl, h2, h3, h0,
          Nat.le_trans h1 (Nat.le_add_right _ _), Or.inr httl⟩)⟩
      · obtain ⟨l, t0, ta, h0, h1, h2, h3⟩ := hph
        exact ⟨l, t0, Or.inr (Or.inl ⟨k, ta, ts, rfl, h0, h1,
          Nat.le_trans h2 (Nat.le_add_right _ _), h3⟩)⟩

/-- The phases in which the goroutines start. -/
def startPhases (callers : List (List Bytes)) (collectors : List Nat) : List FPhase :=
  callers.map (fun _ => .idle) ++ collectors.map (fun _ => .gc)

theorem start_safe (ttl : Int) (callers : List (List Bytes)) (collectors : List Nat) (i : Nat)
    (p : KProg Unit) (g : FPhase) (hp : (cacheStart ttl callers collectors).threads[i]? = some p)
    (hg : (startPhases callers collectors)[i]? = some g) :
    SafeE (fetchA ttl) p g (fun _ _ => True) (fun _ _ => True) := by
  simp only [cacheStart, startPhases] at hp hg
  by_cases hi : i < callers.length
  · rw [List.getElem?_append_left (by simpa using hi)] at hp hg
    simp only [List.getElem?_map, Option.map_eq_some_iff] at hp hg
    obtain ⟨hosts, _, rfl⟩ := hp
    obtain ⟨_, _, rfl⟩ := hg
    exact fetchCalls_safe ttl hosts
  · rw [List.getElem?_append_right (by simpa using hi)] at hp hg
    simp only [List.getElem?_map, Option.map_eq_some_iff] at hp hg
    obtain ⟨n, _, rfl⟩ := hp
    obtain ⟨_, _, rfl⟩ := hg
    exact cacheVisits_safe ttl n

theorem start_phase {callers : List (List Bytes)} {collectors : List Nat} {i : Nat} {g : FPhase}
    (hg : (startPhases callers collectors)[i]? = some g) :
    (i < callers.length ∧ g = .idle) ∨ (callers.length ≤ i ∧ g = .gc) := by
  simp only [startPhases] at hg
  by_cases hi : i < callers.length
  · rw [List.getElem?_append_left (by simpa using hi)] at hg
    simp only [List.getElem?_map, Option.map_eq_some_iff] at hg
    obtain ⟨_, _, rfl⟩ := hg
    exact Or.inl ⟨hi, rfl⟩
  · rw [List.getElem?_append_right (by simpa using hi)] at hg
    simp only [List.getElem?_map, Option.map_eq_some_iff] at hg
    obtain ⟨_, _, rfl⟩ := hg
    exact Or.inr ⟨by omega, rfl⟩

theorem kinv_start (ttl : Int) (callers : List (List Bytes)) (collectors : List Nat) :
    ProcsOK (fetchA ttl) (KInv ttl) (cacheStart ttl callers collectors)
      (startPhases callers collectors) := by
  refine ⟨by simp [cacheStart, startPhases], start_safe ttl callers collectors, ?_, ?_, ?_⟩
  · intro h k ts ht; cases ht
  · intro i g hg
    rcases start_phase hg with ⟨_, rfl⟩ | ⟨_, rfl⟩ <;> trivial
  · intro l i h r t l' heq
    have heq : ([] : List KEvent) = l ++ .returned i h r t :: l' := heq
    simp at heq

theorem kinv_run (ttl : Int) (callers : List (List Bytes)) (collectors : List Nat)
    (acts : List (Nat × KAnswer)) : ∃ gs, ProcsOK (fetchA ttl) (KInv ttl)
      ((cacheStart ttl callers collectors).run kexec acts) gs :=
  (kinv_start ttl callers collectors).run (exec := kexec)
    (fun a i o w gs g hg hp hi => kinv_step ttl a i o w gs g hg hp hi) acts

/-! ### One calling goroutine -/

theorem lastAnswer_append (host : Bytes) (l : List KEvent) (e : KEvent) :
    lastAnswer host (l ++ [e]) =
      match e with
      | .asked _ h (.ok key) _ => if h = host then some key else lastAnswer host l
      | _ => lastAnswer host l := by
  induction l with
  | nil =>
    cases e with
    | asked j h r t => cases r <;> simp [lastAnswer]
    | _ => simp [lastAnswer]
  | cons x l ih =>
    simp only [List.cons_append, lastAnswer, ih]
    cases e with
    | asked j h r t =>
      cases r with
      | error e => rfl
      | ok key =>
        by_cases hh : h = host
        · simp [hh]
        · simp [hh]
    | _ => rfl

/-- The key a phase holds, if the goroutine has one. -/
def FPhase.holds : FPhase → Option (Bytes × PublicKey)
  | .loaded h k _ => some (h, k)
  | .checked h k _ _ => some (h, k)
  | .got h k => some (h, k)
  | .timed h k _ => some (h, k)
  | .kept h k _ => some (h, k)
  | _ => none

/-- With one calling goroutine, every key in the table or in hand is the last answer. -/
structure KOne (w : KWorld) (gs : List FPhase) : Prop where
  table : ∀ h k ts, w.table h = some (k, ts) → (∀ g, gs[0]? = some g → ∀ k', g ≠ .got h k' ∧
    ∀ ts', g ≠ .timed h k' ts') → lastAnswer h w.log = some k
  gc : ∀ (i : Nat) (g : FPhase), i ≠ 0 → gs[i]? = some g → g = .gc
  held : ∀ g, gs[0]? = some g → ∀ h k, g.holds = some (h, k) → lastAnswer h w.log = some k
  log : ∀ l i h k t l', w.log = l ++ .returned i h (.ok k) t :: l' → lastAnswer h l = some k

theorem one_set {gs : List FPhase} {g g' : FPhase} {i : Nat} (hg : gs[i]? = some g) :
    (gs.set i g')[i]? = some g' := by
  rw [List.getElem?_set_self (List.getElem?_eq_some_iff.mp hg).1]

theorem KOne.zero {w : KWorld} {gs : List FPhase} (h : KOne w gs) {i : Nat} {g : FPhase}
    (hg : gs[i]? = some g) (hne : g ≠ .gc) : i = 0 := by
  by_cases hi : i = 0
  · exact hi
  · exact absurd (h.gc i g hi hg) hne

/-- A collector's effect: the log and goroutine 0 are as before, the table only shrinks. -/
theorem KOne.collect {w w' : KWorld} {gs : List FPhase} (h : KOne w gs) {i : Nat}
    (hg : gs[i]? = some .gc) (hlog : w'.log = w.log)
    (htab : ∀ h k ts, w'.table h = some (k, ts) → w.table h = some (k, ts)) :
    KOne w' (gs.set i .gc) := by
  have hset : gs.set i .gc = gs := by
    obtain ⟨hlt, he⟩ := List.getElem?_eq_some_iff.mp hg
    rw [← he]; simp
  rw [hset]
  exact ⟨fun a k ts ht hne => hlog ▸ h.table a k ts (htab _ _ _ ht) hne, h.gc,
    fun g hg a k hk => hlog ▸ h.held g hg a k hk, fun l i a k t l' he => h.log l i a k t l' (hlog ▸ he)⟩

/-- A move of goroutine 0. -/
theorem KOne.move {w w' : KWorld} {gs : List FPhase} (h : KOne w gs) {g g' : FPhase}
    (hg : gs[0]? = some g)
    (htab : ∀ h k ts, w'.table h = some (k, ts) →
      (∀ k', g' ≠ .got h k' ∧ ∀ ts', g' ≠ .timed h k' ts') → lastAnswer h w'.log = some k)
    (hheld : ∀ h k, g'.holds = some (h, k) → lastAnswer h w'.log = some k)
    (hlog : ∀ l i h k t l', w'.log = l ++ .returned i h (.ok k) t :: l' → lastAnswer h l = some k) :
    KOne w' (gs.set 0 g') := by
  refine ⟨fun a k ts ht hne => htab a k ts ht (hne g' (one_set hg)), ?_, ?_, hlog⟩
  · intro i x hi hx
    rw [List.getElem?_set_ne (by omega)] at hx
    exact h.gc i x hi hx
  · intro x hx
    rw [one_set hg] at hx
    cases hx
    exact hheld

theorem kone_step (ttl : Int) (a : KAnswer) (i : Nat) (o : KOp) (w : KWorld) (gs : List FPhase)
    (g : FPhase) (hg : gs[i]? = some g) (hpre : fetchPre ttl o g) (hinv : KOne w gs) :
    KOne (kexec a i o w).2 (gs.set i (fetchNext o (kexec a i o w).1 g)) := by
  cases o with
  | called h =>
    have hpre : g = .idle := hpre
    subst hpre
    obtain rfl := hinv.zero hg (by simp)
    refine hinv.move hg ?_ ?_ ?_
    · intro h' k ts ht _
      rw [show (kexec a 0 (.called h) w).2.log = w.log ++ [.called 0 h (w.now + a.tick)] from rfl,
        lastAnswer_append]
      exact hinv.table h' k ts ht (by intro g hg'; rw [hg] at hg'; cases hg'; simp)
    · intro h' k hk; cases hk
    · intro l j h' k t l' he
      rcases append_cons_last he with ⟨_, _, hx⟩ | ⟨l'', hl⟩
      · cases hx
      · exact hinv.log _ _ _ _ _ _ hl
  | load h =>
    rcases hpre with rfl | rfl
    · obtain rfl := hinv.zero hg (by simp)
      have htab := hinv.table
      refine hinv.move hg ?_ ?_ hinv.log
      · intro h' k ts ht _
        exact htab h' k ts ht (by intro g hg'; rw [hg] at hg'; cases hg'; simp)
      · intro h' k hk
        have hk : FPhase.holds (match FPhase.began h, w.table h with
          | .began _, some (k, ts) => .loaded h k ts | g, _ => g) = some (h', k) := hk
        rcases ht : w.table h with _ | ⟨k', ts⟩
        · rw [ht] at hk; cases hk
        · rw [ht] at hk
          cases hk
          exact htab h k ts ht (by intro g hg'; rw [hg] at hg'; cases hg'; simp)
    · exact hinv.collect hg rfl fun _ _ _ h => h
  | now =>
    rcases hpre with rfl | ⟨h, k, ts, rfl⟩ | ⟨h, k, rfl⟩
    · exact hinv.collect hg rfl fun _ _ _ h => h
    · obtain rfl := hinv.zero hg (by simp)
      refine hinv.move hg ?_ ?_ hinv.log
      · intro h' k' ts' ht _
        exact hinv.table h' k' ts' ht (by intro g hg'; rw [hg] at hg'; cases hg'; simp)
      · intro h' k' hk
        exact hinv.held _ hg h' k' hk
    · obtain rfl := hinv.zero hg (by simp)
      refine hinv.move hg ?_ ?_ hinv.log
      · intro h' k' ts' ht hne
        refine hinv.table h' k' ts' ht ?_
        intro g hg'
        rw [hg] at hg'
        cases hg'
        intro k''
        have h1 := (hne k'').2 (w.now + a.tick)
        refine ⟨fun hc => h1 ?_, fun _ hc => by cases hc⟩
        cases hc
        rfl
      · intro h' k' hk
        exact hinv.held _ hg h' k' hk
  | delete h =>
    have hsub : ∀ h' k ts, (kexec a i (.delete h) w).2.table h' = some (k, ts) →
        w.table h' = some (k, ts) := by
      intro h' k ts ht
      have ht : (if h' = h then none else w.table h') = some (k, ts) := ht
      split at ht
      · cases ht
      · exact ht
    rcases hpre with rfl | ⟨h', k, ts, tc, rfl⟩
    · exact hinv.collect hg rfl hsub
    · obtain rfl := hinv.zero hg (by simp)
      refine hinv.move hg ?_ ?_ hinv.log
      · intro h'' k' ts' ht _
        exact hinv.table h'' k' ts' (hsub _ _ _ ht) (by intro g hg'; rw [hg] at hg'; cases hg'; simp)
      · intro h'' k' hk; cases hk
  | fetch h =>
    have hpre : g = .began h := hpre
    subst hpre
    obtain rfl := hinv.zero hg (by simp)
    have hl : (kexec a 0 (.fetch h) w).2.log = w.log ++ [.asked 0 h a.fetch (w.now + a.tick)] := rfl
    have hold : ∀ h' k ts, w.table h' = some (k, ts) → lastAnswer h' w.log = some k := fun h' k ts ht =>
      hinv.table h' k ts ht (by intro g hg'; rw [hg] at hg'; cases hg'; simp)
    rcases hr : a.fetch with e | k
    · refine hinv.move hg ?_ ?_ ?_
      · intro h' k ts ht _
        rw [hl, lastAnswer_append, hr]
        exact hold h' k ts ht
      · intro h' k hk
        have hk : FPhase.holds (match a.fetch with | .ok k => .got h k | .error e => .failed h e)
          = some (h', k) := hk
        rw [hr] at hk
        cases hk
      · intro l j h' k t l' he
        rcases append_cons_last he with ⟨_, _, hx⟩ | ⟨l'', hl⟩
        · cases hx
        · exact hinv.log _ _ _ _ _ _ hl
    · have hph : fetchNext (.fetch h) (kexec a 0 (.fetch h) w).1 (.began h) = .got h k := by
        show (match a.fetch with | .ok k => FPhase.got h k | .error e => .failed h e) = _
        rw [hr]
      rw [hph]
      refine hinv.move hg ?_ ?_ ?_
      · intro h' k' ts ht hne
        have hh : h ≠ h' := fun hc => (hne k).1 (by rw [hc])
        rw [hl, lastAnswer_append, hr]
        simp only [if_neg hh]
        exact hold h' k' ts ht
      · intro h' k' hk
        cases hk
        rw [hl, lastAnswer_append, hr]
        simp
      · intro l j h' k t l' he
        rcases append_cons_last he with ⟨_, _, hx⟩ | ⟨l'', hl⟩
        · cases hx
        · exact hinv.log _ _ _ _ _ _ hl
  | store h k ts =>
    have hpre : g = .timed h k ts := hpre
    subst hpre
    obtain rfl := hinv.zero hg (by simp)
    have hl : (kexec a 0 (.store h k ts) w).2.log = w.log ++ [.stored 0 h k ts] := rfl
    refine hinv.move hg ?_ ?_ ?_
    · intro h' k' ts' ht _
      rw [hl, lastAnswer_append]
      replace ht : (if h' = h then some (k, ts) else w.table h') = some (k', ts') := ht
      by_cases heq : h' = h
      · subst heq
        rw [if_pos rfl] at ht
        cases ht
        exact hinv.held _ hg h' k rfl
      · rw [if_neg heq] at ht
        refine hinv.table h' k' ts' ht ?_
        intro g hg'
        rw [hg] at hg'
        cases hg'
        refine fun k'' => ⟨by simp, fun _ hc => ?_⟩
        cases hc
        exact heq rfl
    · intro h' k' hk
      cases hk
      rw [hl, lastAnswer_append]
      exact hinv.held _ hg h k rfl
    · intro l j h' k t l' he
      rcases append_cons_last he with ⟨_, _, hx⟩ | ⟨l'', hl⟩
      · cases hx
      · exact hinv.log _ _ _ _ _ _ hl
  | pickHost =>
    have hpre : g = .gc := hpre
    subst hpre
    exact hinv.collect hg rfl fun _ _ _ h => h
  | returned h r =>
    have hne : g ≠ .gc := by
      rintro rfl
      cases r with
      | error e => cases hpre
      | ok k => rcases hpre with ⟨_, h, _⟩ | ⟨_, _, h, _⟩ | ⟨_, h⟩ <;> cases h
    obtain rfl := hinv.zero hg hne
    have hng : ∀ h' k', g ≠ .got h' k' ∧ ∀ ts', g ≠ .timed h' k' ts' := by
      intro h' k'
      cases r with
      | error e =>
        have hpre : g = .failed h e := hpre
        subst hpre
        exact ⟨by simp, by simp⟩
      | ok k =>
        rcases hpre with ⟨_, rfl, _⟩ | ⟨_, _, rfl, _⟩ | ⟨_, rfl⟩ <;> exact ⟨by simp, by simp⟩
    have hl : (kexec a 0 (.returned h r) w).2.log = w.log ++ [.returned 0 h r (w.now + a.tick)] := rfl
    refine hinv.move hg ?_ ?_ ?_
    · intro h' k ts ht _
      rw [hl, lastAnswer_append]
      refine hinv.table h' k ts ht ?_
      intro g' hg' k'
      rw [hg] at hg'
      cases hg'
      exact hng h' k'
    · intro h' k hk; cases hk
    · intro l j h' k t l' he
      rcases append_cons_last he with ⟨_, rfl, hx⟩ | ⟨l'', hl⟩
      · cases hx
        rcases hpre with ⟨_, rfl, _⟩ | ⟨_, _, rfl, _⟩ | ⟨_, rfl⟩ <;> exact hinv.held _ hg h k rfl
      · exact hinv.log _ _ _ _ _ _ hl

theorem kone_run (ttl : Int) (hosts : List Bytes) (collectors : List Nat)
    (acts : List (Nat × KAnswer)) : ∃ gs, ProcsOK (fetchA ttl) KOne
      ((cacheStart ttl [hosts] collectors).run kexec acts) gs := by
  refine ProcsOK.run (exec := kexec)
    (fun a i o w gs g hg hp hi => kone_step ttl a i o w gs g hg hp hi) acts
    (gs := startPhases [hosts] collectors)
    ⟨by simp [cacheStart, startPhases], start_safe ttl [hosts] collectors, ?_, ?_, ?_, ?_⟩
  · intro h k ts ht; cases ht
  · intro i g hi hg
    rcases start_phase hg with ⟨hlt, _⟩ | ⟨_, rfl⟩
    · simp at hlt; omega
    · rfl
  · intro g hg h k hk
    rcases start_phase hg with ⟨_, rfl⟩ | ⟨_, rfl⟩ <;> cases hk
  · intro l i h k t l' he
    have he : ([] : List KEvent) = l ++ .returned i h (.ok k) t :: l' := he
    simp at he

end Goe2ee
