import Verif.Props.FetcherCache

/-!
# C171: a cache spares its source
-/

set_option autoImplicit false

namespace Goe2ee

/-- After the underlying fetcher has given a key for a host, it is asked for that host again only when the TTL has
passed, and never again if there is none (`ttl ≤ 0`). -/
def Spared (ttl : Int) (log : List KEvent) : Prop :=
  ∀ (l m l' : List KEvent) (i j : Nat) (host : Bytes) (key : PublicKey) (r : Except Err PublicKey) (t t' : Nat),
    log = l ++ .asked i host (.ok key) t :: m ++ .asked j host r t' :: l' → 0 < ttl ∧ (t : Int) + ttl < t'

/-- **C171** as one expects it of a cache. -/
def C171_claim : Prop :=
  ∀ (ttl : Int) (callers : List (List Bytes)) (collectors : List Nat) (acts : List (Nat × KAnswer)),
    Spared ttl (cacheLog ttl callers collectors acts)

/-! ## One goroutine -/

/-- Whatever the environment does, the property holds after every effect. -/
def SafeK (G : KWorld → Prop) : KProg Unit → KWorld → Prop
  | .ret _, w => G w
  | .panic _, w => G w
  | .op o k, w => G w ∧ ∀ a, SafeK G (k (kexec a 0 o w).1) (kexec a 0 o w).2

theorem SafeK.now {G : KWorld → Prop} {p : KProg Unit} {w : KWorld} (h : SafeK G p w) : G w := by
  cases p with
  | ret => exact h
  | panic => exact h
  | op o k => exact h.1

theorem SafeK.run {G : KWorld → Prop} (acts : List (Nat × KAnswer)) : ∀ {p : KProg Unit} {w : KWorld}, SafeK G p w →
    G ((Procs.mk w [p]).run kexec acts).world := by
  induction acts with
  | nil => exact fun h => h.now
  | cons act acts ih =>
    intro p w h
    obtain ⟨i, a⟩ := act
    have hstep : (Procs.mk w [p]).run kexec ((i, a) :: acts) = ((Procs.mk w [p]).step kexec (i, a)).run kexec acts := rfl
    rw [hstep]
    cases i with
    | succ i => exact ih h
    | zero =>
      cases p with
      | ret => exact ih h
      | panic => exact ih h
      | op o k => exact ih (h.2 a)

/-- What a cache with one user keeps: every answer is in the table, or older than the TTL. -/
structure KeptKeys (ttl : Int) (w : KWorld) : Prop where
  spared : Spared ttl w.log
  answers : ∀ i host key t, .asked i host (.ok key) t ∈ w.log →
    (∃ key' ts, w.table host = some (key', ts) ∧ t ≤ ts) ∨ (0 < ttl ∧ (t : Int) + ttl < w.now)

theorem Spared.concat {ttl : Int} {log : List KEvent} {e : KEvent} (h : Spared ttl log)
    (he : ∀ j host r t', e = .asked j host r t' → ∀ i key (t : Nat), .asked i host (.ok key) t ∈ log → 0 < ttl ∧ (t : Int) + ttl < t') :
    Spared ttl (log ++ [e]) := by
  intro l m l' i j host key r t t' heq
  rcases append_cons_last heq with ⟨-, h2, h3⟩ | ⟨l'', h2⟩
  · refine he _ _ _ _ h3.symm i key t ?_
    rw [← h2]
    simp
  · exact h l m l'' i j host key r t t' h2

theorem Spared.other {ttl : Int} {log : List KEvent} {e : KEvent} (h : Spared ttl log)
    (he : ∀ j host r t', e ≠ .asked j host r t') : Spared ttl (log ++ [e]) :=
  h.concat fun j host r t' h => absurd h (he j host r t')

theorem KeptKeys.tick {ttl : Int} {w w' : KWorld} (h : KeptKeys ttl w) (hlog : w'.log = w.log) (ht : w'.table = w.table)
    (hn : w.now ≤ w'.now) : KeptKeys ttl w' := by
  obtain ⟨table', now', log'⟩ := w'
  dsimp only at hlog ht hn
  subst hlog ht
  exact ⟨h.spared, fun i host key t hm => (h.answers i host key t hm).imp _root_.id fun hx => ⟨hx.1, by dsimp only; omega⟩⟩

/-- An event that is no answer. -/
theorem KeptKeys.event {ttl : Int} {w : KWorld} (h : KeptKeys ttl w) (e : KEvent) (he : ∀ j host r t', e ≠ .asked j host r t') (n : Nat) :
    KeptKeys ttl { w with now := w.now + n, log := w.log ++ [e] } := by
  refine ⟨h.spared.other he, fun i host key t hm => ?_⟩
  rcases List.mem_append.mp hm with hm | hm
  · exact (h.answers i host key t hm).imp _root_.id fun hx => ⟨hx.1, by dsimp only; omega⟩
  · exact absurd (List.mem_singleton.mp hm).symm (he _ _ _ _)

/-- Every answer for the host is older than the TTL. -/
def Missing (ttl : Int) (host : Bytes) (w : KWorld) : Prop :=
  ∀ i key (t : Nat), .asked i host (.ok key) t ∈ w.log → 0 < ttl ∧ (t : Int) + ttl < w.now

theorem safe_fetchAndStore {ttl : Int} {host : Bytes} {w : KWorld} {k : Except Err PublicKey → KProg Unit}
    (h : KeptKeys ttl w) (hm : Missing ttl host w) (hk : ∀ r w', KeptKeys ttl w' → SafeK (fun w => Spared ttl w.log) (k r) w') :
    SafeK (fun w => Spared ttl w.log) ((fetchAndStore host).bind k) w := by
  refine ⟨h.spared, fun a => ?_⟩
  have hs : Spared ttl (w.log ++ [.asked 0 host a.fetch (w.now + a.tick)]) := by
    refine h.spared.concat ?_
    rintro _ _ _ _ ⟨⟩ i key t hi
    have := hm i key t hi
    exact ⟨this.1, by omega⟩
  show SafeK _ (Prog.bind (match a.fetch with | .error e => _ | .ok publicKey => _) k) _
  rcases hr : a.fetch with e | key
  · rw [hr] at hs
    refine hk _ _ ⟨by simpa [kexec, hr] using hs, fun i h' key t hi => ?_⟩
    rcases List.mem_append.mp hi with hi | hi
    · exact (h.answers i h' key t hi).imp _root_.id fun hx => ⟨hx.1, by simp only [kexec]; omega⟩
    · simp [hr] at hi
  · rw [hr] at hs
    refine ⟨by simpa [kexec, hr] using hs, fun b => ⟨by simpa [kexec, hr] using hs, fun c => ?_⟩⟩
    refine hk _ _ ⟨?_, ?_⟩
    · simp only [kexec, hr]
      exact hs.other (by intros; simp)
    · intro i h' key' t hi
      simp only [kexec, hr] at hi ⊢
      by_cases hh : h' = host
      · subst hh
        left
        refine ⟨key, w.now + a.tick + b.tick, if_pos rfl, ?_⟩
        simp only [List.mem_append, List.mem_singleton, KEvent.asked.injEq, reduceCtorEq, or_false] at hi
        rcases hi with hi | ⟨-, -, -, rfl⟩
        · have := (hm i key' t hi).2
          have := (hm i key' t hi).1
          omega
        · omega
      · simp only [List.mem_append, List.mem_singleton, KEvent.asked.injEq, reduceCtorEq, or_false, hh, false_and,
          and_false] at hi
        rw [if_neg hh]
        exact (h.answers i h' key' t hi).imp _root_.id fun hx => ⟨hx.1, by omega⟩

theorem safe_cacheFetch {ttl : Int} {host : Bytes} {w : KWorld} {k : Except Err PublicKey → KProg Unit}
    (h : KeptKeys ttl w) (hk : ∀ r w', KeptKeys ttl w' → SafeK (fun w => Spared ttl w.log) (k r) w') :
    SafeK (fun w => Spared ttl w.log) ((cacheFetch ttl host).bind k) w := by
  refine ⟨h.spared, fun a => ?_⟩
  have h1 : KeptKeys ttl (kexec a 0 (.load host) w).2 := h.tick rfl rfl (Nat.le_add_right _ _)
  show SafeK _ (Prog.bind (match w.table host with | none => _ | some (publicKey, storedAt) => _) k) _
  rcases ht : w.table host with _ | ⟨key, ts⟩
  · refine safe_fetchAndStore h1 (fun i key t hi => ?_) hk
    rcases h1.answers i host key t hi with ⟨_, _, hx, _⟩ | hx
    · rw [show (kexec a 0 (.load host) w).2.table = w.table from rfl, ht] at hx
      cases hx
    · exact hx
  · dsimp only
    split
    · exact hk _ _ h1
    rename_i hpos
    refine ⟨h1.spared, fun b => ?_⟩
    have h2 : KeptKeys ttl (kexec b 0 .now (kexec a 0 (.load host) w).2).2 := h1.tick rfl rfl (Nat.le_add_right _ _)
    show SafeK _ (Prog.bind (useCached ttl host key ts (w.now + a.tick + b.tick)) k) _
    unfold useCached
    split
    · exact hk _ _ h2
    rename_i hold
    refine ⟨h2.spared, fun c => ?_⟩
    have hm : Missing ttl host (kexec c 0 (.delete host) (kexec b 0 .now (kexec a 0 (.load host) w).2).2).2 := by
      intro i key' t hi
      rcases h.answers i host key' t hi with ⟨_, _, hx, hle⟩ | hx
      · rw [ht] at hx
        cases hx
        exact ⟨by omega, by simp only [kexec]; omega⟩
      · exact ⟨hx.1, by simp only [kexec]; omega⟩
    refine safe_fetchAndStore ⟨h.spared, fun i h' key' t hi => ?_⟩ hm hk
    by_cases hh : h' = host
    · subst hh
      exact .inr (hm i key' t hi)
    · rcases h.answers i h' key' t hi with hx | hx
      · left
        simp only [kexec]
        rw [if_neg hh]
        exact hx
      · exact .inr ⟨hx.1, by simp only [kexec]; omega⟩

theorem safe_fetchCalls {ttl : Int} (hosts : List Bytes) : ∀ {w : KWorld}, KeptKeys ttl w →
    SafeK (fun w => Spared ttl w.log) (fetchCalls ttl hosts) w := by
  induction hosts with
  | nil => exact fun h => h.spared
  | cons host hosts ih =>
    intro w h
    refine ⟨h.spared, fun a => ?_⟩
    have h1 : KeptKeys ttl (kexec a 0 (.called host) w).2 := h.event _ (by intros; simp) _
    have h2 : SafeK (fun w => Spared ttl w.log) ((cacheFetch ttl host).bind fun r =>
        .op (.returned host r) fun _ => fetchCalls ttl hosts) (kexec a 0 (.called host) w).2 :=
      safe_cacheFetch h1 fun r w' h' => ⟨h'.spared, fun b => ih (h'.event _ (by intros; simp) _)⟩
    have h3 : (Prog.bind (Prog.bind (cacheFetch ttl host) fun r => .op (.returned host r) fun _ => .ret ())
        fun _ => fetchCalls ttl hosts) = (cacheFetch ttl host).bind fun r =>
        .op (.returned host r) fun _ => fetchCalls ttl hosts := Prog.bind_assoc _ _ _
    exact (congrArg (SafeK _ · _) h3).mpr h2

/-! ## Keys that never expire -/

/-- Where a goroutine is in its call, for `ttl ≤ 0`. -/
inductive SPhase where
  | idle
  | began (host : Bytes)
  | miss (host : Bytes)
  | got (host : Bytes)

/-- What a goroutine may do in each phase: nothing is deleted. -/
def sparePre : KOp → SPhase → Prop
  | .called _, g => g = .idle
  | .load h, g => g = .began h
  | .now, g => ∃ h, g = .got h
  | .delete _, _ => False
  | .fetch h, g => g = .miss h
  | .store h _ _, g => g = .got h
  | .pickHost, _ => False
  | .returned _ _, g => g = .idle

def spareNext : (o : KOp) → KOp.Ret o → SPhase → SPhase
  | .called h, _, _ => .began h
  | .load h, (r : Option (PublicKey × Nat)), _ =>
    match r with
    | some _ => .idle
    | none => .miss h
  | .now, _, g => g
  | .delete _, _, g => g
  | .fetch h, (r : Except Err PublicKey), _ =>
    match r with
    | .ok _ => .got h
    | .error _ => .idle
  | .store _ _ _, _, _ => .idle
  | .pickHost, _, g => g
  | .returned _ _, _, _ => .idle

def spareA : Auto KSig SPhase := ⟨sparePre, spareNext⟩

theorem spare_calls {ttl : Int} (httl : ttl ≤ 0) (hosts : List Bytes) :
    SafeE spareA (fetchCalls ttl hosts) .idle (fun _ _ => True) (fun _ _ => True) := by
  induction hosts with
  | nil => trivial
  | cons host hosts ih =>
    refine SafeE.bind ⟨rfl, fun _ => SafeE.bind ((?_ : SafeE spareA (cacheFetch ttl host) (.began host)
      (fun _ g => g = .idle) (fun _ _ => True)).mono ?_ fun _ _ h => h)⟩
    · refine ⟨rfl, fun r => ?_⟩
      rcases (r : Option (PublicKey × Nat)) with _ | ⟨k, ts⟩
      · refine ⟨rfl, fun r => ?_⟩
        cases (r : Except Err PublicKey) with
        | error e => exact rfl
        | ok k => exact ⟨⟨_, rfl⟩, fun t => ⟨rfl, fun _ => rfl⟩⟩
      · show SafeE _ (if ttl ≤ 0 then _ else _) _ _ _
        rw [if_pos httl]
        exact rfl
    · intro r g hg
      exact ⟨hg, fun _ => ih⟩

/-- The call goroutine `i` is in began after a key was stored for the host. -/
def LateFetch (i : Nat) (host : Bytes) (log : List KEvent) : Prop :=
  ∃ (l m n : List KEvent) (j : Nat) (key : PublicKey) (ts t0 : Nat),
    log = l ++ .stored j host key ts :: m ++ .called i host t0 :: n ∧ ∀ e ∈ n, e.who ≠ i

theorem LateFetch.mem {i : Nat} {host : Bytes} {log : List KEvent} (h : LateFetch i host log) :
    ∃ j key ts, .stored j host key ts ∈ log := by
  obtain ⟨l, m, n, j, key, ts, t0, rfl, -⟩ := h
  exact ⟨j, key, ts, by simp⟩

theorem LateFetch.other {i : Nat} {host : Bytes} {log : List KEvent} {e : KEvent} (he : e.who ≠ i)
    (h : LateFetch i host (log ++ [e])) : LateFetch i host log := by
  obtain ⟨l, m, n, j, key, ts, t0, heq, hn⟩ := h
  rcases append_cons_last heq with ⟨-, -, h3⟩ | ⟨n', h2⟩
  · exact absurd (h3 ▸ rfl) he
  · refine ⟨l, m, n', j, key, ts, t0, h2, fun e' he' => hn e' ?_⟩
    rw [h2] at heq
    have : n' ++ [e] = n := by simpa using heq
    rw [← this]
    exact List.mem_append_left _ he'

/-- What a cache whose keys never expire keeps. -/
structure Forever (w : KWorld) (gs : List SPhase) : Prop where
  stored : ∀ j host key ts, .stored j host key ts ∈ w.log → w.table host ≠ none
  own : ∀ i host key t, .asked i host (.ok key) t ∈ w.log → gs[i]? = some (.got host) ∨ w.table host ≠ none
  missed : ∀ i host, gs[i]? = some (.miss host) → ¬ LateFetch i host w.log ∧ ∀ key t, .asked i host (.ok key) t ∉ w.log
  once : ∀ (l m l' : List KEvent) (i : Nat) (host : Bytes) (key : PublicKey) (r : Except Err PublicKey) (t t' : Nat),
    w.log ≠ l ++ .asked i host (.ok key) t :: m ++ .asked i host r t' :: l'
  late : ∀ (l l' : List KEvent) (i : Nat) (host : Bytes) (r : Except Err PublicKey) (t : Nat),
    w.log = l ++ .asked i host r t :: l' → ¬ LateFetch i host l

/-- A step that leaves the log and the phases of asking alone. -/
theorem Forever.quiet {w w' : KWorld} {gs : List SPhase} {i : Nat} {g g' : SPhase} (h : Forever w gs)
    (hg : gs[i]? = some g) (hlog : w'.log = w.log) (ht : w'.table = w.table)
    (hgot : ∀ host, g = .got host → g' = .got host)
    (hmiss : ∀ host, g' = .miss host → ¬ LateFetch i host w.log ∧ ∀ key t, .asked i host (.ok key) t ∉ w.log) :
    Forever w' (gs.set i g') := by
  have hi : i < gs.length := (List.getElem?_eq_some_iff.mp hg).1
  obtain ⟨table', now', log'⟩ := w'
  dsimp only at hlog ht
  subst hlog ht
  refine ⟨h.stored, fun j host key t hm => ?_, fun j host hj => ?_, h.once, h.late⟩
  · refine (h.own j host key t hm).imp (fun hx => ?_) _root_.id
    by_cases hij : i = j
    · subst hij
      rw [List.getElem?_set_self hi, hgot host (by rw [hg] at hx; exact Option.some.inj hx)]
    · rw [List.getElem?_set_ne hij]
      exact hx
  · by_cases hij : i = j
    · subst hij
      rw [List.getElem?_set_self hi] at hj
      exact hmiss host (Option.some.inj hj)
    · rw [List.getElem?_set_ne hij] at hj
      exact h.missed j host hj

/-- An event that is neither an answer nor the storing of a key. -/
theorem Forever.event {w : KWorld} {gs : List SPhase} {i : Nat} {g g' : SPhase} {e : KEvent} {n : Nat} (h : Forever w gs)
    (hg : gs[i]? = some g) (hgot : ∀ host, g ≠ .got host) (hmiss : ∀ host, g' ≠ .miss host) (hwho : e.who = i)
    (hask : ∀ j host r t, e ≠ .asked j host r t) (hst : ∀ j host key ts, e ≠ .stored j host key ts) :
    Forever { w with now := w.now + n, log := w.log ++ [e] } (gs.set i g') := by
  have hi : i < gs.length := (List.getElem?_eq_some_iff.mp hg).1
  refine ⟨fun j host key ts hm => ?_, fun j host key t hm => ?_, fun j host hj => ?_, ?_, ?_⟩
  · rcases List.mem_append.mp hm with hm | hm
    · exact h.stored j host key ts hm
    · exact absurd (List.mem_singleton.mp hm).symm (hst _ _ _ _)
  · rcases List.mem_append.mp hm with hm | hm
    · refine (h.own j host key t hm).imp (fun hx => ?_) _root_.id
      by_cases hij : i = j
      · subst hij
        rw [hg] at hx
        exact absurd (Option.some.inj hx) (hgot host)
      · rw [List.getElem?_set_ne hij]
        exact hx
    · exact absurd (List.mem_singleton.mp hm).symm (hask _ _ _ _)
  · by_cases hij : i = j
    · subst hij
      rw [List.getElem?_set_self hi] at hj
      exact absurd (Option.some.inj hj) (hmiss host)
    · rw [List.getElem?_set_ne hij] at hj
      refine ⟨fun hl => (h.missed j host hj).1 (hl.other (by rw [hwho]; exact hij)), fun key t hm => ?_⟩
      rcases List.mem_append.mp hm with hm | hm
      · exact (h.missed j host hj).2 key t hm
      · exact absurd (List.mem_singleton.mp hm).symm (hask _ _ _ _)
  · intro l m l' j host key r t t' heq
    rcases append_cons_last heq with ⟨-, -, h3⟩ | ⟨l'', h2⟩
    · exact hask _ _ _ _ h3.symm
    · exact h.once _ _ _ _ _ _ _ _ _ h2
  · intro l l' j host r t heq
    rcases append_cons_last heq with ⟨-, -, h3⟩ | ⟨l'', h2⟩
    · exact absurd h3.symm (hask _ _ _ _)
    · exact h.late _ _ _ _ _ _ h2

theorem forever_step (a : KAnswer) (i : Nat) (o : KOp) (w : KWorld) (gs : List SPhase) (g : SPhase)
    (hg : gs[i]? = some g) (hpre : sparePre o g) (h : Forever w gs) :
    Forever (kexec a i o w).2 (gs.set i (spareNext o (kexec a i o w).1 g)) := by
  have hi : i < gs.length := (List.getElem?_eq_some_iff.mp hg).1
  cases o with
  | called host =>
    obtain rfl := hpre
    exact h.event hg (by simp) (by simp [spareNext]) rfl (by simp) (by simp)
  | load host =>
    obtain rfl := hpre
    refine h.quiet hg rfl rfl (by simp) ?_
    intro host' hm
    have hm : (match w.table host with | some _ => SPhase.idle | none => .miss host) = .miss host' := hm
    split at hm
    · cases hm
    · rename_i ht
      cases hm
      refine ⟨fun hl => ?_, fun key t hk => ?_⟩
      · obtain ⟨j, key, ts, hj⟩ := hl.mem
        exact h.stored j _ key ts hj ht
      · rcases h.own i _ key t hk with hx | hx
        · rw [hg] at hx
          cases hx
        · exact hx ht
  | now =>
    obtain ⟨host, rfl⟩ := hpre
    exact h.quiet hg rfl rfl (fun _ hx => hx) (by simp [spareNext])
  | delete host => exact absurd hpre _root_.id
  | pickHost => exact absurd hpre _root_.id
  | returned host r =>
    obtain rfl := hpre
    exact h.event hg (by simp) (by simp [spareNext]) rfl (by simp) (by simp)
  | fetch host =>
    obtain rfl := hpre
    have hmiss := h.missed i host hg
    refine ⟨fun j host' key ts hm => ?_, fun j host' key t hm => ?_, fun j host' hj => ?_, ?_, ?_⟩
    · rcases List.mem_append.mp hm with hm | hm
      · exact h.stored j host' key ts hm
      · simp at hm
    · rcases List.mem_append.mp hm with hm | hm
      · refine (h.own j host' key t hm).imp (fun hx => ?_) _root_.id
        by_cases hij : i = j
        · subst hij
          rw [hg] at hx
          cases hx
        · rw [List.getElem?_set_ne hij]
          exact hx
      · simp only [List.mem_singleton, KEvent.asked.injEq] at hm
        obtain ⟨rfl, rfl, hr, -⟩ := hm
        left
        rw [List.getElem?_set_self hi]
        show some (match a.fetch with | .ok _ => SPhase.got host' | .error _ => .idle) = _
        rw [← hr]
    · by_cases hij : i = j
      · subst hij
        rw [List.getElem?_set_self hi] at hj
        have hj : some (match a.fetch with | .ok _ => SPhase.got host | .error _ => .idle) = some (.miss host') := hj
        split at hj <;> cases hj
      · rw [List.getElem?_set_ne hij] at hj
        refine ⟨fun hl => (h.missed j host' hj).1 (LateFetch.other (e := .asked i host a.fetch (w.now + a.tick)) hij hl), fun key t hm => ?_⟩
        rcases List.mem_append.mp hm with hm | hm
        · exact (h.missed j host' hj).2 key t hm
        · simp only [List.mem_singleton, KEvent.asked.injEq] at hm
          exact hij hm.1.symm
    · intro l m l' j host' key r t t' heq
      rcases append_cons_last heq with ⟨-, h2, h3⟩ | ⟨l'', h2⟩
      · cases h3
        exact hmiss.2 key t (h2 ▸ by simp)
      · exact h.once _ _ _ _ _ _ _ _ _ h2
    · intro l l' j host' r t heq
      rcases append_cons_last heq with ⟨-, h2, h3⟩ | ⟨l'', h2⟩
      · cases h3
        rw [h2]
        exact hmiss.1
      · exact h.late _ _ _ _ _ _ h2
  | store host key ts =>
    obtain rfl := hpre
    have htab : ∀ host', w.table host' ≠ none → (if host' = host then some (key, ts) else w.table host') ≠ none := by
      intro host' hx
      split
      · simp
      · exact hx
    refine ⟨fun j host' key' ts' hm => ?_, fun j host' key' t hm => ?_, fun j host' hj => ?_, ?_, ?_⟩
    · rcases List.mem_append.mp hm with hm | hm
      · exact htab host' (h.stored j host' key' ts' hm)
      · simp only [List.mem_singleton, KEvent.stored.injEq] at hm
        obtain ⟨-, rfl, -, -⟩ := hm
        simp [kexec]
    · rcases List.mem_append.mp hm with hm | hm
      · rcases h.own j host' key' t hm with hx | hx
        · by_cases hij : i = j
          · subst hij
            rw [hg] at hx
            cases hx
            right
            simp [kexec]
          · left
            rw [List.getElem?_set_ne hij]
            exact hx
        · exact .inr (htab host' hx)
      · simp at hm
    · by_cases hij : i = j
      · subst hij
        rw [List.getElem?_set_self hi] at hj
        cases hj
      · rw [List.getElem?_set_ne hij] at hj
        refine ⟨fun hl => (h.missed j host' hj).1 (LateFetch.other (e := .stored i host key ts) hij hl), fun key t hm => ?_⟩
        rcases List.mem_append.mp hm with hm | hm
        · exact (h.missed j host' hj).2 key t hm
        · simp at hm
    · intro l m l' j host' key r t t' heq
      rcases append_cons_last heq with ⟨-, -, h3⟩ | ⟨l'', h2⟩
      · cases h3
      · exact h.once _ _ _ _ _ _ _ _ _ h2
    · intro l l' j host' r t heq
      rcases append_cons_last heq with ⟨-, -, h3⟩ | ⟨l'', h2⟩
      · cases h3
      · exact h.late _ _ _ _ _ _ h2

theorem forever_start {ttl : Int} (httl : ttl ≤ 0) (callers : List (List Bytes)) :
    ProcsOK spareA Forever (cacheStart ttl callers []) (callers.map fun _ => .idle) := by
  refine ⟨by simp [cacheStart], ?_, ⟨?_, ?_, ?_, ?_, ?_⟩⟩
  · intro i p g hp hg
    simp only [cacheStart, List.map_nil, List.append_nil, List.getElem?_map, Option.map_eq_some_iff] at hp hg
    obtain ⟨hosts, _, rfl⟩ := hp
    obtain ⟨_, _, rfl⟩ := hg
    exact spare_calls httl hosts
  · intro j host key ts hm
    cases hm
  · intro j host key ts hm
    cases hm
  · intro i host hi
    simp at hi
  · intro l m l' i host key r t t' heq
    have heq : [] = l ++ KEvent.asked i host (.ok key) t :: m ++ .asked i host r t' :: l' := heq
    simp at heq
  · intro l l' i host r t heq
    have heq : [] = l ++ KEvent.asked i host r t :: l' := heq
    simp at heq

/-! ## The theorems -/

/-- **C171**, what holds with a TTL: with one goroutine that calls and no collector between its steps, the underlying
fetcher that gave a key for a host is asked for it again only when the TTL has passed. -/
theorem C171_alone_partial (ttl : Int) (hosts : List Bytes) (acts : List (Nat × KAnswer)) :
    Spared ttl (cacheLog ttl [hosts] [] acts) := by
  refine SafeK.run acts (safe_fetchCalls hosts (w := { table := fun _ => none, now := 0, log := [] }) ⟨?_, ?_⟩)
  · intro l m l' i j host key r t t' heq
    simp at heq
  · intro i host key t hm
    cases hm

/-- **C171**, what holds without a TTL, where the library starts no collector, for any number of goroutines: the
underlying fetcher gives a goroutine at most one key for a host; and a call that begins after a key was stored for
the host does not ask. -/
theorem C171_forever_partial (ttl : Int) (httl : ttl ≤ 0) (callers : List (List Bytes)) (acts : List (Nat × KAnswer)) :
    (∀ (l m l' : List KEvent) (i : Nat) (host : Bytes) (key : PublicKey) (r : Except Err PublicKey) (t t' : Nat),
      cacheLog ttl callers [] acts ≠ l ++ .asked i host (.ok key) t :: m ++ .asked i host r t' :: l') ∧
    ∀ (l m n l' : List KEvent) (i j : Nat) (host : Bytes) (key : PublicKey) (r : Except Err PublicKey) (ts t0 t : Nat),
      cacheLog ttl callers [] acts =
        l ++ .stored j host key ts :: m ++ .called i host t0 :: n ++ .asked i host r t :: l' →
      ∃ e ∈ n, e.who = i := by
  obtain ⟨gs, h⟩ := (forever_start httl callers).run (exec := kexec)
    (fun a i o w gs g hg hp hi => forever_step a i o w gs g hg hp hi) acts
  refine ⟨h.inv.once, fun l m n l' i j host key r ts t0 t heq => ?_⟩
  by_cases hn : ∃ e ∈ n, e.who = i
  · exact hn
  · exact absurd ⟨l, m, n, j, key, ts, t0, rfl, fun e he hw => hn ⟨e, he, hw⟩⟩ (h.inv.late _ _ _ _ _ _ heq)

namespace FetcherExample

/-- Two goroutines look before either has stored. -/
def both : List (Nat × KAnswer) :=
  [(0, ans 0 old), (1, ans 0 old), (0, ans 0 old), (1, ans 0 old), (0, ans 0 old), (1, ans 1 old),
   (0, ans 0 old), (0, ans 0 old), (1, ans 0 old), (1, ans 0 old), (0, ans 0 old), (1, ans 0 old)]

theorem both_log : cacheLog 10 [[[]], [[]]] [] both =
    [.called 0 [] 0, .called 1 [] 0, .asked 0 [] (.ok old) 0, .asked 1 [] (.ok old) 1,
     .stored 0 [] old 1, .stored 1 [] old 1, .returned 0 [] (.ok old) 1, .returned 1 [] (.ok old) 1] := rfl

/-- The collector finds the entry of time 0 too old at time 20, the goroutine renews it, the collector deletes the
renewed entry. -/
def collected : List (Nat × KAnswer) :=
  [(0, ans 0 old), (0, ans 0 old), (0, ans 0 old), (0, ans 0 old), (0, ans 0 old), (0, ans 0 old),
   (1, ans 0 old), (1, ans 0 old), (1, ans 20 old),
   (0, ans 0 new), (0, ans 0 new), (0, ans 0 new), (0, ans 0 new), (0, ans 0 new), (0, ans 0 new), (0, ans 0 new),
   (0, ans 0 new),
   (1, ans 0 new),
   (0, ans 0 new), (0, ans 0 new), (0, ans 0 new)]

theorem collected_log : cacheLog 10 [[[], [], []]] [1] collected =
    [.called 0 [] 0, .asked 0 [] (.ok old) 0, .stored 0 [] old 0, .returned 0 [] (.ok old) 0,
     .called 0 [] 20, .asked 0 [] (.ok new) 20, .stored 0 [] new 20, .returned 0 [] (.ok new) 20,
     .called 0 [] 20, .asked 0 [] (.ok new) 20] := rfl

/-- One goroutine, a TTL of 10: asked at time 0, not at 5, asked again at 25. -/
def renewed : List (Nat × KAnswer) :=
  [(0, ans 0 old), (0, ans 0 old), (0, ans 0 old), (0, ans 0 old), (0, ans 0 old), (0, ans 0 old),
   (0, ans 5 old), (0, ans 0 old), (0, ans 0 old), (0, ans 0 old),
   (0, ans 20 new), (0, ans 0 new), (0, ans 0 new), (0, ans 0 new), (0, ans 0 new), (0, ans 0 new), (0, ans 0 new),
   (0, ans 0 new)]

theorem renewed_log : cacheLog 10 [[[], [], []]] [] renewed =
    [.called 0 [] 0, .asked 0 [] (.ok old) 0, .stored 0 [] old 0, .returned 0 [] (.ok old) 0,
     .called 0 [] 5, .returned 0 [] (.ok old) 5,
     .called 0 [] 25, .asked 0 [] (.ok new) 25, .stored 0 [] new 25, .returned 0 [] (.ok new) 25] := rfl

end FetcherExample

open FetcherExample

/-- C171 fails: two goroutines ask before either has stored. -/
theorem C171_refuted : ¬ C171_claim := by
  intro h
  have := h 10 [[[]], [[]]] [] both [.called 0 [] 0, .called 1 [] 0] []
    [.stored 0 [] old 1, .stored 1 [] old 1, .returned 0 [] (.ok old) 1, .returned 1 [] (.ok old) 1]
    0 1 [] old (.ok old) 0 1 both_log
  omega

/-- One goroutine is not enough: a collector that saw the previous entry deletes the renewed one. -/
theorem C171_collector_refuted : ¬ ∀ (ttl : Int) (hosts : List Bytes) (visits : Nat) (acts : List (Nat × KAnswer)),
    Spared ttl (cacheLog ttl [hosts] [visits] acts) := by
  intro h
  have := h 10 [[], [], []] 1 collected
    [.called 0 [] 0, .asked 0 [] (.ok old) 0, .stored 0 [] old 0, .returned 0 [] (.ok old) 0, .called 0 [] 20]
    [.stored 0 [] new 20, .returned 0 [] (.ok new) 20, .called 0 [] 20] []
    0 0 [] new (.ok new) 20 20 collected_log
  omega

/-- The bound of `C171_forever_partial` is reached: without a TTL, two goroutines get a key each; a third call, which
begins when the key is stored, gets it without a question. -/
example : cacheLog 0 [[[], []], [[]]] [] (both ++ [(0, ans 50 new), (0, ans 0 new), (0, ans 0 new)]) =
    [.called 0 [] 0, .called 1 [] 0, .asked 0 [] (.ok old) 0, .asked 1 [] (.ok old) 1,
     .stored 0 [] old 1, .stored 1 [] old 1, .returned 0 [] (.ok old) 1, .returned 1 [] (.ok old) 1,
     .called 0 [] 51, .returned 0 [] (.ok old) 51] := rfl

/-- Both parts of `C171_alone_partial` meet: the second question comes 25 after the first. -/
example : Spared 10 (cacheLog 10 [[[], [], []]] [] renewed) ∧ ∃ l m l', cacheLog 10 [[[], [], []]] [] renewed =
    l ++ .asked 0 [] (.ok old) 0 :: m ++ .asked 0 [] (.ok new) 25 :: l' :=
  ⟨C171_alone_partial 10 _ _, [.called 0 [] 0],
    [.stored 0 [] old 0, .returned 0 [] (.ok old) 0, .called 0 [] 5, .returned 0 [] (.ok old) 5, .called 0 [] 25],
    [.stored 0 [] new 25, .returned 0 [] (.ok new) 25], renewed_log⟩

end Goe2ee
