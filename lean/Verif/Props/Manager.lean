import Verif.Proofs.ManagerRace
import Verif.Spec.Toy

/-!
# Properties of the in-memory session manager
-/

set_option autoImplicit false

namespace Goe2ee

section
variable {C : Crypto}

/-! ## C34 -/

/-- **C34**: whatever `Load` returns was stored under that id, and nothing was stored under it since. -/
theorem C34_latest_store (ttl : Nat) (calls : List (MCall × Nat)) (id : Bytes) (t : Nat) (r : Ref)
    (h : (callAt C ttl (afterCalls C ttl .empty calls) (.load id, t)).1 = .val (some r)) :
    ∃ before t₀ after, calls = before ++ (.store id r, t₀) :: after ∧
      ∀ x ∈ after, ∀ r', x.1 ≠ .store id r' := by
  rcases ht : (afterCalls C ttl .empty calls).table id with _ | ⟨r', u⟩
  · rw [(callAt_load_none ttl _ id t ht).1] at h; cases h
  · rw [(callAt_load_some ttl _ id r' u t ht).1] at h
    cases h
    exact (entry_origin ttl id r u calls .empty rfl ht).1

/-- **C34**: `Load` returns the session stored last, if every visit of the collector since then came
at most the TTL after a use of the id (its `Store`, or a `Load` since). -/
theorem C34_active_sessions_stay (ttl : Nat) (before after : List (MCall × Nat)) (id : Bytes) (r : Ref)
    (t₀ t : Nat)
    (hsorted : (before ++ (.store id r, t₀) :: after).Pairwise (fun x y => x.2 ≤ y.2))
    (hlast : ∀ x ∈ after, ∀ r', x.1 ≠ .store id r')
    (hactive : ∀ pre v post, after = pre ++ (.visit id, v) :: post →
      v - t₀ ≤ ttl ∨ ∃ u, (.load id, u) ∈ pre ∧ v - u ≤ ttl) :
    (callAt C ttl (afterCalls C ttl .empty (before ++ (.store id r, t₀) :: after)) (.load id, t)).1 =
      .val (some r) := by
  have h2 := (List.pairwise_append.mp hsorted).2.1
  obtain ⟨last, hkept⟩ := entry_kept (C := C) ttl id r after
    (callAt C ttl (afterCalls C ttl .empty before) (.store id r, t₀)).2 t₀ [t₀]
    (by rw [callAt_store]; exact if_pos rfl) (by simp) (List.pairwise_cons.mp h2).2
    (fun x hx => (List.pairwise_cons.mp h2).1 x hx) hlast
    (fun pre v post he => by
      rcases hactive pre v post he with h | h
      · exact .inl ⟨t₀, by simp, h⟩
      · exact .inr h)
  rw [afterCalls_append, afterCalls_cons]
  exact (callAt_load_some ttl _ id r last t hkept).1

/-- **C34**: after a visit of the collector that comes later than the TTL after every use of the id,
`Load` finds nothing, until the id is stored again. -/
theorem C34_idle_sessions_expire (ttl : Nat) (before after : List (MCall × Nat)) (id : Bytes)
    (v t : Nat)
    (hidle : ∀ x ∈ before, x.1 = .load id ∨ (∃ r, x.1 = .store id r) → v - x.2 > ttl)
    (hno : ∀ x ∈ after, ∀ r, x.1 ≠ .store id r) :
    (callAt C ttl (afterCalls C ttl .empty (before ++ (.visit id, v) :: after)) (.load id, t)).1 =
      .val none := by
  rw [afterCalls_append, afterCalls_cons]
  refine (callAt_load_none ttl _ id t (absent_stays ttl id after _ ?_ hno)).1
  rcases ht : (afterCalls C ttl .empty before).table id with _ | ⟨r, u⟩
  · rw [callAt_visit_none ttl _ id v ht]; exact ht
  · rw [callAt_visit_some ttl _ id r u v ht]
    have hu := (entry_origin ttl id r u before .empty rfl ht).2
    have : v - u > ttl := by
      rcases hu with hu | ⟨r', hu⟩
      · exact hidle _ hu (.inl rfl)
      · exact hidle _ hu (.inr ⟨r', rfl⟩)
    exact if_pos ⟨rfl, this⟩

/-- **C34**: without visits (a manager made with a TTL of zero or less starts no collector) a stored
session stays. -/
theorem C34_without_collector (ttl : Nat) (before after : List (MCall × Nat)) (id : Bytes) (r : Ref)
    (t₀ t : Nat)
    (hsorted : (before ++ (.store id r, t₀) :: after).Pairwise (fun x y => x.2 ≤ y.2))
    (hlast : ∀ x ∈ after, ∀ r', x.1 ≠ .store id r')
    (hnone : ∀ x ∈ after, ∀ k, x.1 ≠ .visit k) :
    (callAt C ttl (afterCalls C ttl .empty (before ++ (.store id r, t₀) :: after)) (.load id, t)).1 =
      .val (some r) :=
  C34_active_sessions_stay ttl before after id r t₀ t hsorted hlast fun pre v post he =>
    absurd rfl (hnone (.visit id, v) (by rw [he]; simp) id)

/-- Stored at 0, loaded at 8, visited at 17 and 40 (TTL 10): there at 17, gone at 40. -/
example :
    (callAt Toy.crypto 10 (afterCalls Toy.crypto 10 .empty
      [(.store [1] 7, 0), (.load [1], 8), (.visit [1], 17)]) (.load [1], 17)).1 = .val (some 7) ∧
    (callAt Toy.crypto 10 (afterCalls Toy.crypto 10 .empty
      [(.store [1] 7, 0), (.load [1], 8), (.visit [1], 17), (.visit [1], 40)]) (.load [1], 41)).1 =
      .val none := ⟨rfl, rfl⟩

/-! ## C35 -/

/-- The claim: under every interleaving, if a `Store` of `r` under `k` begins (after `pre`) when every
other `Store` under `k` has finished, and has finished (after `mid`) when a `Load` of `k` begins, then
that `Load` returns `r`, unless more than the TTL has passed since the `Store` began. -/
def C35_claim : Prop :=
  ∀ (C : Crypto) (ttl : Nat) (calls : List MCall) (pre mid post : List (Nat × Nat)) (i j : Nat)
    (k : Bytes) (r : Ref) (x : Option Ref),
    let s₀ : MSys C := (MSys.start ttl calls).run pre
    let s₁ := s₀.run mid
    let s₂ := s₁.run post
    calls[i]? = some (.store k r) → calls[j]? = some (.load k) →
    (∀ t, s₀.threads[i]? = some t → t.started = false) →
    (∀ (l : Nat) t, s₀.threads[l]? = some t → l ≠ i → (∃ r', t.call = .store k r') → t.result ≠ none) →
    (∀ t, s₁.threads[i]? = some t → t.result ≠ none) →
    (∀ t, s₁.threads[j]? = some t → t.started = false) →
    (∀ t, s₂.threads[j]? = some t → t.result = some x) →
    s₂.world.now ≤ s₀.world.now + ttl → x = some r

/-- **C35** is false of the code: a `Load` that read the old session before the `Store` writes it back
afterwards. -/
theorem C35_lost_update : ¬ C35_claim := by
  intro h
  have := h Toy.crypto 10 [.store [1] 1, .load [1], .store [1] 2, .load [1]]
    [(0, 0), (0, 0), (1, 0)] [(2, 0), (2, 0)] [(1, 0), (1, 0), (3, 0), (3, 0), (3, 0)] 2 3 [1] 2 (some 1)
    rfl rfl (fun t ht => by cases ht; rfl)
    (by
      intro l t ht hl hs
      match l, hl with
      | 0, _ => cases ht; intro h; cases h
      | 1, _ => cases ht; obtain ⟨r', hr'⟩ := hs; cases hr'
      | 2, hl => exact absurd rfl hl
      | 3, _ => cases ht; obtain ⟨r', hr'⟩ := hs; cases hr'
      | l + 4, _ => cases ht)
    (fun t ht => by cases ht; intro h; cases h) (fun t ht => by cases ht; rfl)
    (fun t ht => by cases ht; rfl) (by decide)
  cases this

/-- **C35** is false of the code also in another way: the collector, having found the old session
idle, deletes the new one. -/
theorem C35_collected_while_fresh : ¬ C35_claim := by
  intro h
  have := h Toy.crypto 10 [.store [1] 1, .visit [1], .store [1] 2, .load [1]]
    [(0, 0), (0, 0), (1, 0), (1, 20)] [(2, 0), (2, 0)] [(1, 0), (3, 0)] 2 3 [1] 2 none
    rfl rfl (fun t ht => by cases ht; rfl)
    (by
      intro l t ht hl hs
      match l, hl with
      | 0, _ => cases ht; intro h; cases h
      | 1, _ => cases ht; obtain ⟨r', hr'⟩ := hs; cases hr'
      | 2, hl => exact absurd rfl hl
      | 3, _ => cases ht; obtain ⟨r', hr'⟩ := hs; cases hr'
      | l + 4, _ => cases ht)
    (fun t ht => by cases ht; intro h; cases h) (fun t ht => by cases ht; rfl)
    (fun t ht => by cases ht; rfl) (by decide)
  cases this

/-- **C35** for a `Store` during which no other call for the same id is in progress; whatever happens
before, concurrently for other ids, and afterwards.  Missing: a `Load` or a visit of the collector in
progress for the same id (`C35_lost_update`, `C35_collected_while_fresh`). -/
theorem C35_undisturbed_store_partial (ttl : Nat) (calls : List MCall)
    (pre mid post : List (Nat × Nat)) (i j : Nat) (k : Bytes) (r : Ref) (x : Option Ref)
    (hi : calls[i]? = some (.store k r)) (hj : calls[j]? = some (.load k))
    (hstore : ∀ t, ((MSys.start (C := C) ttl calls).run pre).threads[i]? = some t → t.started = false)
    (hothers : ∀ (l : Nat) t, ((MSys.start (C := C) ttl calls).run pre).threads[l]? = some t → l ≠ i →
      (∃ r', t.call = .store k r') → t.result ≠ none)
    (hdone : ∀ t, (((MSys.start (C := C) ttl calls).run pre).run mid).threads[i]? = some t →
      t.result ≠ none)
    (hload : ∀ t, (((MSys.start (C := C) ttl calls).run pre).run mid).threads[j]? = some t →
      t.started = false)
    (hres : ∀ t, ((((MSys.start (C := C) ttl calls).run pre).run mid).run post).threads[j]? = some t →
      t.result = some x)
    (htime : ((((MSys.start (C := C) ttl calls).run pre).run mid).run post).world.now ≤
      ((MSys.start (C := C) ttl calls).run pre).world.now + ttl)
    -- no other call for `k` is in progress when the `Store` begins, and none moves until it is done
    (hquiet : ∀ (l : Nat) t, ((MSys.start (C := C) ttl calls).run pre).threads[l]? = some t → l ≠ i →
      t.call.key = k → t.started = false ∨ t.result ≠ none)
    (hmid : ∀ act ∈ mid, act.1 = i ∨ ∀ c, calls[act.1]? = some c → c.key ≠ k) :
    x = some r := by
  have sane₀ := sane_run ttl calls pre _ (sane_start (C := C) ttl calls)
  have sane₁ := sane_run ttl calls mid _ sane₀
  have sane₂ := sane_run ttl calls post _ sane₁
  generalize (MSys.start (C := C) ttl calls).run pre = s₀ at *
  have callOf : ∀ {s : MSys C}, Sane ttl calls s → ∀ (l : Nat) t, s.threads[l]? = some t →
      calls[l]? = some t.call := by
    intro s hs l t ht
    rw [← hs.calls, List.getElem?_map, ht]
    rfl
  have getT : ∀ {s : MSys C}, Sane ttl calls s → ∀ (l : Nat) c, calls[l]? = some c →
      ∃ t, s.threads[l]? = some t ∧ t.call = c := by
    intro s hs l c hc
    rw [← hs.calls, List.getElem?_map] at hc
    cases ht : s.threads[l]? with
    | none => rw [ht] at hc; cases hc
    | some t => rw [ht] at hc; exact ⟨t, rfl, by simpa using hc⟩
  have alone : Alone k r s₀.world.now i s₀.threads s₀ := by
    refine ⟨Nat.le_refl _, ?_, ?_, fun _ _ h _ _ => h, rfl⟩
    · intro t ht
      have hp := sane₀.fresh t (List.mem_of_getElem? ht) (hstore t ht)
      have hc := callOf sane₀ i t ht
      rw [hi] at hc
      rw [hp, ← Option.some.inj hc]
      exact .store
    · exact fun l t ht _ hk => sane₀.own t (List.mem_of_getElem? ht) k hk
  have alone₁ := alone_run mid s₀ alone (fun act ha => (hmid act ha).imp id fun h t ht =>
    h t.call (callOf sane₀ act.1 t ht))
  have fin : ∀ t : MThread C, t.result ≠ none → ∃ y, t.prog = .ret y := by
    intro t ht
    cases hp : t.prog with
    | ret y => exact ⟨y, rfl⟩
    | panic m => exact absurd (by simp only [MThread.result, hp]) ht
    | op o kk => exact absurd (by simp only [MThread.result, hp]) ht
  obtain ⟨ti, hti, -⟩ := getT sane₁ i _ hi
  have stored : Stored k r s₀.world.now (s₀.run mid).world := by
    have h1 := alone₁.store ti hti
    obtain ⟨y, hy⟩ := fin ti (hdone ti hti)
    rw [hy] at h1
    cases h1 with
    | done h => exact h
  obtain ⟨tj, htj, hcj⟩ := getT sane₂ j _ hj
  have hphase := harmless_run (k := k) (r := r) (ttl := ttl) post (s₀.run mid) stored ?_ j ?_ htime tj htj
  · have h1 := hres tj htj
    have h2 : ∃ y, tj.prog = .ret y := fin tj (by rw [h1]; simp)
    obtain ⟨y, hy⟩ := h2
    rw [hy] at hphase
    cases hphase
    simp only [MThread.result, hy, Option.some.injEq] at h1
    exact h1.symm
  · intro t ht
    obtain ⟨l, hl⟩ := List.mem_iff_getElem?.mp ht
    by_cases hli : l = i
    · subst hli
      exact .inr (.inr (.inr (fin t (hdone t hl))))
    by_cases hk : t.call.key = k
    · have h0 := alone₁.same l t hl hli hk
      by_cases hs : ∃ r', t.call = .store k r'
      · exact .inr (.inr (.inr (fin t (hothers l t h0 hli hs))))
      rcases hquiet l t h0 hli hk with hst | hst
      · have hp := sane₀.fresh t (List.mem_of_getElem? h0) hst
        have := harmless_init (C := C) k r s₀.world.now ttl t.call t.started
          (fun r' he => hs ⟨r', he⟩)
        rw [← hp] at this
        exact this
      · exact .inr (.inr (.inr (fin t hst)))
    · exact .inl (sane₁.own t ht k hk)
  · intro t ht
    have hp := sane₁.fresh t (List.mem_of_getElem? ht) (hload t ht)
    have hc := callOf sane₁ j t ht
    rw [hj] at hc
    rw [hp, ← Option.some.inj hc]
    exact .load

/-- A `Load` and a visit run interleaved after an undisturbed `Store`; the last `Load` finds it. -/
example : (((MSys.start (C := Toy.crypto) 10 [.store [1] 1, .load [1], .visit [1], .load [1]]).run
    [(0, 0), (0, 3), (1, 0), (2, 0), (1, 2), (2, 4), (1, 0), (3, 0), (3, 1), (3, 0)]).threads.map
    fun t => t.result) = [some none, some (some 1), some none, some (some 1)] := rfl

end

end Goe2ee
