import Verif.Proofs.Closing

/-!
# `Server.Close` returns under every fair schedule
-/

set_option autoImplicit false

namespace Goe2ee

/-- How far a goroutine can still go once the quit channel is closed. -/
def GKind.weight : GKind → Nat
  | .acc0 => 1
  | .acc1 => 7
  | .acc2 _ => 6
  | .acc3 _ => 5
  | .rec0 => 1
  | .rec1 => 3
  | .rec2 _ => 2
  | .serve => 3
  | .cls1 => 2
  | .cls2 => 1
  | .close0 => 1
  | .close1 => 2
  | .close2 => 1
  | .plain => 0

theorem moves_weight {k k' : GKind} {q' : Bool} {n n' : Nat} {sp : List Peer}
    (h : Moves k true n k' q' n' sp) :
    q' = true ∧ ((k' = k ∧ sp = [] ∧ k.mayStay n) ∨
      k'.weight + total GKind.weight (sp.map GKind.ofPeer) < k.weight) := by
  cases h with
  | stay h => exact ⟨rfl, .inl ⟨rfl, rfl, h⟩⟩
  | @spawn q n p hp => cases p with
    | tcp => exact ⟨rfl, .inr (by simp [GKind.weight, total, GKind.ofPeer])⟩
    | udp => exact hp.elim
  | @spawnU q n p hp => cases p with
    | tcp => exact (hp trivial).elim
    | udp => exact ⟨rfl, .inr (by simp [GKind.weight, total, GKind.ofPeer])⟩
  | _ => exact ⟨rfl, .inr (by simp [GKind.weight, total])⟩

section
variable {C : Crypto} {M : Manager C} {timeout : Nat} {s0 : Sys C} {σ : Nat → Nat × Answer C}

theorem kstep_weight {s s' : Sys C} {i : Nat} {ks ks' : List GKind} (h : KStep s i ks s' ks')
    (hq : s.world.quit = true) :
    s'.world.quit = true ∧ (ks' = ks ∨ total GKind.weight ks' < total GKind.weight ks) := by
  cases h with
  | idle _ h1 h2 => exact ⟨h1 ▸ hq, .inl h2⟩
  | @move k k' sp hk hm he _ _ _ =>
    rw [hq] at hm
    obtain ⟨h1, h2⟩ := moves_weight hm
    refine ⟨h1, ?_⟩
    rcases h2 with ⟨rfl, rfl, -⟩ | h2
    · left
      rw [he, set_same hk, List.map_nil, List.append_nil]
    · right
      have := total_set GKind.weight k' hk
      rw [he, total_append]
      omega

/-- The kinds along an endless schedule. -/
structure KRun (M : Manager C) (timeout : Nat) (s0 : Sys C) (σ : Nat → Nat × Answer C)
    (ks : Nat → List GKind) : Prop where
  kinds : ∀ n, Kinds M (s0.after M timeout σ n) (ks n)
  step : ∀ n, KStep (s0.after M timeout σ n) (σ n).1 (ks n) (s0.after M timeout σ (n + 1)) (ks (n + 1))

theorem exists_krun (hM : M.Passive) (timeout : Nat) (σ : Nat → Nat × Answer C) {ks0 : List GKind}
    (h : Kinds M s0 ks0) : ∃ ks, ks 0 = ks0 ∧ KRun M timeout s0 σ ks := by
  have hstep : ∀ (n : Nat) (ks : List GKind), Kinds M (s0.after M timeout σ n) ks →
      ∃ ks', Kinds M (s0.after M timeout σ (n + 1)) ks' ∧
        KStep (s0.after M timeout σ n) (σ n).1 ks (s0.after M timeout σ (n + 1)) ks' :=
    fun n ks hk => hk.step hM timeout (σ n)
  let f : (n : Nat) → { ks // Kinds M (s0.after M timeout σ n) ks } := fun n =>
    Nat.rec ⟨ks0, h⟩ (fun n x => ⟨Classical.choose (hstep n x.1 x.2),
      (Classical.choose_spec (hstep n x.1 x.2)).1⟩) n
  exact ⟨fun n => (f n).1, rfl, fun n => (f n).2,
    fun n => (Classical.choose_spec (hstep n (f n).1 (f n).2)).2⟩

theorem after_other {n i : Nat} {t : Thread C} (h : (s0.after M timeout σ n).threads[i]? = some t)
    (hi : (σ n).1 ≠ i) : (s0.after M timeout σ (n + 1)).threads[i]? = some t := by
  show (Sys.step M timeout (s0.after M timeout σ n) (σ n)).threads[i]? = some t
  unfold Sys.step
  split
  · exact h
  · dsimp only
    rw [List.getElem?_append_left (by
      rw [List.length_set]; exact (List.getElem?_eq_some_iff.mp h).1), List.getElem?_set_ne hi]
    exact h

theorem after_turn {n : Nat} {t : Thread C} (h : (s0.after M timeout σ n).threads[(σ n).1]? = some t) :
    (s0.after M timeout σ (n + 1)).threads[(σ n).1]? =
      some (t.step timeout (σ n).2 (s0.after M timeout σ n).world).1 := by
  show (Sys.step M timeout (s0.after M timeout σ n) (σ n)).threads[(σ n).1]? = _
  unfold Sys.step
  rw [h]
  dsimp only
  have hl := (List.getElem?_eq_some_iff.mp h).1
  rw [List.getElem?_append_left (by rw [List.length_set]; exact hl), List.getElem?_set_self hl]

/-- A goroutine that does not wait for a client gets its turn. -/
theorem next_turn (hfair : Fair M timeout s0 σ) {n i : Nat} {t : Thread C}
    (h : (s0.after M timeout σ n).threads[i]? = some t) (ht : ¬ t.awaitsPeer) :
    ∃ m, n ≤ m ∧ (σ m).1 = i ∧ (s0.after M timeout σ m).threads[i]? = some t := by
  obtain ⟨m, hm, hi⟩ := hfair n i t h ht
  obtain ⟨d, rfl⟩ := Nat.exists_eq_add_of_le hm
  clear hm
  induction d generalizing n with
  | zero => exact ⟨n, Nat.le_refl n, hi, h⟩
  | succ d ih =>
    by_cases hn : (σ n).1 = i
    · exact ⟨n, Nat.le_refl n, hn, h⟩
    · obtain ⟨m, h1, h2, h3⟩ := ih (after_other h hn) (by rw [Nat.add_right_comm]; exact hi)
      exact ⟨m, by omega, h2, h3⟩

variable {ks : Nat → List GKind}

theorem KRun.quit_mono (hk : KRun M timeout s0 σ ks) {n m : Nat} (hnm : n ≤ m)
    (hq : (s0.after M timeout σ n).world.quit = true) : (s0.after M timeout σ m).world.quit = true := by
  obtain ⟨d, rfl⟩ := Nat.exists_eq_add_of_le hnm
  clear hnm
  induction d with
  | zero => exact hq
  | succ d ih => exact (kstep_weight (hk.step (n + d)) ih).1

theorem KRun.weight_mono (hk : KRun M timeout s0 σ ks) {n m : Nat} (hnm : n ≤ m)
    (hq : (s0.after M timeout σ n).world.quit = true) :
    ks m = ks n ∨ total GKind.weight (ks m) < total GKind.weight (ks n) := by
  obtain ⟨d, rfl⟩ := Nat.exists_eq_add_of_le hnm
  clear hnm
  induction d with
  | zero => exact .inl rfl
  | succ d ih =>
    have h := (kstep_weight (hk.step (n + d)) (hk.quit_mono (Nat.le_add_right n d) hq)).2
    rcases ih with ih | ih <;> rcases h with h | h
    · left; rw [← ih, ← h]; rfl
    · right; rw [← ih]; exact h
    · right
      have : ks (n + (d + 1)) = ks (n + d) := h
      rw [this]; exact ih
    · right
      have : total GKind.weight (ks (n + (d + 1))) < total GKind.weight (ks (n + d)) := h
      omega

/-- A goroutine serving a connection ends once the quit channel is closed. -/
theorem serve_ends (hk : KRun M timeout s0 σ ks) (hfair : Fair M timeout s0 σ) (i : Nat)
    (host : Except Err Bytes) (p : SProg C Bool) (hp : Uses (S := SSig C) SOp.plain p) :
    ∀ (n : Nat) (conn : Conn), (s0.after M timeout σ n).world.quit = true →
      (s0.after M timeout σ n).threads[i]? = some ⟨conn, p, connPass M host, connDeferred⟩ →
      ∃ m, n ≤ m ∧ ∃ t, (s0.after M timeout σ m).threads[i]? = some t ∧ t.deferred = .ret false := by
  have hret : ∀ (n : Nat) (conn : Conn) (p : SProg C Bool), p = .ret false ∨ (∃ m, p = .panic m) →
      (s0.after M timeout σ n).threads[i]? = some ⟨conn, p, connPass M host, connDeferred⟩ →
      ∃ m, n ≤ m ∧ ∃ t, (s0.after M timeout σ m).threads[i]? = some t ∧ t.deferred = .ret false := by
    intro n conn p hp h
    obtain ⟨m, h1, h2, h3⟩ := next_turn hfair h (by
      rintro (⟨k, hk⟩ | ⟨k, hk⟩) <;> rcases hp with rfl | ⟨_, rfl⟩ <;> cases hk)
    refine ⟨m + 1, by omega, _, h2 ▸ after_turn (h2 ▸ h3), ?_⟩
    rcases hp with rfl | ⟨_, rfl⟩ <;> rfl
  have hpass : ∀ (n : Nat) (conn : Conn), (s0.after M timeout σ n).world.quit = true →
      (s0.after M timeout σ n).threads[i]? = some ⟨conn, connPass M host, connPass M host, connDeferred⟩ →
      ∃ m, n ≤ m ∧ ∃ t, (s0.after M timeout σ m).threads[i]? = some t ∧ t.deferred = .ret false := by
    intro n conn hq h
    obtain ⟨m, h1, h2, h3⟩ := next_turn hfair h (by rintro (⟨k, hk⟩ | ⟨k, hk⟩) <;> cases hk)
    have hq' := hk.quit_mono h1 hq
    have h4 := after_turn (h2 ▸ h3)
    rw [h2] at h4
    have h5 : (Thread.step timeout (σ m).2 ⟨conn, connPass M host, connPass M host, connDeferred⟩
        (s0.after M timeout σ m).world).1 = ⟨conn, .ret false, connPass M host, connDeferred⟩ := by
      revert hq'
      generalize (s0.after M timeout σ m).world = w
      obtain ⟨heap, table, now, quit, wg, spawned, log⟩ := w
      rintro rfl
      rfl
    rw [h5] at h4
    obtain ⟨m', h6, h7⟩ := hret (m + 1) conn _ (.inl rfl) h4
    exact ⟨m', by omega, h7⟩
  induction p with
  | ret b =>
    intro n conn hq h
    cases b with
    | false => exact hret n conn _ (.inl rfl) h
    | true =>
      obtain ⟨m, h1, h2, h3⟩ := next_turn hfair h (by rintro (⟨k, hk⟩ | ⟨k, hk⟩) <;> cases hk)
      obtain ⟨m', h4, h5⟩ := hpass (m + 1) conn (hk.quit_mono (by omega) hq) (h2 ▸ after_turn (h2 ▸ h3))
      exact ⟨m', by omega, h5⟩
  | panic msg => exact fun n conn _ h => hret n conn _ (.inr ⟨_, rfl⟩) h
  | op o k ih =>
    intro n conn hq h
    obtain ⟨m, h1, h2, h3⟩ := next_turn hfair h (by
      rintro (⟨k, hk⟩ | ⟨k, hk⟩) <;> cases hk <;> exact hp.1)
    have h4 := after_turn (h2 ▸ h3)
    rw [h2, step_op (plain_enabled hp.1)] at h4
    obtain ⟨m', h5, h6⟩ := ih _ (hp.2 _) (m + 1) _ (hk.quit_mono (by omega) hq) h4
    exact ⟨m', by omega, h6⟩

/-- Kinds that must move on. -/
def GKind.active : GKind → Prop
  | .serve | .cls1 | .cls2 | .acc2 _ | .acc3 _ => True
  | _ => False

theorem turn_less (hk : KRun M timeout s0 σ ks) (hfair : Fair M timeout s0 σ) {n i : Nat} {k : GKind}
    (hq : (s0.after M timeout σ n).world.quit = true) (hki : (ks n)[i]? = some k)
    (hw : ∀ t, k.Fits M t → ¬ t.awaitsPeer) (hs : ¬ k.mayStay (s0.after M timeout σ n).world.wg) :
    ∃ m, n ≤ m ∧ total GKind.weight (ks m) < total GKind.weight (ks n) := by
  have hlt : i < (s0.after M timeout σ n).threads.length := by
    rw [← (hk.kinds n).len]; exact (List.getElem?_eq_some_iff.mp hki).1
  have ht := List.getElem?_eq_getElem hlt
  obtain ⟨m, h1, h2, h3⟩ := next_turn hfair ht (hw _ ((hk.kinds n).fits _ _ _ ht hki))
  rcases hk.weight_mono h1 hq with he | hl
  · have hwg : (s0.after M timeout σ m).world.wg = (s0.after M timeout σ n).world.wg := by
      rw [(hk.kinds m).wg, (hk.kinds n).wg, he]
    have hq' := hk.quit_mono h1 hq
    cases hk.step m with
    | idle hn => rw [h2, h3] at hn; cases hn
    | @move k1 k' sp hk1 hm hks _ hc _ =>
      rw [h2, he, hki] at hk1
      cases hk1
      rw [hq', hwg] at hm
      obtain ⟨-, h4⟩ := moves_weight hm
      rcases h4 with ⟨-, -, h4⟩ | h4
      · exact absurd h4 hs
      · refine ⟨m + 1, by omega, ?_⟩
        have := total_set GKind.weight k' hki
        rw [hks, h2, he, total_append]
        omega
  · exact ⟨m, h1, hl⟩

theorem active_less (hk : KRun M timeout s0 σ ks) (hfair : Fair M timeout s0 σ) {n i : Nat} {k : GKind}
    (hq : (s0.after M timeout σ n).world.quit = true) (hki : (ks n)[i]? = some k) (ha : k.active) :
    ∃ m, n ≤ m ∧ total GKind.weight (ks m) < total GKind.weight (ks n) := by
  have hrest : (∀ t, k.Fits M t → ¬ t.awaitsPeer) → ¬ k.mayStay (s0.after M timeout σ n).world.wg →
      ∃ m, n ≤ m ∧ total GKind.weight (ks m) < total GKind.weight (ks n) :=
    fun h1 h2 => turn_less hk hfair hq hki h1 h2
  cases k with
  | serve =>
    have hlt : i < (s0.after M timeout σ n).threads.length := by
      rw [← (hk.kinds n).len]; exact (List.getElem?_eq_some_iff.mp hki).1
    have ht := List.getElem?_eq_getElem hlt
    obtain ⟨host, hp, hl, hd⟩ := (hk.kinds n).fits _ _ _ ht hki
    generalize (s0.after M timeout σ n).threads[i] = t at ht hp hl hd
    obtain ⟨conn, prog, loop, deferred⟩ := t
    dsimp only at hp hl hd
    subst hl hd
    obtain ⟨m, h1, t, h2, h3⟩ := serve_ends hk hfair i host prog hp n conn hq ht
    rcases hk.weight_mono h1 hq with he | hl
    · obtain ⟨_, -, -, h4⟩ := (hk.kinds m).fits _ _ _ h2 (he ▸ hki)
      rw [h3] at h4
      cases h4
    · exact ⟨m, h1, hl⟩
  | cls1 => exact hrest (fun t hf hw => by
      rcases hw with ⟨k, hw⟩ | ⟨k, hw⟩ <;> rw [hf.1] at hw <;> cases hw) id
  | cls2 => exact hrest (fun t hf hw => by
      rcases hw with ⟨k, hw⟩ | ⟨k, hw⟩ <;> rw [hf.1] at hw <;> cases hw) id
  | acc2 p => exact hrest (fun t hf hw => by
      rcases hw with ⟨k, hw⟩ | ⟨k, hw⟩ <;> rw [hf.1] at hw <;> cases hw) id
  | acc3 p => exact hrest (fun t hf hw => by
      rcases hw with ⟨k, hw⟩ | ⟨k, hw⟩ <;> rw [hf.1] at hw <;> cases hw) id
  | _ => exact ha.elim

/-- A call of `Server.Close` has begun and will return, or one has returned. -/
def Closing (s : Nat → Sys C) (ks : Nat → List GKind) (n : Nat) : Prop :=
  (∃ i : Nat, (ks n)[i]? = some GKind.close1 ∨ (ks n)[i]? = some GKind.close2) ∨
    ∃ l, .closeReturned ∈ (s l).world.log

theorem KRun.closing (hk : KRun M timeout s0 σ ks) (h0 : s0.world.quit = false) (n : Nat)
    (hq : (s0.after M timeout σ n).world.quit = true) : Closing (s0.after M timeout σ) ks n := by
  induction n with
  | zero => rw [show (s0.after M timeout σ 0).world.quit = s0.world.quit from rfl, h0] at hq; cases hq
  | succ n ih =>
    cases hk.step n with
    | idle _ h1 h2 =>
      rw [h1] at hq
      have := ih hq
      unfold Closing at this ⊢
      rw [h2]
      exact this
    | @move k k' sp hki hm hks _ hc _ =>
      have hlt := (List.getElem?_eq_some_iff.mp hki).1
      have hself : (ks (n + 1))[(σ n).1]? = some k' := by
        rw [hks, List.getElem?_append_left (by rw [List.length_set]; exact hlt),
          List.getElem?_set_self hlt]
      have hother : ∀ {i k}, (σ n).1 ≠ i → (ks n)[i]? = some k → (ks (n + 1))[i]? = some k := by
        intro i k hne h
        rw [hks, List.getElem?_append_left (by
          rw [List.length_set]; exact (List.getElem?_eq_some_iff.mp h).1), List.getElem?_set_ne hne]
        exact h
      cases hqn : (s0.after M timeout σ n).world.quit with
      | false =>
        rw [hqn, hq] at hm
        have hk' : k' = .close1 := by
          revert hm
          generalize (s0.after M timeout σ n).world.wg = a
          generalize (s0.after M timeout σ (n + 1)).world.wg = b
          intro hm
          cases hm
          rfl
        subst hk'
        exact .inl ⟨_, .inl hself⟩
      | true =>
        rcases ih hqn with ⟨i, hi⟩ | hl
        · by_cases hne : (σ n).1 = i
          · rw [hne] at hki hself
            rcases hi with hi | hi
            · rw [hki] at hi
              cases hi
              have hk' : k' = .close1 ∨ k' = .close2 := by
                revert hm
                generalize (s0.after M timeout σ n).world.wg = a
                generalize (s0.after M timeout σ (n + 1)).world.wg = b
                generalize (s0.after M timeout σ n).world.quit = c
                generalize (s0.after M timeout σ (n + 1)).world.quit = d
                intro hm
                cases hm <;> simp
              rcases hk' with rfl | rfl
              · exact .inl ⟨i, .inl hself⟩
              · exact .inl ⟨i, .inr hself⟩
            · rw [hki] at hi
              cases hi
              exact .inr ⟨n + 1, hc rfl⟩
          · exact .inl ⟨i, hi.imp (hother hne) (hother hne)⟩
        · exact .inr hl

theorem total_zero {f : GKind → Nat} {l : List GKind} (h : ∀ (i : Nat) (k : GKind), l[i]? = some k → f k = 0) :
    total f l = 0 := by
  unfold total
  induction l with
  | nil => rfl
  | cons x l ih =>
    rw [List.map_cons, List.sum_cons, h 0 x rfl, ih fun i k hi => h (i + 1) k hi]

theorem returns_of_closing (hk : KRun M timeout s0 σ ks) (hfair : Fair M timeout s0 σ)
    (h0 : s0.world.quit = false) (N n : Nat) (hq : (s0.after M timeout σ n).world.quit = true)
    (hN : total GKind.weight (ks n) ≤ N) : ∃ l, .closeReturned ∈ (s0.after M timeout σ l).world.log := by
  induction N generalizing n with
  | zero =>
    rcases hk.closing h0 n hq with ⟨i, hi⟩ | hl
    · rcases hi with hi | hi
      · have := le_total GKind.weight hi
        simp only [GKind.weight] at this
        omega
      · have := le_total GKind.weight hi
        simp only [GKind.weight] at this
        omega
    · exact hl
  | succ N ih =>
    have hgo : (∃ m, n ≤ m ∧ total GKind.weight (ks m) < total GKind.weight (ks n)) →
        ∃ l, .closeReturned ∈ (s0.after M timeout σ l).world.log := by
      rintro ⟨m, h1, h2⟩
      exact ih m (hk.quit_mono h1 hq) (by omega)
    by_cases ha : ∃ (i : Nat) (k : GKind), (ks n)[i]? = some k ∧ k.active
    · obtain ⟨i, k, hi, ha⟩ := ha
      exact hgo (active_less hk hfair hq hi ha)
    · have hwg : (s0.after M timeout σ n).world.wg = 0 := by
        rw [(hk.kinds n).wg]
        apply total_zero
        intro i k hi
        cases k <;> first | rfl | exact absurd ⟨i, _, hi, trivial⟩ ha
      rcases hk.closing h0 n hq with ⟨i, hi⟩ | hl
      · rcases hi with hi | hi
        · exact hgo (turn_less hk hfair hq hi (fun t hf hw => by
            rcases hw with ⟨k, hw⟩ | ⟨k, hw⟩ <;> rw [hf.1] at hw <;> cases hw) (fun h => h hwg))
        · exact hgo (turn_less hk hfair hq hi (fun t hf hw => by
            rcases hw with ⟨k, hw⟩ | ⟨k, hw⟩ <;> rw [hf.1] at hw <;> cases hw) id)
      · exact hl

/-- If `Server.Close` is called, some call returns. -/
theorem close_returns (hM : M.Passive) (timeout ttl closers : Nat) (hc : closers > 0)
    (σ : Nat → Nat × Answer C) (hfair : Fair M timeout (Sys.start ttl closers) σ) :
    ∃ n, .closeReturned ∈ (Sys.after M timeout (Sys.start ttl closers) σ n).world.log := by
  obtain ⟨ks, hks0, hk⟩ := exists_krun hM timeout σ (Kinds.start (M := M) ttl closers)
  have h0 : (Sys.start (C := C) ttl closers).world.quit = false := rfl
  have hquit : ∃ n, (Sys.after M timeout (Sys.start ttl closers) σ n).world.quit = true := by
    obtain ⟨c, hcl⟩ := List.mem_iff_getElem?.mp (show (⟨.none, closeServer, .ret false, .ret false⟩ : Thread C) ∈
      (Sys.start (C := C) ttl closers).threads from List.mem_append_right _ (List.mem_replicate.mpr ⟨by omega, rfl⟩))
    obtain ⟨m, -, h2, h3⟩ := next_turn hfair (n := 0) hcl (by rintro (⟨k, hk⟩ | ⟨k, hk⟩) <;> cases hk)
    refine ⟨m + 1, ?_⟩
    show (Sys.step M timeout (Sys.after M timeout (Sys.start ttl closers) σ m) (σ m)).world.quit = true
    unfold Sys.step
    rw [h2, h3]
    rfl
  obtain ⟨n, hn⟩ := hquit
  exact returns_of_closing hk hfair h0 _ n hn (Nat.le_refl _)

end

end Goe2ee
