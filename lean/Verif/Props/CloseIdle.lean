import Verif.Props.Closing

/-!
# C105: `Server.Close` and clients that stay silent
-/

set_option autoImplicit false

namespace Goe2ee

section
variable {C : Crypto} {M : Manager C} {timeout : Nat} {σ : Nat → Nat × Answer C}

/-- The goroutine waits for octets of a client that has sent nothing more and has not hung up. -/
def Thread.awaitsOctets (t : Thread C) : Prop := (∃ o k, t.prog = .op (.read o) k) ∧ t.conn.input = []

/-- Every goroutine goes on sooner or later, except that clients need not come and need not send anything: without a
read timeout (`ServerWithReadTimeout(0)`) a read of a silent connection does not end. -/
def FairSilent (M : Manager C) (timeout : Nat) (s : Sys C) (σ : Nat → Nat × Answer C) : Prop :=
  ∀ (n i : Nat) (t : Thread C), (s.after M timeout σ n).threads[i]? = some t → ¬ t.awaitsPeer → ¬ t.awaitsOctets →
    ∃ m, n ≤ m ∧ (σ m).1 = i

/-- **C105**: `Server.Close` returns, also if there is no read timeout and clients stay connected and silent. -/
def C105_claim : Prop :=
  ∀ (C : Crypto) (timeout ttl : Nat) (σ : Nat → Nat × Answer C),
    FairSilent (inMemory C) timeout (Sys.start ttl 1) σ →
    ∃ n, .closeReturned ∈ (Sys.after (inMemory C) timeout (Sys.start ttl 1) σ n).world.log

/-- One for a call of `Server.Close` that has done waiting. -/
def GKind.isClose2 : GKind → Nat
  | .close2 => 1
  | _ => 0

theorem fits_serve {k : GKind} {t : Thread C} (h : k.Fits M t) (ht : t.deferred = connDeferred) : k = .serve := by
  cases k with
  | serve => rfl
  | acc0 => have := h.2.2; rw [ht] at this; cases this
  | acc1 => have := h.2.2; rw [ht] at this; cases this
  | acc2 p => have := h.2.2.1; rw [ht] at this; cases this
  | acc3 p => have := h.2.2.1; rw [ht] at this; cases this
  | rec0 => have := h.2.2; rw [ht] at this; cases this
  | rec1 => have := h.2.2; rw [ht] at this; cases this
  | rec2 p => have := h.2.2.1; rw [ht] at this; cases this
  | cls1 => have := h.2.2; rw [ht] at this; cases this
  | cls2 => have := h.2.2; rw [ht] at this; cases this
  | close0 => have := h.2.2; rw [ht] at this; cases this
  | close1 => have := h.2.2; rw [ht] at this; cases this
  | close2 => have := h.2.2; rw [ht] at this; cases this
  | plain =>
    have := h.2.2
    rw [ht] at this
    exact (this.2 ()).1.elim

/-- A goroutine that is not scheduled stays where it is. -/
theorem after_idle {s0 : Sys C} {n i : Nat} {t : Thread C} (h : (s0.after M timeout σ n).threads[i]? = some t)
    (hi : ∀ m, n ≤ m → (σ m).1 ≠ i) (m : Nat) (hm : n ≤ m) : (s0.after M timeout σ m).threads[i]? = some t := by
  obtain ⟨d, rfl⟩ := Nat.exists_eq_add_of_le hm
  clear hm
  induction d with
  | zero => exact h
  | succ d ih => exact after_other ih (hi _ (Nat.le_add_right n d))

/-- **C105**, what happens instead: if a TCP connection was being served when `Server.Close` was called, and its
goroutine does not go on (a read without timeout), then no call of `Server.Close` ever returns. -/
theorem C105_waits (hM : M.Passive) (ttl closers n i : Nat) (t : Thread C)
    (hq : (Sys.after M timeout (Sys.start ttl closers) σ n).world.quit = false)
    (ht : (Sys.after M timeout (Sys.start ttl closers) σ n).threads[i]? = some t) (hconn : t.deferred = connDeferred)
    (hi : ∀ m, n ≤ m → (σ m).1 ≠ i) (m : Nat) :
    .closeReturned ∉ (Sys.after M timeout (Sys.start ttl closers) σ m).world.log := by
  obtain ⟨ks, hks0, hk⟩ := exists_krun hM timeout σ (Kinds.start (M := M) (C := C) ttl closers)
  have hlisten : ∀ m, Listening (Sys.after M timeout (Sys.start ttl closers) σ m) (ks m) := by
    intro m
    induction m with
    | zero => rw [hks0]; exact listening_start ttl closers
    | succ m ih => exact listening_step (hk.step m) ih
  have hserve : ∀ m, n ≤ m → (ks m)[i]? = some .serve := by
    intro m hm
    have h1 := after_idle ht hi m hm
    have h2 := List.getElem?_eq_getElem ((hk.kinds m).len ▸ (List.getElem?_eq_some_iff.mp h1).1 : i < (ks m).length)
    rw [h2]
    exact congrArg some (fits_serve ((hk.kinds m).fits i t _ h1 h2) hconn)
  have hmain : ∀ d, total GKind.isClose2 (ks (n + d)) = 0 ∧
      .closeReturned ∉ (Sys.after M timeout (Sys.start ttl closers) σ (n + d)).world.log := by
    intro d
    induction d with
    | zero =>
      have hl := hlisten n
      refine ⟨?_, fun h => ?_⟩
      · have h1 : total GKind.isClose2 (ks n) ≤ total GKind.isClosing (ks n) :=
          total_mono (fun k => by cases k <;> simp [GKind.isClose2, GKind.isClosing]) _
        by_cases h0 : 0 < total GKind.isClosing (ks n)
        · have := hl.closing h0
          rw [hq] at this
          cases this
        · rw [Nat.add_zero]; omega
      · have := hl.returned h
        rw [hq] at this
        cases this
    | succ d ih =>
      have hwg : 0 < (Sys.after M timeout (Sys.start ttl closers) σ (n + d)).world.wg := by
        rw [(hk.kinds (n + d)).wg]
        exact le_total GKind.owes (hserve (n + d) (Nat.le_add_right n d))
      have hst := hk.step (n + d)
      cases hst with
      | idle _ h1 h2 =>
        rw [← Nat.add_assoc, h1, h2]
        exact ih
      | @move k k' sp hki hm he _ _ hr =>
        have hk2 : k ≠ .close2 := by
          rintro rfl
          have := le_total GKind.isClose2 hki
          simp only [GKind.isClose2] at this
          omega
        have h1 := total_set GKind.isClose2 k' hki
        have h2 := total_peers GKind.isClose2 (fun p => by cases p <;> rfl) sp
        have h3 : k'.isClose2 = 0 := by
          revert hm hwg hk2
          generalize (Sys.after M timeout (Sys.start ttl closers) σ (n + d)).world.wg = a
          generalize (Sys.after M timeout (Sys.start ttl closers) σ (n + d + 1)).world.wg = b
          generalize (Sys.after M timeout (Sys.start ttl closers) σ (n + d)).world.quit = c
          generalize (Sys.after M timeout (Sys.start ttl closers) σ (n + d + 1)).world.quit = e
          intro hwg hm hk2
          cases hm with
          | wait => omega
          | stay h => cases k <;> first | rfl | exact absurd rfl hk2
          | _ => rfl
        refine ⟨?_, fun h => (hr h).elim ih.2 hk2⟩
        rw [← Nat.add_assoc, he, total_append]
        omega
  intro h
  rcases Nat.le_total n m with hnm | hmn
  · obtain ⟨d, rfl⟩ := Nat.exists_eq_add_of_le hnm
    exact (hmain d).2 h
  · have := hk.quit_mono hmn ((hlisten m).returned h)
    rw [hq] at this
    cases this

/-- **C105**, as far as it holds: if the clients that are connected sooner or later send something or hang up,
`Server.Close` returns. -/
theorem C105_returns_partial (hM : M.Passive) (ttl : Nat) (hfair : FairSilent M timeout (Sys.start ttl 1) σ)
    (htalk : ∀ (n i : Nat) (t : Thread C), (Sys.after M timeout (Sys.start ttl 1) σ n).threads[i]? = some t →
      t.awaitsOctets → ∃ m, n ≤ m ∧ (σ m).1 = i) :
    ∃ n, .closeReturned ∈ (Sys.after M timeout (Sys.start ttl 1) σ n).world.log :=
  close_returns hM timeout ttl 1 Nat.one_pos σ fun n i t ht hp => by
    by_cases h : t.awaitsOctets
    · exact htalk n i t ht h
    · exact hfair n i t ht hp h

end

namespace IdleExample
open OnceExample

/-- A client connects and stays silent (goroutine 3), nobody else comes (0 and 1), and then `Server.Close` is called
(2). -/
def acts : List (Nat × Answer Toy.crypto) :=
  List.replicate 6 (0, answer (.ok (.tcp (.ok (str "10.0.0.1")) []))) ++
  [(1, answer (.error .eof)), (3, answer (.error .eof)), (3, answer (.error .eof))]

def schedule (n : Nat) : Nat × Answer Toy.crypto := acts.getD n (2, answer (.error .eof))

def at_ (n : Nat) : Sys Toy.crypto := Sys.after (inMemory Toy.crypto) 5000 (Sys.start 0 1) schedule n

/-- For what the goroutine waits. -/
def waits (t : Thread Toy.crypto) : Bool :=
  match t.prog with
  | .op .accept _ => true
  | .op .receive _ => true
  | .op (.read _) _ => t.conn.input.isEmpty
  | _ => false

theorem waits_spec {t : Thread Toy.crypto} (h : waits t = true) : t.awaitsPeer ∨ t.awaitsOctets := by
  obtain ⟨conn, prog, loop, deferred⟩ := t
  simp only [waits] at h
  split at h
  · exact .inl (.inl ⟨_, rfl⟩)
  · exact .inl (.inr ⟨_, rfl⟩)
  · exact .inr ⟨⟨_, _, rfl⟩, List.isEmpty_iff.mp h⟩
  · cases h

theorem later {n : Nat} (h : 9 ≤ n) : schedule n = (2, answer (.error .eof)) := by
  unfold schedule
  rw [List.getD_eq_getElem?_getD, List.getElem?_eq_none h]
  rfl

/-- After its last step (before `n`) the goroutine waits. -/
theorem settled {i n : Nat} (hi : ∀ m, n ≤ m → m < 9 → (schedule m).1 ≠ i) (h2 : i ≠ 2)
    (hw : (at_ n).threads[i]?.map waits = some true) {m : Nat} (hm : n ≤ m) {t : Thread Toy.crypto}
    (ht : (at_ m).threads[i]? = some t) : t.awaitsPeer ∨ t.awaitsOctets := by
  obtain ⟨t', ht', hw⟩ := Option.map_eq_some_iff.mp hw
  have := after_idle (M := inMemory Toy.crypto) (timeout := 5000) (σ := schedule) ht' (fun k hk he => by
    by_cases h9 : k < 9
    · exact hi k hk h9 he
    · rw [later (by omega)] at he
      exact h2 he.symm) m hm
  rw [show (at_ m).threads[i]? = some t' from this] at ht
  cases ht
  exact waits_spec hw

/-- When `Server.Close` waits, nothing happens any more. -/
theorem length_le (n : Nat) : (at_ n).threads.length ≤ 4 := by
  have h10 : ∀ n < 11, (at_ n).threads.length ≤ 4 := by decide +kernel
  have hsame : ∀ (s : Sys Toy.crypto) (t : Thread Toy.crypto) (a : Answer Toy.crypto), s.world.spawned = [] →
      s.world.wg = 1 → s.threads[2]? = some t →
      t.prog = (.op .wgWait fun _ => .op .closeReturned fun _ => .ret false) →
      s.step (inMemory Toy.crypto) 5000 (2, a) = s := by
    intro s t a h2 h3 h4 h5
    unfold Sys.step
    rw [h4]
    have hst : t.step 5000 a s.world = (t, s.world) := by
      unfold Thread.step
      rw [h5]
      simp [enabled, h3]
    dsimp only
    rw [hst, h2, List.map_nil, List.append_nil]
    obtain ⟨w, ts⟩ := s
    obtain ⟨heap, table, now, quit, wg, spawned, log⟩ := w
    cases h2
    dsimp only at h4 ⊢
    obtain ⟨hlt, rfl⟩ := List.getElem?_eq_some_iff.mp h4
    rw [List.set_getElem_self]
  have hq : ∀ d, at_ (10 + d) = at_ 10 := by
    intro d
    induction d with
    | zero => rfl
    | succ d ih =>
      show (at_ (10 + d)).step (inMemory Toy.crypto) 5000 (schedule (10 + d)) = _
      rw [later (by omega), ih]
      exact hsame _ _ _ (by decide +kernel) (by decide +kernel) rfl rfl
  rcases Nat.lt_or_ge n 11 with h | h
  · exact h10 n h
  · obtain ⟨d, rfl⟩ := Nat.exists_eq_add_of_le (show 10 ≤ n by omega)
    rw [hq d]
    exact h10 10 (by decide)

theorem fair : FairSilent (inMemory Toy.crypto) 5000 (Sys.start 0 1) schedule := by
  intro n i t ht hp ho
  have hno : ¬ (t.awaitsPeer ∨ t.awaitsOctets) := not_or.mpr ⟨hp, ho⟩
  change (at_ n).threads[i]? = some t at ht
  have hlt := (List.getElem?_eq_some_iff.mp ht).1
  have hlen := length_le n
  match i, (show i < 4 by omega) with
  | 0, _ =>
    by_cases h : n ≤ 5
    · exact ⟨5, h, rfl⟩
    · exact absurd (settled (n := 6) (by decide +kernel) (by decide) (by decide +kernel) (by omega) ht) hno
  | 1, _ =>
    by_cases h : n ≤ 6
    · exact ⟨6, h, rfl⟩
    · exact absurd (settled (n := 7) (by decide +kernel) (by decide) (by decide +kernel) (by omega) ht) hno
  | 2, _ => exact ⟨n + 9, by omega, by rw [later (by omega)]⟩
  | 3, _ =>
    by_cases h : n ≤ 8
    · exact ⟨8, h, rfl⟩
    · exact absurd (settled (n := 9) (by decide +kernel) (by decide) (by decide +kernel) (by omega) ht) hno

end IdleExample

/-- **C105 is refuted**: one connected and silent client is enough. -/
theorem C105_refuted : ¬ C105_claim := by
  intro h
  obtain ⟨n, hn⟩ := h Toy.crypto 5000 0 IdleExample.schedule IdleExample.fair
  exact C105_waits (inMemory_passive _) 0 1 9 3 _ (by decide +kernel) rfl rfl
    (fun m hm => by rw [IdleExample.later hm]; decide) n hn

/-- A client that is connected when `Server.Close` is called and sends requests. -/
example : ∃ n, .closeReturned ∈ (Sys.after (inMemory Toy.crypto) 5000 (Sys.start 0 1)
    (fun n => (n.unpair.1, OnceExample.answer (.ok (.tcp (.ok (str "10.0.0.1"))
      [.data (OnceExample.setup ++ OnceExample.message)])))) n).world.log :=
  C105_returns_partial (inMemory_passive _) 0
    (fun n i _ _ _ _ => ⟨Nat.pair i n, Nat.right_le_pair i n, by simp⟩)
    (fun n i _ _ _ => ⟨Nat.pair i n, Nat.right_le_pair i n, by simp⟩)

end Goe2ee
