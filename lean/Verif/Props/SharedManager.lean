import Verif.Model.SharedManager

/-!
# C180: several servers with one session manager
-/

set_option autoImplicit false

namespace Goe2ee

/-- The collector is never late: as long as it waits for its ticker, time does not pass beyond the time at
which the ticker fires. -/
def OnTime (ttl gc : Nat) (s : SharedMgr) (acts : List MgrAct) : Prop :=
  ∀ before after d, acts = before ++ .pass d :: after →
    ∀ next, (s.run ttl gc before).collector = .waits next → (s.run ttl gc before).now + d ≤ next

/-- **C180**: with a manager that several servers share, as long as one of them was not closed, a session
that nobody used for longer than the TTL and one interval of the collector is not found any more. -/
def C180_claim : Prop :=
  ∀ (ttl gc start : Nat) (acts : List MgrAct) (id : Bytes) (r t : Nat), 0 < ttl → 0 < gc →
    OnTime ttl gc (.new ttl gc start) acts → (∃ server, .close server ∉ acts) →
    ((SharedMgr.new ttl gc start).run ttl gc acts).table id = some (r, t) →
    ((SharedMgr.new ttl gc start).run ttl gc acts).now ≤ t + ttl + gc

theorem SharedMgr.run_append (ttl gc : Nat) (s : SharedMgr) (a b : List MgrAct) :
    s.run ttl gc (a ++ b) = (s.run ttl gc a).run ttl gc b := by
  simp [SharedMgr.run, List.foldl_append]

theorem SharedMgr.run_snoc (ttl gc : Nat) (s : SharedMgr) (a : List MgrAct) (x : MgrAct) :
    s.run ttl gc (a ++ [x]) = (s.run ttl gc a).step ttl gc x := by
  simp [SharedMgr.run, List.foldl_append]

theorem acts_snoc {P : List MgrAct → Prop} (h0 : P []) (h1 : ∀ a x, P a → P (a ++ [x])) : ∀ a, P a := by
  intro a
  have : ∀ n (a : List MgrAct), a.length = n → P a := by
    intro n
    induction n with
    | zero => intro a ha; rw [List.length_eq_zero_iff.mp ha]; exact h0
    | succ n ih =>
      intro a ha
      have hne : a ≠ [] := by intro h; subst h; cases ha
      rw [← List.dropLast_concat_getLast hne]
      exact h1 _ _ (ih _ (by simp [ha]))
  exact this _ a rfl

theorem OnTime.init {ttl gc : Nat} {s : SharedMgr} {a : List MgrAct} {x : MgrAct}
    (h : OnTime ttl gc s (a ++ [x])) : OnTime ttl gc s a := by
  intro before after d ha
  exact h before (after ++ [x]) d (by rw [ha]; simp)

/-- **C180**, expiry: while no server was closed, a session that nobody used for longer than the TTL and one
interval of the collector is not found any more.  Missing: after `Close` of any one of the servers this ends
(`C180_refuted`). -/
theorem C180_expiry_partial (ttl gc start : Nat) (acts : List MgrAct) (id : Bytes) (r t : Nat) (h0 : 0 < ttl)
    (hon : OnTime ttl gc (.new ttl gc start) acts) (hopen : ∀ server, .close server ∉ acts)
    (h : ((SharedMgr.new ttl gc start).run ttl gc acts).table id = some (r, t)) :
    ((SharedMgr.new ttl gc start).run ttl gc acts).now ≤ t + ttl + gc := by
  have inv : ∃ next, ((SharedMgr.new ttl gc start).run ttl gc acts).collector = .waits next ∧
      ((SharedMgr.new ttl gc start).run ttl gc acts).now ≤ next ∧
      next ≤ ((SharedMgr.new ttl gc start).run ttl gc acts).now + gc ∧
      ((SharedMgr.new ttl gc start).run ttl gc acts).quit = false ∧
      ∀ id r t, ((SharedMgr.new ttl gc start).run ttl gc acts).table id = some (r, t) →
        next ≤ t + ttl + gc := by
    clear h
    induction acts using acts_snoc with
    | h0 =>
      refine ⟨start + gc, ?_, ?_, ?_, rfl, ?_⟩
      · simp [SharedMgr.run, SharedMgr.new, h0]
      · exact Nat.le_add_right _ _
      · exact Nat.le_refl _
      · intro id r t h; cases h
    | h1 a x ih =>
      obtain ⟨next, hc, hn, hg, hq, ht⟩ := ih hon.init fun s hs => hopen s (List.mem_append_left _ hs)
      have hp : ∀ d, x = .pass d → ((SharedMgr.new ttl gc start).run ttl gc a).now + d ≤ next := by
        intro d hx
        subst hx
        exact hon a [] d rfl next hc
      have hx : ∀ server, x ≠ .close server := by
        intro server hx
        exact hopen server (by rw [hx]; simp)
      rw [SharedMgr.run_snoc]
      generalize (SharedMgr.new ttl gc start).run ttl gc a = s at *
      cases x with
      | pass d => exact ⟨next, hc, hp d rfl, by show next ≤ s.now + d + gc; omega, hq, ht⟩
      | store server k session =>
        refine ⟨next, hc, hn, hg, hq, ?_⟩
        intro id r t h
        dsimp only [SharedMgr.step] at h
        split at h
        · cases h; omega
        · exact ht id r t h
      | load server k =>
        dsimp only [SharedMgr.step]
        split
        · exact ⟨next, hc, hn, hg, hq, ht⟩
        · refine ⟨next, hc, hn, hg, hq, ?_⟩
          intro id r t h
          dsimp only at h
          split at h
          · cases h; omega
          · exact ht id r t h
      | close server => exact absurd rfl (hx server)
      | tick =>
        simp only [SharedMgr.step, hc]
        split
        · refine ⟨next + gc, rfl, by show s.now ≤ next + gc; omega, by show next + gc ≤ s.now + gc; omega, hq, ?_⟩
          intro id r t h
          dsimp only [visitTable] at h
          split at h
          · split at h
            · cases h
            · cases h; omega
          · cases h
        · exact ⟨next, hc, hn, hg, hq, ht⟩
      | leave =>
        simp only [SharedMgr.step, hq]
        exact ⟨next, hc, hn, hg, hq, ht⟩
  obtain ⟨next, -, hn, -, -, ht⟩ := inv
  have := ht id r t h
  omega

theorem SharedMgr.now_step (ttl gc : Nat) (s : SharedMgr) (x : MgrAct) : s.now ≤ (s.step ttl gc x).now := by
  cases x <;> simp only [SharedMgr.step, SharedMgr.closeQuit] <;>
    first
    | omega
    | (repeat' split) <;> first | exact Nat.le_refl _ | (dsimp only; omega)

/-- Nothing but a visit of the collector removes a session, and nothing but `Store` replaces it. -/
theorem SharedMgr.kept_step (ttl gc : Nat) (s : SharedMgr) (x : MgrAct) (id : Bytes) (r t : Nat)
    (hu : s.table id = some (r, t)) (ht : t ≤ s.now) (hns : ∀ server r', x ≠ .store server id r')
    (htick : x = .tick → s.collector ≠ .none → s.now ≤ t + ttl) :
    ∃ t', (s.step ttl gc x).table id = some (r, t') ∧ t ≤ t' ∧ t' ≤ (s.step ttl gc x).now := by
  cases x with
  | pass d => exact ⟨t, hu, Nat.le_refl _, by show t ≤ s.now + d; omega⟩
  | store server k session =>
    by_cases hk : id = k
    · subst hk; exact absurd rfl (hns server session)
    · exact ⟨t, by simp [SharedMgr.step, hk, hu], Nat.le_refl _, ht⟩
  | load server k =>
    by_cases hk : id = k
    · subst hk
      simp only [SharedMgr.step, hu]
      exact ⟨s.now, by simp, ht, Nat.le_refl _⟩
    · simp only [SharedMgr.step]
      split
      · exact ⟨t, hu, Nat.le_refl _, ht⟩
      · exact ⟨t, by simp [hk, hu], Nat.le_refl _, ht⟩
  | close server =>
    simp only [SharedMgr.step, SharedMgr.closeQuit]
    repeat' split
    all_goals exact ⟨t, hu, Nat.le_refl _, ht⟩
  | tick =>
    rcases hc : s.collector with _ | next
    · simp only [SharedMgr.step, hc]
      exact ⟨t, hu, Nat.le_refl _, ht⟩
    · have := htick rfl (by rw [hc]; intro h; cases h)
      simp only [SharedMgr.step, hc]
      split
      · refine ⟨t, ?_, Nat.le_refl _, ht⟩
        simp only [visitTable, hu]
        rw [if_neg (by omega)]
      · exact ⟨t, hu, Nat.le_refl _, ht⟩
  | leave =>
    simp only [SharedMgr.step]
    split
    all_goals exact ⟨t, hu, Nat.le_refl _, ht⟩

theorem SharedMgr.in_use (ttl gc : Nat) (s : SharedMgr) (acts : List MgrAct) (id : Bytes) (r t : Nat)
    (h : s.table id = some (r, t)) (ht : t ≤ s.now) (hnow : (s.run ttl gc acts).now ≤ t + ttl)
    (hno : ∀ server r', .store server id r' ∉ acts) :
    (s.run ttl gc acts).found id = some r := by
  have inv : ∃ t', (s.run ttl gc acts).table id = some (r, t') ∧ t ≤ t' ∧ t' ≤ (s.run ttl gc acts).now := by
    induction acts using acts_snoc with
    | h0 => exact ⟨t, h, Nat.le_refl _, ht⟩
    | h1 a x ih =>
      rw [SharedMgr.run_snoc] at hnow ⊢
      have hmono := SharedMgr.now_step ttl gc (s.run ttl gc a) x
      obtain ⟨u, hu, htu, hun⟩ := ih (by omega) fun server r' hm => hno server r' (List.mem_append_left _ hm)
      obtain ⟨v, hv, huv, hvn⟩ := SharedMgr.kept_step ttl gc _ x id r u hu hun
        (fun server r' hx => hno server r' (by rw [hx]; simp)) (fun _ _ => by omega)
      exact ⟨v, hv, by omega, hvn⟩
  obtain ⟨t', h', -⟩ := inv
  simp [SharedMgr.found, h']

theorem SharedMgr.none_step (ttl gc : Nat) (s : SharedMgr) (x : MgrAct) (h : s.collector = .none) :
    (s.step ttl gc x).collector = .none := by
  cases x <;> simp only [SharedMgr.step, SharedMgr.closeQuit, h] <;> (repeat' split) <;> first | rfl | exact h

theorem SharedMgr.no_expiry (ttl gc : Nat) (s : SharedMgr) (server : Nat) (acts more : List MgrAct) (id : Bytes)
    (r t : Nat)
    (h : ((((s.step ttl gc (.close server)).step ttl gc .leave).run ttl gc acts).table id = some (r, t)))
    (ht : t ≤ (((s.step ttl gc (.close server)).step ttl gc .leave).run ttl gc acts).now)
    (hq : s.once = true → s.quit = true) (hno : ∀ server r', .store server id r' ∉ more) :
    ((((s.step ttl gc (.close server)).step ttl gc .leave).run ttl gc acts).run ttl gc more).found id =
      some r := by
  have h0 : ((s.step ttl gc (.close server)).step ttl gc .leave).collector = .none := by
    have : (s.step ttl gc (.close server)).quit = true := by
      simp only [SharedMgr.step, SharedMgr.closeQuit]
      repeat' split
      · exact hq (by assumption)
      · assumption
      · rfl
    simp only [SharedMgr.step] at this ⊢
    rw [if_pos this]
  generalize (s.step ttl gc (.close server)).step ttl gc .leave = s0 at *
  have h1 : (s0.run ttl gc acts).collector = .none := by
    clear h ht
    induction acts using acts_snoc with
    | h0 => exact h0
    | h1 a x ih => rw [SharedMgr.run_snoc]; exact SharedMgr.none_step _ _ _ _ ih
  generalize s0.run ttl gc acts = s1 at *
  have inv : (∃ t', (s1.run ttl gc more).table id = some (r, t') ∧ t' ≤ (s1.run ttl gc more).now) ∧
      (s1.run ttl gc more).collector = .none := by
    induction more using acts_snoc with
    | h0 => exact ⟨⟨t, h, ht⟩, h1⟩
    | h1 a x ih =>
      rw [SharedMgr.run_snoc]
      obtain ⟨⟨u, hu, hun⟩, hc⟩ := ih fun server r' hm => hno server r' (List.mem_append_left _ hm)
      obtain ⟨v, hv, -, hvn⟩ := SharedMgr.kept_step ttl gc _ x id r u hu hun
        (fun server r' hx => hno server r' (by rw [hx]; simp)) (fun _ hn => absurd hc hn)
      exact ⟨⟨v, hv, hvn⟩, SharedMgr.none_step _ _ _ _ hc⟩
  obtain ⟨⟨t', h', -⟩, -⟩ := inv
  simp [SharedMgr.found, h']

/-- Of every state of a manager. -/
theorem SharedMgr.reached (ttl gc start : Nat) (acts : List MgrAct) :
    (((SharedMgr.new ttl gc start).run ttl gc acts).once = true →
      ((SharedMgr.new ttl gc start).run ttl gc acts).quit = true) ∧
    ∀ id r t, ((SharedMgr.new ttl gc start).run ttl gc acts).table id = some (r, t) →
      t ≤ ((SharedMgr.new ttl gc start).run ttl gc acts).now := by
  induction acts using acts_snoc with
  | h0 =>
    constructor
    · intro h; cases h
    · intro id r t h; cases h
  | h1 a x ih =>
    rw [SharedMgr.run_snoc]
    obtain ⟨h1, h2⟩ := ih
    generalize (SharedMgr.new ttl gc start).run ttl gc a = s at *
    cases x with
    | pass d => exact ⟨h1, fun id r t h => Nat.le_trans (h2 id r t h) (Nat.le_add_right _ _)⟩
    | store server k session =>
      refine ⟨h1, fun id r t h => ?_⟩
      dsimp only [SharedMgr.step] at h
      split at h
      · cases h; exact Nat.le_refl _
      · exact h2 id r t h
    | load server k =>
      dsimp only [SharedMgr.step]
      split
      · exact ⟨h1, h2⟩
      · refine ⟨h1, fun id r t h => ?_⟩
        dsimp only at h
        split at h
        · cases h; exact Nat.le_refl _
        · exact h2 id r t h
    | close server =>
      simp only [SharedMgr.step, SharedMgr.closeQuit]
      repeat' split
      · exact ⟨h1, h2⟩
      · exact ⟨fun _ => by assumption, h2⟩
      · exact ⟨fun _ => rfl, h2⟩
    | tick =>
      simp only [SharedMgr.step]
      repeat' split
      · refine ⟨h1, fun id r t h => ?_⟩
        dsimp only [visitTable] at h
        split at h
        · split at h
          · cases h
          · cases h; apply h2 id; assumption
        · cases h
      · exact ⟨h1, h2⟩
      · exact ⟨h1, h2⟩
    | leave =>
      simp only [SharedMgr.step]
      split
      · exact ⟨h1, h2⟩
      · exact ⟨h1, h2⟩

/-- **C180**, sessions in use: whatever servers are closed, and however late or early the collector comes, a
session that was stored or loaded at most the TTL ago is found: the one that was stored last.  Missing: only
that unused sessions are dropped (`C180_refuted`). -/
theorem C180_in_use_partial (ttl gc start server r : Nat) (before after : List MgrAct) (id : Bytes) (x : MgrAct)
    (hx : x = .store server id r ∨
      x = .load server id ∧ ((SharedMgr.new ttl gc start).run ttl gc before).found id = some r)
    (hnow : ((SharedMgr.new ttl gc start).run ttl gc (before ++ x :: after)).now ≤
      ((SharedMgr.new ttl gc start).run ttl gc before).now + ttl)
    (hno : ∀ server r', .store server id r' ∉ after) :
    ((SharedMgr.new ttl gc start).run ttl gc (before ++ x :: after)).found id = some r := by
  rw [SharedMgr.run_append] at hnow ⊢
  generalize (SharedMgr.new ttl gc start).run ttl gc before = s at *
  have hs : (s.step ttl gc x).table id = some (r, s.now) ∧ (s.step ttl gc x).now = s.now := by
    rcases hx with rfl | ⟨rfl, hf⟩
    · simp [SharedMgr.step]
    · obtain ⟨⟨r', t⟩, ht, hr⟩ := Option.map_eq_some_iff.mp hf
      cases hr
      simp [SharedMgr.step, ht]
  exact SharedMgr.in_use ttl gc (s.step ttl gc x) after id r s.now hs.1 (Nat.le_of_eq hs.2.symm) hnow hno

/-- **C180**, how it fails: one server was closed and the collector has left.  From then on no session is ever
dropped, for whichever server it was stored, before or after, and however long nobody uses it. -/
theorem C180_no_expiry (ttl gc start server r : Nat) (before acts more : List MgrAct) (id : Bytes)
    (h : ((SharedMgr.new ttl gc start).run ttl gc (before ++ .close server :: .leave :: acts)).found id = some r)
    (hno : ∀ server r', .store server id r' ∉ more) :
    ((SharedMgr.new ttl gc start).run ttl gc (before ++ .close server :: .leave :: acts ++ more)).found id =
      some r := by
  obtain ⟨⟨r', t⟩, ht, hr⟩ := Option.map_eq_some_iff.mp h
  cases hr
  have hle := (SharedMgr.reached ttl gc start _).2 id _ t ht
  rw [SharedMgr.run_append, SharedMgr.run_append]
  rw [SharedMgr.run_append] at ht hle
  exact SharedMgr.no_expiry ttl gc _ server acts more id _ t ht hle (SharedMgr.reached ttl gc start before).1 hno

/-- **C180**, several calls of `Close`: however many of the servers are closed, however often, nobody closes
the channel twice, and the manager goes on storing and finding sessions. -/
theorem C180_close_again_partial (ttl gc start : Nat) (acts : List MgrAct) (server server' r : Nat) (id : Bytes) :
    ((SharedMgr.new ttl gc start).run ttl gc acts).panicked = false ∧
    ((SharedMgr.new ttl gc start).run ttl gc (acts ++ [.store server id r, .load server' id])).table id =
      some (r, ((SharedMgr.new ttl gc start).run ttl gc acts).now) := by
  constructor
  · have inv : ((SharedMgr.new ttl gc start).run ttl gc acts).panicked = false ∧
        (((SharedMgr.new ttl gc start).run ttl gc acts).once = false →
          ((SharedMgr.new ttl gc start).run ttl gc acts).quit = false) := by
      induction acts using acts_snoc with
      | h0 => exact ⟨rfl, fun _ => rfl⟩
      | h1 a x ih =>
        rw [SharedMgr.run_snoc]
        obtain ⟨h1, h2⟩ := ih
        generalize (SharedMgr.new ttl gc start).run ttl gc a = s at *
        cases x with
        | close server =>
          simp only [SharedMgr.step]
          split
          · exact ⟨h1, h2⟩
          · rename_i ho
            have hq := h2 (by simpa using ho)
            simp only [SharedMgr.closeQuit, hq]
            exact ⟨h1, fun h => by cases h⟩
        | _ =>
          simp only [SharedMgr.step]
          (repeat' split) <;> exact ⟨h1, h2⟩
    exact inv.1
  · rw [SharedMgr.run_append]
    simp [SharedMgr.run, SharedMgr.step]

namespace SharedManagerExample

/-- TTL 15, interval 1; two servers; server 0 is closed; a session of server 1. -/
def acts : List MgrAct := [.close 0, .leave, .store 1 [7] 5, .pass 1000]

theorem acts_onTime : OnTime 15 1 (.new 15 1 0) acts := by
  intro before after d h
  rcases before with _ | ⟨a, _ | ⟨b, _ | ⟨c, _ | ⟨e, before⟩⟩⟩⟩
  · cases h
  · cases h
  · cases h
  · cases h
    intro next h
    cases h
  · simp [acts] at h

/-- The session is found 1000 units after its last use. -/
example : ((SharedMgr.new 15 1 0).run 15 1 acts).found [7] = some 5 := by decide +kernel

/-- Without the `Close` it is dropped. -/
example : ((SharedMgr.new 2 1 0).run 2 1
    [.store 1 [7] 5, .pass 1, .tick, .pass 1, .tick, .pass 1, .tick]).found [7] = none := by decide +kernel

/-- And kept while it is used. -/
example : ((SharedMgr.new 2 1 0).run 2 1
    [.store 1 [7] 5, .pass 1, .tick, .load 0 [7], .pass 1, .tick, .pass 1, .tick]).found [7] = some 5 := by
  decide +kernel

/-- Both servers are closed, one after the other. -/
example : ((SharedMgr.new 2 1 0).run 2 1 [.close 0, .close 1]).panicked = false ∧
    ((SharedMgr.new 2 1 0).run 2 1 [.close 0, .close 1]).quit = true := by decide +kernel

end SharedManagerExample

theorem C180_refuted : ¬ C180_claim := by
  intro h
  have := h 15 1 0 SharedManagerExample.acts [7] 5 0 (by decide) (by decide) SharedManagerExample.acts_onTime
    ⟨1, by simp [SharedManagerExample.acts]⟩ (by decide +kernel)
  revert this
  decide +kernel

end Goe2ee
