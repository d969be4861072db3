import Verif.Props.ChatUser
import Mathlib.Data.List.Dedup

/-!
# C115, C118: the connections of a chat user
-/

set_option autoImplicit false

namespace Goe2ee

/-! ## C115 -/

/-- The handlers of notifications have not begun or are over. -/
def HandlersIdle (self : ChatUser) (notifications : List (Option ChatNotification))
    (messages : List (Option (ChatUser × Bytes))) (acts : List (Nat × UserEnv)) : Prop :=
  ∀ k, k < notifications.length →
    (userRun self notifications messages acts).threads[3 + k]? = some (.ret .ended) ∨
    (userRun self notifications messages acts).threads[3 + k]? = notifications[k]?.map handleNotification

/-- **C115** (full statement): whenever no notification is being handled, every connection that is still open belongs
to a user who is in the chat (so it is closed when that user leaves). -/
def C115_claim : Prop :=
  ∀ (self : ChatUser) (notifications : List (Option ChatNotification))
    (messages : List (Option (ChatUser × Bytes))) (acts : List (Nat × UserEnv)),
    HandlersIdle self notifications messages acts →
    ∀ c, (userRun self notifications messages acts).world.conns[c]? = some true →
    ∃ name u, (userRun self notifications messages acts).world.get name = some ⟨u, some c⟩

namespace UserExample

/-- Bob joins twice and leaves. -/
def twice : List (Nat × UserEnv) :=
  began ++ does 3 6 ++ does 0 4 ++ does 4 6 ++ does 0 4 ++ does 5 7 ++ does 0 4

end UserExample

/-- Ended goroutines, read off the points. -/
theorem ended_of_point {self : ChatUser} {notifications : List (Option ChatNotification)}
    {messages : List (Option (ChatUser × Bytes))} {acts : List (Nat × UserEnv)} {i : Nat}
    (h : ((userPoints notifications messages).run self acts).points[i]? = some .done) :
    (userRun self notifications messages acts).threads[i]? = some (.ret .ended) := by
  rw [userRun_points]
  simp only [UserState.loops, List.getElem?_map, h]
  rfl

open UserExample in
/-- C115 fails: when the registry announces a user twice, the second connection replaces the first, which nobody
closes any more. -/
theorem C115_refuted : ¬ C115_claim := by
  intro h
  have hw : ((userPoints [joins bob, joins bob, leaves bob] []).run alice twice).world.users = [] := by decide +kernel
  obtain ⟨name, u, h1⟩ := h alice [joins bob, joins bob, leaves bob] [] twice
    (by
      intro k hk
      left
      refine ended_of_point ?_
      match k, hk with
      | 0, _ => decide +kernel
      | 1, _ => decide +kernel
      | 2, _ => decide +kernel)
    0 (by rw [userRun_world]; decide +kernel)
  rw [userRun_world, UserWorld.get, hw] at h1
  cases h1

/-- The name of a user who is joining: their entry has not been stored yet. -/
def UserPoint.joining : UserPoint → Option Bytes
  | .arriving (some n) => if n.event = some .joined then some n.user.name else none
  | .dialling _ u => some u.name
  | .refusing u => some u.name
  | .joinLock u _ => some u.name
  | .joinPut u _ => some u.name
  | _ => none

/-- The connection that has not been stored yet. -/
def UserPoint.holds : UserPoint → Option Nat
  | .joinLock _ c => c
  | .joinPut _ c => c
  | _ => none

/-- The connection that is about to be closed. -/
def UserPoint.closing : UserPoint → Option (Bytes × Nat)
  | .leaveClose u c => some (u.name, c)
  | _ => none

/-- The name of a user who leaves: their connection has been closed. -/
def UserPoint.leaving : UserPoint → Option Bytes
  | .leaveAnswer u => some u.name
  | .leaveDelete u => some u.name
  | _ => none

structure UserPeers (s : UserState) : Prop where
  fresh : ∀ (i : Nat) (p : UserPoint) (name : Bytes), s.points[i]? = some p → p.joining = some name →
    s.world.get name = none
  opened : ∀ c, s.world.conns[c]? = some true → (∃ name u, s.world.get name = some ⟨u, some c⟩) ∨
    ∃ (i : Nat) (p : UserPoint), s.points[i]? = some p ∧ p.holds = some c
  stored : ∀ name u c, s.world.get name = some ⟨u, some c⟩ → c < s.world.conns.length
  held : ∀ (i : Nat) (p : UserPoint) (c : Nat), s.points[i]? = some p → p.holds = some c → c < s.world.conns.length
  closing : ∀ (i : Nat) (p : UserPoint) (name : Bytes) (c : Nat), s.points[i]? = some p →
    p.closing = some (name, c) → ∃ v, s.world.get name = some ⟨v, some c⟩
  closed : ∀ (i : Nat) (p : UserPoint) (name : Bytes), s.points[i]? = some p → p.leaving = some name →
    ∀ u c, s.world.get name = some ⟨u, some c⟩ → s.world.conns[c]? = some false

theorem lookup_removed (users : List (Bytes × UserConnection)) (name key : Bytes) :
    (users.filter (·.1 ≠ name)).lookup key = if key = name then none else users.lookup key := by
  induction users with
  | nil => simp
  | cons e users ih =>
    by_cases h : e.1 = name
    · rw [List.filter_cons_of_neg (by simp [h]), ih]
      split
      · rfl
      · rename_i hk
        rw [List.lookup_cons, show (key == e.1) = false from by rw [h]; exact beq_false_of_ne hk]
    · rw [List.filter_cons_of_pos (by simp [h]), List.lookup_cons, ih, List.lookup_cons]
      by_cases hk : key = name
      · rw [if_pos hk, if_pos hk, show (key == e.1) = false from by
          rw [hk]; exact beq_false_of_ne fun h' => h h'.symm]
      · rw [if_neg hk, if_neg hk]

theorem lookup_stored (users : List (Bytes × UserConnection)) (name key : Bytes) (u : UserConnection) :
    ((name, u) :: users.filter (·.1 ≠ name)).lookup key = if key = name then some u else users.lookup key := by
  rw [List.lookup_cons, lookup_removed]
  by_cases hk : key = name
  · simp [hk]
  · rw [if_neg hk, if_neg hk, show (key == name) = false from beq_false_of_ne hk]

theorem joining_point (n : ChatNotification) (name : Bytes) (h : n.point.joining = some name) :
    (UserPoint.arriving (some n)).joining = some name := by
  unfold UserPoint.joining
  dsimp only
  revert h
  unfold ChatNotification.point
  split
  · exact (fun h => by cases h)
  · rename_i he
    rw [if_pos he]
    split
    · exact id
    · split <;> exact id
  · exact (fun h => by cases h)

theorem quiet_point (n : ChatNotification) : n.point.holds = none ∧ n.point.closing = none ∧
    n.point.leaving = none := by
  unfold ChatNotification.point
  split
  · exact ⟨rfl, rfl, rfl⟩
  · split
    · exact ⟨rfl, rfl, rfl⟩
    · split <;> exact ⟨rfl, rfl, rfl⟩
  · exact ⟨rfl, rfl, rfl⟩

/-- No two notifications tell that the same user joined. -/
def JoinOnce (notifications : List (Option ChatNotification)) : Prop :=
  ∀ (i j : Nat) (n n' : ChatNotification), notifications[i]? = some (some n) → notifications[j]? = some (some n') →
    n.event = some .joined → n'.event = some .joined → n.user.name = n'.user.name → i = j

theorem joining_role {self : ChatUser} {notifications : List (Option ChatNotification)}
    {messages : List (Option (ChatUser × Bytes))} {s : UserState} (h : UserPlaced self notifications messages s)
    {i : Nat} {p : UserPoint} {name : Bytes} (hp : s.points[i]? = some p) (hj : p.joining = some name) :
    3 ≤ i ∧ ∃ n, notifications[i - 3]? = some (some n) ∧ n.event = some .joined ∧ n.user.name = name := by
  obtain ⟨r, hr, hf⟩ := h.fits i p hp
  have key : ∃ n, r = .note (some n) ∧ n.event = some .joined ∧ n.user.name = name := by
    cases p <;> first | (cases hj; done) | skip
    case arriving b =>
      cases b with
      | none => cases hj
      | some n =>
        simp only [UserPoint.joining] at hj
        split at hj
        · rename_i he
          cases hj
          cases r <;> first | (cases hf; done) | skip
          rename_i b
          have hf : some n = b := hf
          subst hf
          exact ⟨n, rfl, he, rfl⟩
        · cases hj
    all_goals
      cases hj
      cases r <;> first | (cases hf; done) | skip
      rename_i b
      obtain ⟨n, rfl, he, rfl⟩ := hf
      exact ⟨n, rfl, he, rfl⟩
  obtain ⟨n, rfl, he, hn⟩ := key
  match i with
  | 0 => cases hr
  | 1 => cases hr
  | 2 => cases hr
  | k + 3 =>
    refine ⟨by omega, n, ?_, he, hn⟩
    have hr : (notifications.map UserRole.note ++ messages.map UserRole.message)[k]? = some (.note (some n)) := by
      simpa [userRoles] using hr
    rw [List.getElem?_append] at hr
    split at hr
    · rw [List.getElem?_map, Option.map_eq_some_iff] at hr
      obtain ⟨b, h1, h2⟩ := hr
      cases h2
      simpa using h1
    · rw [List.getElem?_map, Option.map_eq_some_iff] at hr
      obtain ⟨b, h1, h2⟩ := hr
      cases h2

theorem joining_one {self : ChatUser} {notifications : List (Option ChatNotification)}
    {messages : List (Option (ChatUser × Bytes))} {s : UserState} (h : UserPlaced self notifications messages s)
    (ho : JoinOnce notifications) {i j : Nat} {p q : UserPoint} {name : Bytes} (hp : s.points[i]? = some p)
    (hq : s.points[j]? = some q) (h1 : p.joining = some name) (h2 : q.joining = some name) : i = j := by
  obtain ⟨a1, n, a2, a3, a4⟩ := joining_role h hp h1
  obtain ⟨b1, n', b2, b3, b4⟩ := joining_role h hq h2
  have := ho _ _ n n' a2 b2 a3 b3 (a4.trans b4.symm)
  omega

theorem UserLocks.alone {s : UserState} (h : UserLocks s) {i j : Nat} {p q : UserPoint} (hp : s.points[i]? = some p)
    (hq : s.points[j]? = some q) (h1 : p.writes = true) (h2 : q.writes = true) : i = j := by
  rcases Nat.lt_trichotomy i j with hij | hij | hij
  · have := countP_two_points hp hq (by omega) h1 h2
    rw [h.writer] at this
    split at this <;> omega
  · exact hij
  · have := countP_two_points hp hq (by omega) h1 h2
    rw [h.writer] at this
    split at this <;> omega

/-- A move that leaves the map and the connections alone. -/
theorem UserPeers.frame {s : UserState} {i : Nat} {p q : UserPoint} {w' : UserWorld} (h : UserPeers s)
    (hp : s.points[i]? = some p) (hu : w'.users = s.world.users) (hc : w'.conns = s.world.conns)
    (h1 : ∀ name, q.joining = some name → p.joining = some name) (h2 : q.holds = p.holds)
    (h3 : ∀ name c, q.closing = some (name, c) → ∃ v, s.world.get name = some ⟨v, some c⟩)
    (h4 : ∀ name, q.leaving = some name → ∀ u c, s.world.get name = some ⟨u, some c⟩ →
      s.world.conns[c]? = some false) : UserPeers ⟨w', s.points.set i q⟩ := by
  have hlt := (List.getElem?_eq_some_iff.mp hp).1
  have hg : ∀ name, w'.get name = s.world.get name := fun name => by rw [UserWorld.get, hu]; rfl
  have cases2 : ∀ {j : Nat} {p' : UserPoint}, (s.points.set i q)[j]? = some p' →
      (j = i ∧ p' = q) ∨ (j ≠ i ∧ s.points[j]? = some p') := by
    intro j p' hj
    by_cases hij : i = j
    · subst hij
      rw [List.getElem?_set_self hlt] at hj
      cases hj
      exact .inl ⟨rfl, rfl⟩
    · rw [List.getElem?_set_ne hij] at hj
      exact .inr ⟨fun h => hij h.symm, hj⟩
  refine ⟨?_, ?_, ?_, ?_, ?_, ?_⟩
  · intro j p' name hj hn
    dsimp only
    rw [hg]
    rcases cases2 hj with ⟨rfl, rfl⟩ | ⟨_, hj⟩
    · exact h.fresh _ p name hp (h1 name hn)
    · exact h.fresh j p' name hj hn
  · intro c hcc
    dsimp only at hcc ⊢
    rw [hc] at hcc
    rcases h.opened c hcc with ⟨name, u, hx⟩ | ⟨j, p', hj, hh⟩
    · exact .inl ⟨name, u, by rw [hg]; exact hx⟩
    · right
      by_cases hij : i = j
      · subst hij
        rw [hp] at hj
        cases hj
        exact ⟨i, q, List.getElem?_set_self hlt, by rw [h2]; exact hh⟩
      · exact ⟨j, p', by rw [List.getElem?_set_ne hij]; exact hj, hh⟩
  · intro name u c hx
    dsimp only at hx ⊢
    rw [hg] at hx
    rw [hc]
    exact h.stored name u c hx
  · intro j p' c hj hh
    dsimp only
    rw [hc]
    rcases cases2 hj with ⟨rfl, rfl⟩ | ⟨_, hj⟩
    · exact h.held _ p c hp (by rw [← h2]; exact hh)
    · exact h.held j p' c hj hh
  · intro j p' name c hj hh
    dsimp only
    rw [hg]
    rcases cases2 hj with ⟨rfl, rfl⟩ | ⟨_, hj⟩
    · exact h3 name c hh
    · exact h.closing j p' name c hj hh
  · intro j p' name hj hh u c hx
    dsimp only at hx ⊢
    rw [hg] at hx
    rw [hc]
    rcases cases2 hj with ⟨rfl, rfl⟩ | ⟨_, hj⟩
    · exact h4 name hh u c hx
    · exact h.closed j p' name hj hh u c hx

theorem closing_writes {p : UserPoint} {x : Bytes × Nat} (h : p.closing = some x) : p.writes = true := by
  cases p <;> first | (cases h; done) | rfl

theorem leaving_writes {p : UserPoint} {x : Bytes} (h : p.leaving = some x) : p.writes = true := by
  cases p <;> first | (cases h; done) | rfl

theorem UserPeers.move {self : ChatUser} {notifications : List (Option ChatNotification)}
    {messages : List (Option (ChatUser × Bytes))} (ho : JoinOnce notifications)
    (s : UserState) (i : Nat) (p q : UserPoint) (w' : UserWorld)
    (h : (UserPlaced self notifications messages s ∧ UserLocks s) ∧ UserPeers s) (hp : s.points[i]? = some p)
    (hm : UserMove self i s.world p q w') :
    (UserPlaced self notifications messages ⟨w', s.points.set i q⟩ ∧ UserLocks ⟨w', s.points.set i q⟩) ∧
      UserPeers ⟨w', s.points.set i q⟩ := by
  obtain ⟨⟨hpl, hl⟩, h⟩ := h
  refine ⟨⟨hpl.move s i p q w' hp hm, hl.move s i p q w' hp hm⟩, ?_⟩
  have hlt := (List.getElem?_eq_some_iff.mp hp).1
  have cases2 : ∀ {q : UserPoint} {j : Nat} {p' : UserPoint}, (s.points.set i q)[j]? = some p' →
      (j = i ∧ p' = q) ∨ (j ≠ i ∧ s.points[j]? = some p') := by
    intro q j p' hj
    by_cases hij : i = j
    · subst hij
      rw [List.getElem?_set_self hlt] at hj
      cases hj
      exact .inl ⟨rfl, rfl⟩
    · rw [List.getElem?_set_ne hij] at hj
      exact .inr ⟨fun h => hij h.symm, hj⟩
  cases hm
  case arrive n _ =>
    obtain ⟨h1, h2, h3⟩ := quiet_point n
    refine h.frame hp rfl rfl (fun name hn => joining_point n name hn) (h1.trans rfl) (fun name c hx => ?_)
      (fun name hx => ?_)
    · rw [h2] at hx; cases hx
    · rw [h3] at hx; cases hx
  case leaveNobody u hg =>
    refine h.frame hp rfl rfl (fun _ h => by cases h) rfl (fun _ _ h => by cases h) ?_
    intro name hx u c hx'
    cases hx
    rw [hg] at hx'
    cases hx'
  case leaveGet u v c hg =>
    refine h.frame hp rfl rfl (fun _ h => by cases h) rfl ?_ (fun _ h => by cases h)
    intro name c' hx
    cases hx
    exact ⟨v, hg⟩
  case leaveAnswer u =>
    refine h.frame hp rfl rfl (fun _ h => by cases h) rfl (fun _ _ h => by cases h) ?_
    intro name hx
    cases hx
    exact h.closed i _ u.name hp rfl
  case joinLock u conn _ _ =>
    exact h.frame hp rfl rfl (fun _ h => h) rfl (fun _ _ h => by cases h) (fun _ h => by cases h)
  case refuse u =>
    exact h.frame hp rfl rfl (fun _ h => h) rfl (fun _ _ h => by cases h) (fun _ h => by cases h)
  case dial udp u =>
    have hlen : (s.world.conns ++ [true]).length = s.world.conns.length + 1 := by simp
    refine ⟨?_, ?_, ?_, ?_, ?_, ?_⟩
    · intro j p' name hj hn
      rcases cases2 hj with ⟨rfl, rfl⟩ | ⟨_, hj⟩
      · exact h.fresh _ _ name hp hn
      · exact h.fresh j p' name hj hn
    · intro c hcc
      dsimp only at hcc
      rcases Nat.lt_trichotomy c s.world.conns.length with hlt' | heq | hgt
      · rw [List.getElem?_append_left hlt'] at hcc
        rcases h.opened c hcc with hx | ⟨j, p', hj, hh⟩
        · exact .inl hx
        · right
          have hij : i ≠ j := by
            rintro rfl
            rw [hp] at hj
            cases hj
            cases hh
          exact ⟨j, p', by dsimp only; rw [List.getElem?_set_ne hij]; exact hj, hh⟩
      · right
        exact ⟨i, _, List.getElem?_set_self hlt, by rw [heq]; rfl⟩
      · rw [List.getElem?_eq_none (by omega)] at hcc
        cases hcc
    · intro name u c hx
      have := h.stored name u c hx
      dsimp only
      omega
    · intro j p' c hj hh
      dsimp only
      rcases cases2 hj with ⟨rfl, rfl⟩ | ⟨_, hj⟩
      · cases hh
        omega
      · have := h.held j p' c hj hh
        omega
    · intro j p' name c hj hh
      rcases cases2 hj with ⟨rfl, rfl⟩ | ⟨_, hj⟩
      · cases hh
      · exact h.closing j p' name c hj hh
    · intro j p' name hj hh u c hx
      rcases cases2 hj with ⟨rfl, rfl⟩ | ⟨_, hj⟩
      · cases hh
      · dsimp only
        rw [List.getElem?_append_left (h.stored name u c hx)]
        exact h.closed j p' name hj hh u c hx
  case joinPut u conn =>
    have hg : ∀ name, UserWorld.get { s.world with
        users := (u.name, (⟨u, conn⟩ : UserConnection)) :: s.world.users.filter (·.1 ≠ u.name) } name =
        if name = u.name then some ⟨u, conn⟩ else s.world.get name :=
      fun name => lookup_stored _ _ _ _
    refine ⟨?_, ?_, ?_, ?_, ?_, ?_⟩
    · intro j p' name hj hn
      rcases cases2 hj with ⟨rfl, rfl⟩ | ⟨hne, hj⟩
      · cases hn
      · refine (hg name).trans ?_
        rw [if_neg]
        · exact h.fresh j p' name hj hn
        · intro he
          rw [he] at hn
          exact hne (joining_one hpl ho hj hp hn rfl)
    · intro c hcc
      rcases h.opened c hcc with ⟨name, v, hx⟩ | ⟨j, p', hj, hh⟩
      · left
        refine ⟨name, v, (hg name).trans ?_⟩
        rw [if_neg]
        · exact hx
        · intro he
          rw [he, h.fresh i _ u.name hp rfl] at hx
          cases hx
      · by_cases hij : i = j
        · subst hij
          rw [hp] at hj
          cases hj
          cases hh
          exact .inl ⟨u.name, u, (hg u.name).trans (if_pos rfl)⟩
        · exact .inr ⟨j, p', by dsimp only; rw [List.getElem?_set_ne hij]; exact hj, hh⟩
    · intro name v c hx
      have hx := (hg name).symm.trans hx
      split at hx
      · cases hx
        exact h.held i _ c hp rfl
      · exact h.stored name v c hx
    · intro j p' c hj hh
      rcases cases2 hj with ⟨rfl, rfl⟩ | ⟨_, hj⟩
      · cases hh
      · exact h.held j p' c hj hh
    · intro j p' name c hj hh
      rcases cases2 hj with ⟨rfl, rfl⟩ | ⟨hne, hj⟩
      · cases hh
      · exact absurd (hl.alone hj hp (closing_writes hh) rfl) hne
    · intro j p' name hj hh
      rcases cases2 hj with ⟨rfl, rfl⟩ | ⟨hne, hj⟩
      · cases hh
      · exact absurd (hl.alone hj hp (leaving_writes hh) rfl) hne
  case leaveDelete u =>
    have hg : ∀ name, UserWorld.get { s.world with users := s.world.users.filter (·.1 ≠ u.name) } name =
        if name = u.name then none else s.world.get name :=
      fun name => lookup_removed _ _ _
    refine ⟨?_, ?_, ?_, ?_, ?_, ?_⟩
    · intro j p' name hj hn
      rcases cases2 hj with ⟨rfl, rfl⟩ | ⟨hne, hj⟩
      · cases hn
      · refine (hg name).trans ?_
        rw [h.fresh j p' name hj hn]
        split <;> rfl
    · intro c hcc
      rcases h.opened c hcc with ⟨name, v, hx⟩ | ⟨j, p', hj, hh⟩
      · left
        refine ⟨name, v, (hg name).trans ?_⟩
        rw [if_neg]
        · exact hx
        · intro he
          rw [he] at hx
          have := h.closed i _ u.name hp rfl v c hx
          rw [this] at hcc
          cases hcc
      · have hij : i ≠ j := by
          rintro rfl
          rw [hp] at hj
          cases hj
          cases hh
        exact .inr ⟨j, p', by dsimp only; rw [List.getElem?_set_ne hij]; exact hj, hh⟩
    · intro name v c hx
      have hx := (hg name).symm.trans hx
      split at hx
      · cases hx
      · exact h.stored name v c hx
    · intro j p' c hj hh
      rcases cases2 hj with ⟨rfl, rfl⟩ | ⟨_, hj⟩
      · cases hh
      · exact h.held j p' c hj hh
    · intro j p' name c hj hh
      rcases cases2 hj with ⟨rfl, rfl⟩ | ⟨hne, hj⟩
      · cases hh
      · exact absurd (hl.alone hj hp (closing_writes hh) rfl) hne
    · intro j p' name hj hh
      rcases cases2 hj with ⟨rfl, rfl⟩ | ⟨hne, hj⟩
      · cases hh
      · exact absurd (hl.alone hj hp (leaving_writes hh) rfl) hne
  case leaveClose u c | leaveCloseFail u c =>
    have hcl := h.closing i _ u.name c hp rfl
    refine ⟨?_, ?_, ?_, ?_, ?_, ?_⟩
    · intro j p' name hj hn
      rcases cases2 hj with ⟨rfl, rfl⟩ | ⟨hne, hj⟩
      · cases hn
      · exact h.fresh j p' name hj hn
    · intro c' hcc
      dsimp only at hcc
      have hcc' : s.world.conns[c']? = some true := by
        rw [List.getElem?_set] at hcc
        split at hcc
        · split at hcc <;> cases hcc
        · exact hcc
      rcases h.opened c' hcc' with hx | ⟨j, p', hj, hh⟩
      · exact .inl hx
      · have hij : i ≠ j := by
          rintro rfl
          rw [hp] at hj
          cases hj
          cases hh
        exact .inr ⟨j, p', by dsimp only; rw [List.getElem?_set_ne hij]; exact hj, hh⟩
    · intro name v c' hx
      simpa using h.stored name v c' hx
    · intro j p' c' hj hh
      rcases cases2 hj with ⟨rfl, rfl⟩ | ⟨_, hj⟩
      · cases hh
      · simpa using h.held j p' c' hj hh
    · intro j p' name c' hj hh
      rcases cases2 hj with ⟨rfl, rfl⟩ | ⟨hne, hj⟩
      · cases hh
      · exact absurd (hl.alone hj hp (closing_writes hh) rfl) hne
    · intro j p' name hj hh v c' hx
      rcases cases2 hj with ⟨rfl, rfl⟩ | ⟨hne, hj⟩
      · cases hh
        obtain ⟨v', hv'⟩ := hcl
        have hx : s.world.get u.name = some ⟨v, some c'⟩ := hx
        rw [hv'] at hx
        cases hx
        have := h.stored _ _ _ hv'
        dsimp only
        rw [List.getElem?_set_self this]
      · exact absurd (hl.alone hj hp (leaving_writes hh) rfl) hne
  all_goals
    exact h.frame hp rfl rfl (fun _ h => by cases h) rfl (fun _ _ h => by cases h) (fun _ h => by cases h)

theorem UserPeers.run (self : ChatUser) (notifications : List (Option ChatNotification))
    (messages : List (Option (ChatUser × Bytes))) (acts : List (Nat × UserEnv)) (ho : JoinOnce notifications) :
    UserPeers ((userPoints notifications messages).run self acts) := by
  have start : ∀ (i : Nat) (p : UserPoint), (userPoints notifications messages).points[i]? = some p →
      p.holds = none ∧ p.closing = none ∧ p.leaving = none := by
    intro i p hp
    have hp := List.mem_of_getElem? hp
    simp only [userPoints, List.mem_append, List.mem_cons, List.mem_map, List.not_mem_nil, or_false] at hp
    rcases hp with ((rfl | rfl | rfl) | ⟨b, hb, rfl⟩) | ⟨b, _, rfl⟩ <;> exact ⟨rfl, rfl, rfl⟩
  have locks : UserLocks (userPoints notifications messages) := UserLocks.run self notifications messages []
  refine (UserState.run_induct self (UserPeers.move ho) acts
    ⟨⟨UserPlaced.start self notifications messages, locks⟩, ?_, ?_, ?_, ?_, ?_, ?_⟩).2
  · intro i p name _ _; rfl
  · intro c hc; cases hc
  · intro name u c hx; cases hx
  · intro i p c hp hh
    rw [(start i p hp).1] at hh
    cases hh
  · intro i p name c hp hh
    rw [(start i p hp).2.1] at hh
    cases hh
  · intro i p name hp hh
    rw [(start i p hp).2.2] at hh
    cases hh

/-- **C115** (partial): if no user joins twice, then whenever no notification is being handled, every connection that
is still open belongs to a user who is in the chat.  (The full statement is `C115_claim`.) -/
theorem C115_owned_partial (self : ChatUser) (notifications : List (Option ChatNotification))
    (messages : List (Option (ChatUser × Bytes))) (acts : List (Nat × UserEnv)) (ho : JoinOnce notifications)
    (hi : HandlersIdle self notifications messages acts) (c : Nat)
    (hc : (userRun self notifications messages acts).world.conns[c]? = some true) :
    ∃ name u, (userRun self notifications messages acts).world.get name = some ⟨u, some c⟩ := by
  rw [userRun_world] at hc ⊢
  rcases (UserPeers.run self notifications messages acts ho).opened c hc with hx | ⟨i, p, hp, hh⟩
  · exact hx
  · exfalso
    have hj : ∃ name, p.joining = some name := by
      cases p <;> first | (cases hh; done) | exact ⟨_, rfl⟩
    obtain ⟨name, hj⟩ := hj
    obtain ⟨h3, n, hn, _⟩ := joining_role (UserPlaced.run self notifications messages acts) hp hj
    have hlt := (List.getElem?_eq_some_iff.mp hn).1
    have hthread : (userRun self notifications messages acts).threads[3 + (i - 3)]? = some (p.prog self) := by
      rw [userRun_points]
      simp only [UserState.loops, List.getElem?_map]
      rw [show 3 + (i - 3) = i by omega, hp]
      rfl
    rcases hi (i - 3) hlt with h1 | h1
    · rw [hthread] at h1
      cases p <;> first | (cases hh; done) | cases h1
    · rw [hthread, hn] at h1
      cases p <;> first | (cases hh; done) | cases h1

open UserExample in
/-- Bob joins and leaves; afterwards the connection is closed. -/
example : (userRun alice [joins bob, leaves bob] []
      (began ++ does 3 6 ++ does 0 4 ++ does 4 7 ++ does 0 4)).world.conns = [false] := by
  rw [userRun_world]; decide +kernel

/-! ## C118 -/

/-- The connection and the message of a write. -/
def UserEvent.written : UserEvent → Option (Nat × ChatMessage)
  | .wrote c m _ => some (c, m)
  | _ => none

/-- Every name has one entry. -/
def UserKeys (s : UserState) : Prop := (s.world.users.map (·.1)).Nodup

theorem UserKeys.move {self : ChatUser} (s : UserState) (i : Nat) (p q : UserPoint) (w' : UserWorld)
    (h : UserKeys s) (_ : s.points[i]? = some p) (hm : UserMove self i s.world p q w') :
    UserKeys ⟨w', s.points.set i q⟩ := by
  have hf : ∀ name, ((s.world.users.filter (·.1 ≠ name)).map (·.1)).Nodup := fun name =>
    h.sublist (List.filter_sublist.map _)
  unfold UserKeys
  dsimp only
  cases hm <;> first | exact h | exact hf _ | skip
  case joinPut u conn =>
    rw [List.map_cons, List.nodup_cons]
    refine ⟨fun hx => ?_, hf _⟩
    obtain ⟨e, h1, h2⟩ := List.mem_map.mp hx
    simpa [h2] using (List.mem_filter.mp h1).2

theorem filterMap_keys {users : List (Bytes × UserConnection)} (h : (users.map (·.1)).Nodup) :
    (users.map (·.1)).filterMap (fun n => users.lookup n) = users.map (·.2) := by
  induction users with
  | nil => rfl
  | cons e users ih =>
    rw [List.map_cons, List.nodup_cons] at h
    rw [List.map_cons, List.filterMap_cons, List.lookup_cons, show (e.1 == e.1) = true from beq_self_eq_true _]
    dsimp only
    rw [List.map_cons, ← ih h.2]
    congr 1
    refine List.filterMap_congr fun n hn => ?_
    have hne : n ≠ e.1 := by
      rintro rfl
      exact h.1 hn
    rw [List.lookup_cons, show (n == e.1) = false from beq_false_of_ne hne]

theorem lookup_none_of_not_mem {users : List (Bytes × UserConnection)} {name : Bytes}
    (h : name ∉ users.map (·.1)) : users.lookup name = none := by
  cases hl : users.lookup name with
  | none => rfl
  | some u => exact absurd (List.mem_map.mpr ⟨_, mem_of_lookup hl, rfl⟩) h

/-- The loop visits every user once, whatever the order. -/
theorem range_perm {w : UserWorld} (h : (w.users.map (·.1)).Nodup) (order : List Bytes) :
    (w.range order).Perm (w.users.map (·.2)) := by
  have h1 : w.range order =
      (((w.users.map (·.1) ++ order).dedup).filter (· ∈ w.users.map (·.1))).filterMap w.get := by
    unfold UserWorld.range
    rw [List.filterMap_filter]
    refine List.filterMap_congr fun n _ => ?_
    by_cases hn : n ∈ w.users.map (·.1)
    · simp only [hn, decide_true, if_true]
    · simp only [hn, decide_false, Bool.false_eq_true, if_false]
      exact lookup_none_of_not_mem hn
  rw [h1, ← filterMap_keys h]
  refine List.Perm.filterMap _ ?_
  refine (List.perm_ext_iff_of_nodup ((List.nodup_dedup _).filter _) h).mpr fun n => ?_
  rw [List.mem_filter, List.mem_dedup, List.mem_append]
  constructor
  · intro hn; simpa using hn.2
  · intro hn; exact ⟨.inl hn, by simpa using hn⟩

/-- What goroutine 1 has written of the message `m`, since it had the writes `base`. -/
def TellRound (base : List (Nat × ChatMessage)) (m : ChatMessage) (w : UserWorld) : UserPoint → Prop
  | .tellRLock m' => m' = m ∧ w.log.filterMap UserEvent.written = base
  | .tellRange m' => m' = m ∧ w.log.filterMap UserEvent.written = base
  | .tellEach m' us => m' = m ∧ ∃ cs : List Nat,
    w.log.filterMap UserEvent.written = base ++ cs.map (fun c => (c, m)) ∧
    (cs.map some ++ us.map (·.conn)).Perm (w.users.map (·.2.conn))
  | .tellSend _ => True
  | _ => False

/-- Only the goroutine that chats writes. -/
theorem written_move {self : ChatUser} {i : Nat} {w w' : UserWorld} {p q : UserPoint}
    (hm : UserMove self i w p q w') : w'.log.filterMap UserEvent.written = w.log.filterMap UserEvent.written ∨
      ∃ m us, p = .tellEach m us := by
  cases hm <;> first | exact .inl rfl | exact .inr ⟨_, _, rfl⟩ | (left; simp [List.filterMap_append, UserEvent.written])

/-- Only a goroutine that holds the lock changes the map. -/
theorem users_move {self : ChatUser} {i : Nat} {w w' : UserWorld} {p q : UserPoint}
    (hm : UserMove self i w p q w') : w'.users = w.users ∨ p.writes = true := by
  cases hm <;> first | exact .inl rfl | exact .inr rfl

theorem TellRound.own {self : ChatUser} {base : List (Nat × ChatMessage)} {m : ChatMessage} {w w' : UserWorld}
    {i : Nat} {p q : UserPoint} (hk : (w.users.map (·.1)).Nodup) (h : TellRound base m w p)
    (hm : UserMove self i w p q w') (hq : q ≠ .chatTop) : TellRound base m w' q := by
  cases hm <;> first | (exact absurd h id) | (exact absurd rfl hq) | exact h | trivial | skip
  case tellRange m' order =>
    obtain ⟨rfl, hb⟩ := h
    refine ⟨rfl, [], by simpa using hb, ?_⟩
    have := (range_perm hk order).map (·.conn)
    simpa [List.map_map, Function.comp_def] using this
  case encode m' u c us ok _ =>
    obtain ⟨rfl, cs, h1, h2⟩ := h
    refine ⟨rfl, cs ++ [c], ?_, ?_⟩
    · simp [List.filterMap_append, h1, UserEvent.written]
    · simpa using h2

theorem UserPlaced.teller {self : ChatUser} {notifications : List (Option ChatNotification)}
    {messages : List (Option (ChatUser × Bytes))} {s : UserState} (h : UserPlaced self notifications messages s)
    {i : Nat} {m : ChatMessage} {us : List UserConnection} (hp : s.points[i]? = some (.tellEach m us)) : i = 1 := by
  obtain ⟨r, hr, hf⟩ := h.fits i _ hp
  have hr' : r = .chatter := by cases r <;> first | (cases hf; done) | rfl
  subst hr'
  match i with
  | 0 => cases hr
  | 1 => rfl
  | 2 => cases hr
  | k + 3 =>
    exfalso
    have h3 : UserRole.chatter ∈ notifications.map UserRole.note ++ messages.map UserRole.message := by
      refine List.mem_of_getElem? (i := k) ?_
      simpa [userRoles] using hr
    rcases List.mem_append.mp h3 with h3 | h3 <;> obtain ⟨b, _, h4⟩ := List.mem_map.mp h3 <;> cases h4

/-- What holds in every state, and how far the round is. -/
structure UserRound (me : ChatUser) (notifications : List (Option ChatNotification))
    (messages : List (Option (ChatUser × Bytes))) (base : List (Nat × ChatMessage)) (m : ChatMessage)
    (s : UserState) : Prop where
  placed : UserPlaced me notifications messages s
  locks : UserLocks s
  keys : UserKeys s
  round : ∃ p, s.points[1]? = some p ∧ TellRound base m s.world p

theorem UserRound.move {self : ChatUser} {notifications : List (Option ChatNotification)}
    {messages : List (Option (ChatUser × Bytes))} {base : List (Nat × ChatMessage)} {m : ChatMessage}
    {s : UserState} {i : Nat} {p q : UserPoint} {w' : UserWorld}
    (h : UserRound self notifications messages base m s) (hp : s.points[i]? = some p)
    (hm : UserMove self i s.world p q w') (hq : (s.points.set i q)[1]? ≠ some .chatTop) :
    UserRound self notifications messages base m ⟨w', s.points.set i q⟩ := by
  refine ⟨h.placed.move s i p q w' hp hm, h.locks.move s i p q w' hp hm, UserKeys.move s i p q w' h.keys hp hm, ?_⟩
  obtain ⟨p1, hp1, hr⟩ := h.round
  by_cases hi : i = 1
  · subst hi
    rw [hp] at hp1
    cases hp1
    have hset : (s.points.set 1 q)[1]? = some q := List.getElem?_set_self (List.getElem?_eq_some_iff.mp hp).1
    rw [hset] at hq
    exact ⟨q, hset, hr.own h.keys hm fun hc => hq (by rw [hc])⟩
  · refine ⟨p1, by dsimp only; rw [List.getElem?_set_ne hi]; exact hp1, ?_⟩
    have hlog : w'.log.filterMap UserEvent.written = s.world.log.filterMap UserEvent.written := by
      rcases written_move hm with h1 | ⟨m', us, rfl⟩
      · exact h1
      · exact absurd (h.placed.teller hp) hi
    dsimp only
    cases p1 <;> first | (exact absurd hr id) | trivial | skip
    · exact ⟨hr.1, hlog.trans hr.2⟩
    · exact ⟨hr.1, hlog.trans hr.2⟩
    · obtain ⟨h1, cs, h2, h3⟩ := hr
      have hu : w'.users = s.world.users := by
        rcases users_move hm with hu | hu
        · exact hu
        · exfalso
          have h4 := countP_pos_points hp hu
          have h5 := countP_pos_points (f := UserPoint.reads) hp1 rfl
          rw [h.locks.writer] at h4
          rw [h.locks.readers] at h5
          split at h4
          · rename_i hw
            have := h.locks.excl hw
            omega
          · omega
      exact ⟨h1, cs, hlog.trans h2, by rw [hu]; exact h3⟩

/-- The message that is sent after the lock has been released, if nobody is told. -/
def tellPeel : UserProg UserLoop → Option ChatMessage
  | .op .rlock f => match f () with
    | .op .rangeUsers g => match g [] with
      | .op .runlock h => match h () with
        | .op (.send m) _ => some m
        | _ => none
      | _ => none
    | _ => none
  | _ => none

theorem point_of_tell {self : ChatUser} {p : UserPoint} {m : ChatMessage} (h : tellUsers m = p.prog self) :
    p = .tellRLock m := by
  have h1 := congrArg tellPeel h
  have h2 : tellPeel (tellUsers m) = some m := rfl
  rw [h2] at h1
  cases p <;> first | (cases h; done) | (cases h1; done) | (cases h1; rfl) | skip
  rename_i m' us
  match us with
  | [] => cases h
  | ⟨_, none⟩ :: _ => cases h
  | ⟨_, some _⟩ :: _ => cases h

/-- **C118**: everybody is told, once: from the moment where the program begins to tell the others a message until
the moment where it has gone through them, it writes the message exactly once to the connection of each user who is
in the chat, and writes nothing else, whether or not some of the writes fail and whatever else happens meanwhile. -/
theorem C118_everybody_once (self : ChatUser) (notifications : List (Option ChatNotification))
    (messages : List (Option (ChatUser × Bytes))) (acts acts' : List (Nat × UserEnv)) (m : ChatMessage)
    (hbegin : (userRun self notifications messages acts).threads[1]? = some (tellUsers m))
    (hround : ∀ pre, pre <+: acts' →
      (userRun self notifications messages (acts ++ pre)).threads[1]? ≠ some (.ret .chatting))
    (k : Unit → UserProg UserLoop)
    (hend : (userRun self notifications messages (acts ++ acts')).threads[1]? = some (.op .runlock k)) :
    ∃ cs : List Nat,
      (userRun self notifications messages (acts ++ acts')).world.log.filterMap UserEvent.written =
        (userRun self notifications messages acts).world.log.filterMap UserEvent.written ++
          cs.map (fun c => (c, m)) ∧
      (cs.map some).Perm ((userRun self notifications messages (acts ++ acts')).world.users.map (·.2.conn)) := by
  obtain ⟨p, hp, hp'⟩ := userRun_thread hbegin
  have hp' := point_of_tell hp'
  subst hp'
  have key : ∀ (acts' : List (Nat × UserEnv)) (s : UserState) (base : List (Nat × ChatMessage)),
      UserRound self notifications messages base m s →
      (∀ pre, pre <+: acts' → (s.run self pre).points[1]? ≠ some .chatTop) →
      UserRound self notifications messages base m (s.run self acts') := by
    intro acts'
    induction acts' with
    | nil => intro s base h _; exact h
    | cons act acts' ih =>
      intro s base h hc
      refine ih (s.step self act) base ?_ ?_
      · have h1 := hc [act] ⟨acts', rfl⟩
        have h1 : (s.step self act).points[1]? ≠ some .chatTop := h1
        rcases s.step_move self act with hs | ⟨p, q, w', h2, h3, hs⟩
        · rw [hs]; exact h
        · rw [hs] at h1 ⊢
          exact h.move h2 h3 h1
      · rintro pre ⟨suf, rfl⟩
        exact hc (act :: pre) ⟨suf, rfl⟩
  have keys : UserKeys ((userPoints notifications messages).run self acts) :=
    UserState.run_induct self UserKeys.move acts (by unfold UserKeys; exact List.nodup_nil)
  have hfin := key acts' _ _ ⟨UserPlaced.run self notifications messages acts,
    UserLocks.run self notifications messages acts, keys, _, hp, rfl, rfl⟩ (by
      intro pre hpre hx
      refine hround pre hpre ?_
      rw [userRun_points, UserState.run_append]
      simp only [UserState.loops, List.getElem?_map, hx]
      rfl)
  rw [← UserState.run_append] at hfin
  obtain ⟨q, hq, hr⟩ := hfin.round
  obtain ⟨q', hq', hprog⟩ := userRun_thread hend
  rw [hq] at hq'
  cases hq'
  rw [userRun_world, userRun_world]
  cases q <;> first | (exact absurd hr id) | (cases hprog; done) | skip
  rename_i m' us
  match us with
  | [] =>
    obtain ⟨rfl, cs, h1, h2⟩ := hr
    exact ⟨cs, h1, by simpa using h2⟩
  | ⟨_, none⟩ :: _ => cases hprog
  | ⟨_, some _⟩ :: _ => cases hprog

open UserExample in
/-- Alice greets Bob and Carol; the write to Bob fails. -/
example : (userRun alice [joins bob, joins { bob with name := str "carol" }] []
      (began ++ does 3 6 ++ does 0 4 ++ does 4 6 ++ does 0 4 ++ does 1 6 { content := str "hi" } ++
        does 1 2 { order := [str "bob", str "carol"] } ++ does 1 1 { ok := false } ++ does 1 1)).world.log.drop 2 =
    [.wrote 0 ⟨false, alice, str "hi"⟩ false, .wrote 1 ⟨false, alice, str "hi"⟩ true] := by
  rw [userRun_world]; decide +kernel

end Goe2ee
