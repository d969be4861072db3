import Verif.Props.ChatPeers

/-!
# C119: a chat user writes to open connections only
-/

set_option autoImplicit false

namespace Goe2ee

/-- Which connections are open. -/
structure UserOpen (s : UserState) : Prop where
  locks : UserLocks s
  stored : ∀ name u c, s.world.get name = some ⟨u, some c⟩ → s.world.conns[c]? = some true ∨
    ∃ (i : Nat) (p : UserPoint), s.points[i]? = some p ∧ p.leaving = some name
  once : ∀ name name' u u' c, s.world.get name = some ⟨u, some c⟩ → s.world.get name' = some ⟨u', some c⟩ →
    name = name'
  held : ∀ (i : Nat) (p : UserPoint) (c : Nat), s.points[i]? = some p → p.holds = some c →
    s.world.conns[c]? = some true ∧ (∀ name u, s.world.get name ≠ some ⟨u, some c⟩) ∧
    ∀ (j : Nat) (q : UserPoint), s.points[j]? = some q → q.holds = some c → j = i
  closing : ∀ (i : Nat) (p : UserPoint) (name : Bytes) (c : Nat), s.points[i]? = some p →
    p.closing = some (name, c) → ∃ v, s.world.get name = some ⟨v, some c⟩
  each : ∀ (i : Nat) (m : ChatMessage) (us : List UserConnection), s.points[i]? = some (.tellEach m us) →
    ∀ u ∈ us, ∀ c, u.conn = some c → ∃ name, s.world.get name = some u
  bound : ∀ name u c, s.world.get name = some ⟨u, some c⟩ → c < s.world.conns.length

/-- A goroutine that writes excludes those that read. -/
theorem UserLocks.apart {s : UserState} (h : UserLocks s) {i j : Nat} {p q : UserPoint} (hp : s.points[i]? = some p)
    (hq : s.points[j]? = some q) (h1 : p.writes = true) (h2 : q.reads = true) : False := by
  have h3 := countP_pos_points hp h1
  have h4 := countP_pos_points hq h2
  rw [h.writer] at h3
  rw [h.readers] at h4
  split at h3
  · rename_i hw
    have := h.excl hw
    omega
  · omega

theorem get_of_range {w : UserWorld} {order : List Bytes} {u : UserConnection} (h : u ∈ w.range order) :
    ∃ name, w.get name = some u := by
  obtain ⟨name, _, h2⟩ := List.mem_filterMap.mp h
  exact ⟨name, h2⟩

/-- A move that leaves the map and the connections alone. -/
theorem UserOpen.frame {s : UserState} {i : Nat} {p q : UserPoint} {w' : UserWorld} (h : UserOpen s)
    (hl : UserLocks ⟨w', s.points.set i q⟩)
    (hp : s.points[i]? = some p) (hu : w'.users = s.world.users) (hc : w'.conns = s.world.conns)
    (h2 : q.holds = p.holds) (h3 : ∀ name c, q.closing = some (name, c) → ∃ v, s.world.get name = some ⟨v, some c⟩)
    (h4 : ∀ name, p.leaving = some name → q.leaving = some name)
    (h5 : ∀ m us, q = .tellEach m us → ∀ u ∈ us, ∀ c, u.conn = some c → ∃ name, s.world.get name = some u) :
    UserOpen ⟨w', s.points.set i q⟩ := by
  have hlt := (List.getElem?_eq_some_iff.mp hp).1
  have hg : ∀ name, w'.get name = s.world.get name := fun name => by rw [UserWorld.get, hu]; rfl
  have cases2 : ∀ {j : Nat} {p' : UserPoint}, (s.points.set i q)[j]? = some p' →
      (j = i ∧ p' = q) ∨ (j ≠ i ∧ s.points[j]? = some p') := by
    intro j p' hj
    by_cases hij : i = j
    · subst hij
      rw [List.getElem?_set_self hlt] at hj
      cases hj
      exact .inl ⟨rfl, rfl⟩
    · rw [List.getElem?_set_ne hij] at hj
      exact .inr ⟨fun h => hij h.symm, hj⟩
  have hheld : ∀ (j : Nat) (p' : UserPoint) (c : Nat), (s.points.set i q)[j]? = some p' → p'.holds = some c →
      ∃ p'', s.points[j]? = some p'' ∧ p''.holds = some c := by
    intro j p' c hj hh
    rcases cases2 hj with ⟨rfl, rfl⟩ | ⟨_, hj⟩
    · exact ⟨p, hp, by rw [← h2]; exact hh⟩
    · exact ⟨p', hj, hh⟩
  refine ⟨hl, ?_, ?_, ?_, ?_, ?_, ?_⟩
  · intro name u c hx
    dsimp only at hx ⊢
    rw [hg] at hx
    rw [hc]
    rcases h.stored name u c hx with h6 | ⟨j, p', hj, hh⟩
    · exact .inl h6
    · right
      by_cases hij : i = j
      · subst hij
        rw [hp] at hj
        cases hj
        exact ⟨i, q, List.getElem?_set_self hlt, h4 name hh⟩
      · exact ⟨j, p', by rw [List.getElem?_set_ne hij]; exact hj, hh⟩
  · intro name name' u u' c hx hx'
    dsimp only at hx hx'
    rw [hg] at hx hx'
    exact h.once name name' u u' c hx hx'
  · intro j p' c hj hh
    dsimp only
    obtain ⟨p'', hj', hh'⟩ := hheld j p' c hj hh
    obtain ⟨h6, h7, h8⟩ := h.held j p'' c hj' hh'
    refine ⟨by rw [hc]; exact h6, fun name u => by rw [hg]; exact h7 name u, fun k q' hk hq' => ?_⟩
    obtain ⟨q'', hk', hq''⟩ := hheld k q' c hk hq'
    exact h8 k q'' hk' hq''
  · intro j p' name c hj hh
    dsimp only
    rw [hg]
    rcases cases2 hj with ⟨rfl, rfl⟩ | ⟨_, hj⟩
    · exact h3 name c hh
    · exact h.closing j p' name c hj hh
  · intro j m us hj u hu' c hc'
    dsimp only
    simp only [hg]
    rcases cases2 hj with ⟨rfl, hq⟩ | ⟨_, hj⟩
    · exact h5 m us hq.symm u hu' c hc'
    · exact h.each j m us hj u hu' c hc'
  · intro name u c hx
    dsimp only at hx ⊢
    rw [hg] at hx
    rw [hc]
    exact h.bound name u c hx

theorem UserOpen.move {self : ChatUser} (s : UserState) (i : Nat) (p q : UserPoint) (w' : UserWorld)
    (h : UserOpen s) (hp : s.points[i]? = some p) (hm : UserMove self i s.world p q w') :
    UserOpen ⟨w', s.points.set i q⟩ := by
  have hl := h.locks.move s i p q w' hp hm
  have hlt := (List.getElem?_eq_some_iff.mp hp).1
  have cases2 : ∀ {q : UserPoint} {j : Nat} {p' : UserPoint}, (s.points.set i q)[j]? = some p' →
      (j = i ∧ p' = q) ∨ (j ≠ i ∧ s.points[j]? = some p') := by
    intro q j p' hj
    by_cases hij : i = j
    · subst hij
      rw [List.getElem?_set_self hlt] at hj
      cases hj
      exact .inl ⟨rfl, rfl⟩
    · rw [List.getElem?_set_ne hij] at hj
      exact .inr ⟨fun h => hij h.symm, hj⟩
  cases hm
  case arrive n _ =>
    obtain ⟨h1, h2, h3⟩ := quiet_point n
    refine h.frame hl hp rfl rfl (h1.trans rfl) (fun name c hx => ?_) (fun _ h => by cases h) (fun m us hq => ?_)
    · rw [h2] at hx; cases hx
    · exfalso
      revert hq
      unfold ChatNotification.point
      split
      · exact (fun h => by cases h)
      · split
        · exact (fun h => by cases h)
        · split <;> exact (fun h => by cases h)
      · exact (fun h => by cases h)
  case leaveGet u v c hg =>
    refine h.frame hl hp rfl rfl rfl ?_ (fun _ h => by cases h) (fun _ _ h => by cases h)
    intro name c' hx
    cases hx
    exact ⟨v, hg⟩
  case leaveAnswer u =>
    exact h.frame hl hp rfl rfl rfl (fun _ _ h => by cases h) (fun _ h => h) (fun _ _ h => by cases h)
  case tellRange m order =>
    refine h.frame hl hp rfl rfl rfl (fun _ _ h => by cases h) (fun _ h => by cases h) ?_
    intro m' us hq u hu c _
    cases hq
    exact get_of_range hu
  case encode m u c us ok _ =>
    refine h.frame hl hp rfl rfl rfl (fun _ _ h => by cases h) (fun _ h => by cases h) ?_
    intro m' us' hq v hv c' hc'
    cases hq
    exact h.each i _ _ hp v (List.mem_cons_of_mem _ hv) c' hc'
  case dial udp u =>
    have hsame : ∀ c, c < s.world.conns.length → (s.world.conns ++ [true])[c]? = s.world.conns[c]? :=
      fun c hc => List.getElem?_append_left hc
    refine ⟨hl, ?_, h.once, ?_, ?_, ?_, ?_⟩
    · intro name v c hx
      dsimp only
      rw [hsame c (h.bound name v c hx)]
      rcases h.stored name v c hx with h6 | ⟨j, p', hj, hh⟩
      · exact .inl h6
      · right
        have hij : i ≠ j := by
          rintro rfl
          rw [hp] at hj
          cases hj
          cases hh
        exact ⟨j, p', by rw [List.getElem?_set_ne hij]; exact hj, hh⟩
    · intro j p' c hj hh
      dsimp only
      rcases cases2 hj with ⟨rfl, rfl⟩ | ⟨hne, hj⟩
      · cases hh
        refine ⟨by simp, fun name v hx => ?_, fun k q' hk hq' => ?_⟩
        · exact absurd (h.bound name v _ hx) (Nat.lt_irrefl _)
        · rcases cases2 hk with ⟨rfl, _⟩ | ⟨_, hk⟩
          · rfl
          · have := (List.getElem?_eq_some_iff.mp (h.held k q' _ hk hq').1).1
            exact absurd this (Nat.lt_irrefl _)
      · obtain ⟨h6, h7, h8⟩ := h.held j p' c hj hh
        have hlt' := (List.getElem?_eq_some_iff.mp h6).1
        refine ⟨by rw [hsame c hlt']; exact h6, h7, fun k q' hk hq' => ?_⟩
        rcases cases2 hk with ⟨rfl, rfl⟩ | ⟨_, hk⟩
        · cases hq'
          exact absurd hlt' (Nat.lt_irrefl _)
        · exact h8 k q' hk hq'
    · intro j p' name c hj hh
      rcases cases2 hj with ⟨rfl, rfl⟩ | ⟨_, hj⟩
      · cases hh
      · exact h.closing j p' name c hj hh
    · intro j m us hj
      rcases cases2 hj with ⟨rfl, hq⟩ | ⟨_, hj⟩
      · cases hq
      · exact h.each j m us hj
    · intro name v c hx
      have := h.bound name v c hx
      simp
      omega
  case joinPut u conn =>
    have hg : ∀ name, UserWorld.get { s.world with
        users := (u.name, (⟨u, conn⟩ : UserConnection)) :: s.world.users.filter (·.1 ≠ u.name) } name =
        if name = u.name then some ⟨u, conn⟩ else s.world.get name :=
      fun name => lookup_stored _ _ _ _
    refine ⟨hl, ?_, ?_, ?_, ?_, ?_, ?_⟩
    · intro name v c hx
      have hx := (hg name).symm.trans hx
      split at hx
      · cases hx
        exact .inl (h.held i _ c hp rfl).1
      · rcases h.stored name v c hx with h6 | ⟨j, p', hj, hh⟩
        · exact .inl h6
        · have hji := h.locks.alone hj hp (leaving_writes hh) rfl
          subst hji
          rw [hp] at hj
          cases hj
          cases hh
    · intro name name' v v' c hx hx'
      have hy := (hg name).symm.trans hx
      have hy' := (hg name').symm.trans hx'
      clear hx hx'
      split at hy <;> split at hy'
      · rename_i h1 h2; rw [h1, h2]
      · cases hy
        exact absurd hy' ((h.held i _ c hp rfl).2.1 name' v')
      · cases hy'
        exact absurd hy ((h.held i _ c hp rfl).2.1 name v)
      · exact h.once name name' v v' c hy hy'
    · intro j p' c hj hh
      rcases cases2 hj with ⟨rfl, rfl⟩ | ⟨hne, hj⟩
      · cases hh
      · obtain ⟨h6, h7, h8⟩ := h.held j p' c hj hh
        refine ⟨h6, fun name v hx => ?_, fun k q' hk hq' => ?_⟩
        · have hx := (hg name).symm.trans hx
          split at hx
          · cases hx
            exact hne (h8 i _ hp rfl).symm
          · exact h7 name v hx
        · rcases cases2 hk with ⟨rfl, rfl⟩ | ⟨_, hk⟩
          · cases hq'
          · exact h8 k q' hk hq'
    · intro j p' name c hj hh
      rcases cases2 hj with ⟨rfl, rfl⟩ | ⟨hne, hj⟩
      · cases hh
      · exact absurd (h.locks.alone hj hp (closing_writes hh) rfl) hne
    · intro j m us hj
      rcases cases2 hj with ⟨rfl, hq⟩ | ⟨_, hj⟩
      · cases hq
      · exact absurd (h.locks.apart hp hj rfl rfl) id
    · intro name v c hx
      have hx := (hg name).symm.trans hx
      split at hx
      · cases hx
        exact (List.getElem?_eq_some_iff.mp (h.held i _ c hp rfl).1).1
      · exact h.bound name v c hx
  case leaveDelete u =>
    have hg : ∀ name, UserWorld.get { s.world with users := s.world.users.filter (·.1 ≠ u.name) } name =
        if name = u.name then none else s.world.get name :=
      fun name => lookup_removed _ _ _
    have hg' : ∀ name x, UserWorld.get { s.world with users := s.world.users.filter (·.1 ≠ u.name) } name = some x →
        name ≠ u.name ∧ s.world.get name = some x := by
      intro name x hx
      have hx := (hg name).symm.trans hx
      split at hx
      · cases hx
      · rename_i hn; exact ⟨hn, hx⟩
    refine ⟨hl, ?_, ?_, ?_, ?_, ?_, ?_⟩
    · intro name v c hx
      obtain ⟨hn, hx⟩ := hg' name _ hx
      rcases h.stored name v c hx with h6 | ⟨j, p', hj, hh⟩
      · exact .inl h6
      · have hji := h.locks.alone hj hp (leaving_writes hh) rfl
        subst hji
        rw [hp] at hj
        cases hj
        cases hh
        exact absurd rfl hn
    · intro name name' v v' c hx hx'
      exact h.once name name' v v' c (hg' name _ hx).2 (hg' name' _ hx').2
    · intro j p' c hj hh
      rcases cases2 hj with ⟨rfl, rfl⟩ | ⟨hne, hj⟩
      · cases hh
      · obtain ⟨h6, h7, h8⟩ := h.held j p' c hj hh
        refine ⟨h6, fun name v hx => h7 name v (hg' name _ hx).2, fun k q' hk hq' => ?_⟩
        rcases cases2 hk with ⟨rfl, rfl⟩ | ⟨_, hk⟩
        · cases hq'
        · exact h8 k q' hk hq'
    · intro j p' name c hj hh
      rcases cases2 hj with ⟨rfl, rfl⟩ | ⟨hne, hj⟩
      · cases hh
      · exact absurd (h.locks.alone hj hp (closing_writes hh) rfl) hne
    · intro j m us hj
      rcases cases2 hj with ⟨rfl, hq⟩ | ⟨_, hj⟩
      · cases hq
      · exact absurd (h.locks.apart hp hj rfl rfl) id
    · intro name v c hx
      exact h.bound name v c (hg' name _ hx).2
  case leaveClose u c | leaveCloseFail u c =>
    obtain ⟨v', hv'⟩ := h.closing i _ u.name c hp rfl
    have hset : ∀ c', c' ≠ c → (s.world.conns.set c false)[c']? = s.world.conns[c']? :=
      fun c' hc => List.getElem?_set_ne (fun h => hc h.symm)
    refine ⟨hl, ?_, h.once, ?_, ?_, ?_, ?_⟩
    · intro name v c' hx
      have hx : s.world.get name = some ⟨v, some c'⟩ := hx
      dsimp only
      by_cases hcc : c' = c
      · subst hcc
        have := h.once name u.name v v' c' hx hv'
        subst this
        exact .inr ⟨i, _, List.getElem?_set_self hlt, rfl⟩
      · rw [hset c' hcc]
        rcases h.stored name v c' hx with h6 | ⟨j, p', hj, hh⟩
        · exact .inl h6
        · have hji := h.locks.alone hj hp (leaving_writes hh) rfl
          subst hji
          rw [hp] at hj
          cases hj
          cases hh
    · intro j p' c' hj hh
      rcases cases2 hj with ⟨rfl, rfl⟩ | ⟨hne, hj⟩
      · cases hh
      · obtain ⟨h6, h7, h8⟩ := h.held j p' c' hj hh
        have hcc : c' ≠ c := by
          rintro rfl
          exact h7 u.name v' hv'
        refine ⟨by dsimp only; rw [hset c' hcc]; exact h6, h7, fun k q' hk hq' => ?_⟩
        rcases cases2 hk with ⟨rfl, rfl⟩ | ⟨_, hk⟩
        · cases hq'
        · exact h8 k q' hk hq'
    · intro j p' name c' hj hh
      rcases cases2 hj with ⟨rfl, rfl⟩ | ⟨hne, hj⟩
      · cases hh
      · exact absurd (h.locks.alone hj hp (closing_writes hh) rfl) hne
    · intro j m us hj
      rcases cases2 hj with ⟨rfl, hq⟩ | ⟨_, hj⟩
      · cases hq
      · exact absurd (h.locks.apart hp hj rfl rfl) id
    · intro name v c' hx
      simpa using h.bound name v c' hx
  all_goals
    exact h.frame hl hp rfl rfl rfl (fun _ _ h => by cases h) (fun _ h => by cases h) (fun _ _ h => by cases h)

theorem UserOpen.run (self : ChatUser) (notifications : List (Option ChatNotification))
    (messages : List (Option (ChatUser × Bytes))) (acts : List (Nat × UserEnv)) :
    UserOpen ((userPoints notifications messages).run self acts) := by
  have start : ∀ (i : Nat) (p : UserPoint), (userPoints notifications messages).points[i]? = some p →
      p.holds = none ∧ p.closing = none ∧ ∀ m us, p ≠ .tellEach m us := by
    intro i p hp
    have hp := List.mem_of_getElem? hp
    simp only [userPoints, List.mem_append, List.mem_cons, List.mem_map, List.not_mem_nil, or_false] at hp
    rcases hp with ((rfl | rfl | rfl) | ⟨b, hb, rfl⟩) | ⟨b, _, rfl⟩ <;>
      exact ⟨rfl, rfl, fun _ _ h => by cases h⟩
  refine UserState.run_induct self UserOpen.move acts ⟨UserLocks.run self notifications messages [], ?_, ?_, ?_, ?_, ?_, ?_⟩
  · intro name u c hx; cases hx
  · intro name name' u u' c hx; cases hx
  · intro i p c hp hh
    rw [(start i p hp).1] at hh
    cases hh
  · intro i p name c hp hh
    rw [(start i p hp).2.1] at hh
    cases hh
  · intro i m us hp
    exact absurd rfl ((start i _ hp).2.2 m us)
  · intro name u c hx; cases hx

/-- **C119**: a message is only written to a connection that is open, so nothing is sent to a user who has left. -/
theorem C119_write_open (self : ChatUser) (notifications : List (Option ChatNotification))
    (messages : List (Option (ChatUser × Bytes))) (acts : List (Nat × UserEnv)) (i c : Nat) (m : ChatMessage)
    (f : Bool → UserProg UserLoop)
    (h : (userRun self notifications messages acts).threads[i]? = some (.op (.encode c m) f)) :
    (userRun self notifications messages acts).world.conns[c]? = some true := by
  obtain ⟨p, hp, hp'⟩ := userRun_thread h
  rw [userRun_world]
  have ho := UserOpen.run self notifications messages acts
  cases p <;> first | (cases hp'; done) | skip
  rename_i m' us
  match us with
  | [] => cases hp'
  | ⟨_, none⟩ :: _ => cases hp'
  | ⟨u, some c'⟩ :: us =>
    cases hp'
    obtain ⟨name, hn⟩ := ho.each i m _ hp _ List.mem_cons_self c rfl
    rcases ho.stored name u c hn with h1 | ⟨j, q, hq, hh⟩
    · exact h1
    · exact absurd (ho.locks.apart hq hp (leaving_writes hh) rfl) id

/-- **C119**: whenever no notification is being handled, every user in the list has an open connection (or none, if
their network could not be dialled). -/
theorem C119_listed_open (self : ChatUser) (notifications : List (Option ChatNotification))
    (messages : List (Option (ChatUser × Bytes))) (acts : List (Nat × UserEnv))
    (hi : HandlersIdle self notifications messages acts) (name : Bytes) (u : ChatUser) (c : Nat)
    (h : (userRun self notifications messages acts).world.get name = some ⟨u, some c⟩) :
    (userRun self notifications messages acts).world.conns[c]? = some true := by
  rw [userRun_world] at h ⊢
  rcases (UserOpen.run self notifications messages acts).stored name u c h with h1 | ⟨i, p, hp, hh⟩
  · exact h1
  · exfalso
    obtain ⟨r, hr, hf⟩ := (UserPlaced.run self notifications messages acts).fits i p hp
    have hr' : ∃ b, r = .note b := by
      cases p <;> first | (cases hh; done) | skip
      all_goals cases r <;> first | (cases hf; done) | exact ⟨_, rfl⟩
    obtain ⟨b, rfl⟩ := hr'
    have hk : ∃ k, i = 3 + k ∧ k < notifications.length ∧ notifications[k]? = some b := by
      match i with
      | 0 => cases hr
      | 1 => cases hr
      | 2 => cases hr
      | k + 3 =>
        have hr : (notifications.map UserRole.note ++ messages.map UserRole.message)[k]? = some (.note b) := by
          simpa [userRoles] using hr
        rw [List.getElem?_append] at hr
        split at hr
        · rename_i hk
          rw [List.getElem?_map, Option.map_eq_some_iff] at hr
          obtain ⟨b', h1, h2⟩ := hr
          cases h2
          exact ⟨k, by omega, by simpa using hk, h1⟩
        · rw [List.getElem?_map, Option.map_eq_some_iff] at hr
          obtain ⟨b', h1, h2⟩ := hr
          cases h2
    obtain ⟨k, rfl, hk, hb⟩ := hk
    have hthread : (userRun self notifications messages acts).threads[3 + k]? = some (p.prog self) := by
      rw [userRun_points]
      simp only [UserState.loops, List.getElem?_map]
      rw [hp]
      rfl
    rcases hi k hk with h1 | h1
    · rw [hthread] at h1
      cases p <;> first | (cases hh; done) | cases h1
    · rw [hthread, hb] at h1
      cases p <;> first | (cases hh; done) | cases h1

open UserExample in
/-- Bob and Carol join, Bob leaves; then Alice tells only Carol. -/
example : (userRun alice [joins bob, joins { bob with name := str "carol" }, leaves bob] []
      (began ++ does 3 6 ++ does 0 4 ++ does 4 6 ++ does 0 4 ++ does 5 7 ++ does 0 4 ++
        does 1 10 { content := str "hi" })).world.log.drop 3 =
    [.wrote 1 ⟨false, alice, str "hi"⟩ true] := by
  rw [userRun_world]; decide +kernel

end Goe2ee
