import Verif.Proofs.ChatUser

/-!
# Invariants of a chat user
-/

set_option autoImplicit false

namespace Goe2ee

/-- What every move preserves holds after every schedule. -/
theorem UserState.run_induct {P : UserState → Prop} (self : ChatUser)
    (hs : ∀ (s : UserState) (i : Nat) (p q : UserPoint) (w' : UserWorld), P s → s.points[i]? = some p →
      UserMove self i s.world p q w' → P ⟨w', s.points.set i q⟩)
    (acts : List (Nat × UserEnv)) {s : UserState} (h0 : P s) : P (s.run self acts) := by
  induction acts generalizing s with
  | nil => exact h0
  | cons act acts ih =>
    refine ih (s := s.step self act) ?_
    rcases s.step_move self act with h | ⟨p, q, w', h1, h2, h3⟩
    · rw [h]; exact h0
    · rw [h3]; exact hs s act.1 p q w' h0 h1 h2

theorem countP_points {points : List UserPoint} {i : Nat} {p : UserPoint} (h : points[i]? = some p)
    (f : UserPoint → Bool) (q : UserPoint) :
    (points.set i q).countP f + (if f p then 1 else 0) = points.countP f + (if f q then 1 else 0) := by
  obtain ⟨hlen, he⟩ := List.getElem?_eq_some_iff.mp h
  rw [List.countP_set hlen, he]
  have : (if f p = true then 1 else 0) ≤ points.countP f := by
    split
    · exact List.countP_pos_iff.mpr ⟨p, List.mem_of_getElem? h, by assumption⟩
    · omega
  omega

theorem countP_pos_points {points : List UserPoint} {i : Nat} {p : UserPoint} (h : points[i]? = some p)
    {f : UserPoint → Bool} (hf : f p = true) : 0 < points.countP f :=
  List.countP_pos_iff.mpr ⟨p, List.mem_of_getElem? h, hf⟩

theorem countP_two_points {points : List UserPoint} {i j : Nat} {p q : UserPoint} (hi : points[i]? = some p)
    (hj : points[j]? = some q) (hij : i ≠ j) {f : UserPoint → Bool} (hp : f p = true) (hq : f q = true) :
    2 ≤ points.countP f := by
  induction points generalizing i j with
  | nil => cases hi
  | cons a points ih =>
    rw [List.countP_cons]
    cases i with
    | zero =>
      cases j with
      | zero => exact absurd rfl hij
      | succ j =>
        cases hi
        have := countP_pos_points (points := points) (i := j) (by simpa using hj) hq
        rw [if_pos hp]
        omega
    | succ i =>
      cases j with
      | zero =>
        cases hj
        have := countP_pos_points (points := points) (i := i) (by simpa using hi) hp
        rw [if_pos hq]
        omega
      | succ j =>
        have := ih (i := i) (j := j) (by simpa using hi) (by simpa using hj) (by omega)
        omega

/-! ## The mutex and the handlers that are running -/

/-- Between `Lock` and `Unlock`. -/
def UserPoint.writes : UserPoint → Bool
  | .panicked | .joinPut _ _ | .joinUnlock _ | .leaveGet _ | .leaveClose _ _ | .leaveAnswer _ | .leaveDelete _
  | .leaveUnlock _ => true
  | _ => false

/-- Between `RLock` and `RUnlock`. -/
def UserPoint.reads : UserPoint → Bool
  | .chatLen | .chatRUnlock _ | .tellRange _ | .tellEach _ _ => true
  | _ => false

/-- In the handler of a message. -/
def UserPoint.handles : UserPoint → Bool
  | .passing _ | .serving _ _ => true
  | _ => false

structure UserLocks (s : UserState) : Prop where
  writer : s.points.countP UserPoint.writes = if s.world.writer then 1 else 0
  readers : s.points.countP UserPoint.reads = s.world.readers
  excl : s.world.writer = true → s.world.readers = 0
  active : s.points.countP UserPoint.handles = s.world.active

theorem point_writes (n : ChatNotification) : n.point.writes = false ∧ n.point.reads = false ∧
    n.point.handles = false := by
  unfold ChatNotification.point
  split
  · exact ⟨rfl, rfl, rfl⟩
  · split
    · exact ⟨rfl, rfl, rfl⟩
    · split <;> exact ⟨rfl, rfl, rfl⟩
  · exact ⟨rfl, rfl, rfl⟩

theorem UserLocks.move {self : ChatUser} (s : UserState) (i : Nat) (p q : UserPoint) (w' : UserWorld)
    (h : UserLocks s) (hp : s.points[i]? = some p) (hm : UserMove self i s.world p q w') :
    UserLocks ⟨w', s.points.set i q⟩ := by
  have hw := countP_points hp UserPoint.writes q
  have hr := countP_points hp UserPoint.reads q
  have ha := countP_points hp UserPoint.handles q
  rw [h.writer] at hw
  rw [h.readers] at hr
  rw [h.active] at ha
  have hx := h.excl
  cases hm
  case arrive n _ =>
    obtain ⟨h1, h2, h3⟩ := point_writes n
    rw [h1] at hw; rw [h2] at hr; rw [h3] at ha
    exact ⟨by simpa [UserPoint.writes] using hw, by simpa [UserPoint.reads] using hr, hx,
      by simpa [UserPoint.handles] using ha⟩
  all_goals
    simp [UserPoint.writes, UserPoint.reads, UserPoint.handles] at hw hr ha
  all_goals
    refine ⟨?_, ?_, ?_, ?_⟩
  all_goals
    first
    | assumption
    | omega
    | (simp_all; done)
    | (simp_all <;> omega)
    | (cases hws : s.world.writer <;> simp_all <;> omega)

/-! ## Which goroutine is where -/

/-- What a goroutine was started for. -/
inductive UserRole where
  | printer
  | chatter
  | main
  | note (body : Option ChatNotification)
  | message (body : Option (ChatUser × Bytes))

/-- The goroutines of the process. -/
def userRoles (notifications : List (Option ChatNotification)) (messages : List (Option (ChatUser × Bytes))) :
    List UserRole :=
  [.printer, .chatter, .main] ++ notifications.map .note ++ messages.map .message

/-- A goroutine with this role may be at this point. -/
def UserPoint.fitsRole (self : ChatUser) : UserRole → UserPoint → Prop
  | .printer, .done | .printer, .printTop | .printer, .printReady | .printer, .printReceive
  | .printer, .printLine _ => True
  | .chatter, .done | .chatter, .chatTop | .chatter, .chatTick | .chatter, .chatRLock | .chatter, .chatLen
  | .chatter, .chatRUnlock _ | .chatter, .chatGenerate => True
  | .chatter, .tellRLock m | .chatter, .tellRange m | .chatter, .tellEach m _ | .chatter, .tellSend m =>
    m.sender = self ∧ m.system = false
  | .main, .done | .main, .mainRegister | .main, .mainStart | .main, .mainWait | .main, .mainStop
  | .main, .mainUnregister | .main, .mainShutdown | .main, .mainShut | .main, .mainClose | .main, .mainExit => True
  | .note _, .done => True
  | .note b, .arriving b' => b' = b
  | .note b, .answering _ => ∀ n, b = some n → n.event = some .joined
  | .note b, .dialling _ u | .note b, .refusing u | .note b, .joinLock u _ | .note b, .joinPut u _
  | .note b, .joinUnlock u => ∃ n, b = some n ∧ n.event = some .joined ∧ u = n.user
  | .note b, .leaveLock u | .note b, .leaveGet u | .note b, .leaveClose u _ | .note b, .leaveAnswer u
  | .note b, .leaveDelete u | .note b, .leaveUnlock u => ∃ n, b = some n ∧ n.event = some .left ∧ u = n.user
  | .note b, .panicked => ∃ n, b = some n ∧ n.event = some .left
  | .note b, .telling m => ∃ n, b = some n ∧
    (n.event = some .joined ∧ m = systemMessage n.user.name joinedText ∨
      n.event = some .left ∧ m = systemMessage n.user.name leftText)
  | .message b, .receiving b' => b' = b
  | .message b, .passing m => ∃ a c, b = some (a, c) ∧ m = ⟨false, a, c⟩
  | .message b, .serving ok m => match b with
    | none => ok = false ∧ m = none
    | some (a, c) => ok = true ∧ m = some ⟨false, a, c⟩
  | .message b, .finished m => match b with
    | none => m = none
    | some (a, c) => m = some ⟨false, a, c⟩
  | _, _ => False

theorem UserPoint.fitsRole_move {self : ChatUser} {i : Nat} {w w' : UserWorld} {p q : UserPoint} {r : UserRole}
    (h : p.fitsRole self r) (hm : UserMove self i w p q w') : q.fitsRole self r := by
  cases r <;> cases hm <;> first | exact h | trivial | (cases h; done) | skip
  case note.arriveBad b _ => cases h; intro n hn; cases hn
  case note.arrive b n _ =>
    cases h
    unfold ChatNotification.point
    split
    · trivial
    · rename_i he
      split
      · exact ⟨n, rfl, he, rfl⟩
      · split <;> exact ⟨n, rfl, he, rfl⟩
    · rename_i he; exact ⟨n, rfl, he, rfl⟩
  case note.dialFail b udp u =>
    obtain ⟨n, rfl, he, _⟩ := h
    intro n' hn
    cases hn
    exact he
  case note.joinUnlock b u =>
    obtain ⟨n, rfl, he, rfl⟩ := h
    exact ⟨n, rfl, .inl ⟨he, rfl⟩⟩
  case note.leavePanic b u v _ =>
    obtain ⟨n, rfl, he, rfl⟩ := h
    exact ⟨n, rfl, he⟩
  case note.leaveUnlock b u =>
    obtain ⟨n, rfl, he, rfl⟩ := h
    exact ⟨n, rfl, .inr ⟨he, rfl⟩⟩
  case message.serveBad b _ => cases h; exact ⟨rfl, rfl⟩
  case message.serve b a c _ => cases h; exact ⟨a, c, rfl, rfl⟩
  case message.pass b m _ =>
    obtain ⟨a, c, rfl, rfl⟩ := h
    exact ⟨rfl, rfl⟩
  case message.served b ok m =>
    match b with
    | none => exact h.2
    | some (_, _) => exact h.2

structure UserPlaced (me : ChatUser) (notifications : List (Option ChatNotification))
    (messages : List (Option (ChatUser × Bytes))) (s : UserState) : Prop where
  len : s.points.length = (userRoles notifications messages).length
  fits : ∀ (i : Nat) (p : UserPoint), s.points[i]? = some p →
    ∃ r, (userRoles notifications messages)[i]? = some r ∧ p.fitsRole me r

theorem UserPlaced.start (self : ChatUser) (notifications : List (Option ChatNotification))
    (messages : List (Option (ChatUser × Bytes))) :
    UserPlaced self notifications messages (userPoints notifications messages) := by
  refine ⟨by simp [userPoints, userRoles], ?_⟩
  have key : (userPoints notifications messages).points = (userRoles notifications messages).map fun r =>
      match r with
      | .printer => .printTop
      | .chatter => .chatTop
      | .main => .mainRegister
      | .note b => .arriving b
      | .message b => .receiving b := by
    simp [userPoints, userRoles, Function.comp_def]
  intro i p hp
  rw [key, List.getElem?_map] at hp
  cases hr : (userRoles notifications messages)[i]? with
  | none => rw [hr] at hp; cases hp
  | some r =>
    rw [hr] at hp
    cases hp
    refine ⟨r, rfl, ?_⟩
    cases r <;> first | trivial | rfl

theorem UserPlaced.move {self : ChatUser} {notifications : List (Option ChatNotification)}
    {messages : List (Option (ChatUser × Bytes))} (s : UserState) (i : Nat) (p q : UserPoint) (w' : UserWorld)
    (h : UserPlaced self notifications messages s) (hp : s.points[i]? = some p)
    (hm : UserMove self i s.world p q w') : UserPlaced self notifications messages ⟨w', s.points.set i q⟩ := by
  refine ⟨by simp [h.len], ?_⟩
  intro j p' hj
  by_cases hij : i = j
  · subst hij
    rw [List.getElem?_set_self (List.getElem?_eq_some_iff.mp hp).1] at hj
    cases hj
    obtain ⟨r, h1, h2⟩ := h.fits i p hp
    exact ⟨r, h1, UserPoint.fitsRole_move h2 hm⟩
  · rw [List.getElem?_set_ne hij] at hj
    exact h.fits j p' hj

theorem UserPlaced.run (self : ChatUser) (notifications : List (Option ChatNotification))
    (messages : List (Option (ChatUser × Bytes))) (acts : List (Nat × UserEnv)) :
    UserPlaced self notifications messages ((userPoints notifications messages).run self acts) :=
  UserState.run_induct self UserPlaced.move acts (UserPlaced.start self notifications messages)

theorem UserLocks.run (self : ChatUser) (notifications : List (Option ChatNotification))
    (messages : List (Option (ChatUser × Bytes))) (acts : List (Nat × UserEnv)) :
    UserLocks ((userPoints notifications messages).run self acts) := by
  refine UserState.run_induct self UserLocks.move acts ⟨?_, ?_, fun h => (by cases h), ?_⟩
  all_goals
    refine List.countP_eq_zero.mpr fun p hp => ?_
    simp only [userPoints, List.mem_append, List.mem_cons, List.mem_map, List.not_mem_nil, or_false] at hp
    rcases hp with ((rfl | rfl | rfl) | ⟨b, _, rfl⟩) | ⟨b, _, rfl⟩ <;> exact Bool.false_ne_true

/-! ## The channel -/

/-- The printer is in its `select` exactly when somebody can send to it or has sent. -/
structure UserChan (s : UserState) : Prop where
  waits : s.world.waiting = true → s.points[0]? = some .printReceive ∧ s.world.slot = none
  sent : s.world.slot ≠ none → s.points[0]? = some .printReceive
  ready : s.points[0]? = some .printReceive → s.world.waiting = true ∨ s.world.slot ≠ none

/-- Only the printer is at the points of the printer. -/
theorem UserPlaced.printer {self : ChatUser} {notifications : List (Option ChatNotification)}
    {messages : List (Option (ChatUser × Bytes))} {s : UserState} (h : UserPlaced self notifications messages s)
    {i : Nat} {p : UserPoint} (hp : s.points[i]? = some p)
    (hq : p = .printTop ∨ p = .printReady ∨ p = .printReceive ∨ ∃ m, p = .printLine m) : i = 0 := by
  obtain ⟨r, h1, h2⟩ := h.fits i p hp
  match i with
  | 0 => rfl
  | 1 => cases h1; rcases hq with rfl | rfl | rfl | ⟨m, rfl⟩ <;> cases h2
  | 2 => cases h1; rcases hq with rfl | rfl | rfl | ⟨m, rfl⟩ <;> cases h2
  | k + 3 =>
    exfalso
    have h3 : r ∈ notifications.map UserRole.note ++ messages.map UserRole.message := by
      refine List.mem_of_getElem? (i := k) ?_
      simpa [userRoles] using h1
    rcases List.mem_append.mp h3 with h3 | h3 <;> obtain ⟨b, _, rfl⟩ := List.mem_map.mp h3 <;>
      rcases hq with rfl | rfl | rfl | ⟨m, rfl⟩ <;> cases h2

/-- The printer is at a point of the printer. -/
theorem UserPlaced.first {self : ChatUser} {notifications : List (Option ChatNotification)}
    {messages : List (Option (ChatUser × Bytes))} {s : UserState} (h : UserPlaced self notifications messages s)
    {p : UserPoint} (hp : s.points[0]? = some p) : p.fitsRole self .printer := by
  obtain ⟨r, h1, h2⟩ := h.fits 0 p hp
  cases h1
  exact h2

theorem UserChan.move {self : ChatUser} {notifications : List (Option ChatNotification)}
    {messages : List (Option (ChatUser × Bytes))} (s : UserState) (i : Nat) (p q : UserPoint) (w' : UserWorld)
    (h : UserPlaced self notifications messages s ∧ UserChan s) (hp : s.points[i]? = some p)
    (hm : UserMove self i s.world p q w') :
    UserPlaced self notifications messages ⟨w', s.points.set i q⟩ ∧ UserChan ⟨w', s.points.set i q⟩ := by
  obtain ⟨hpl, hc⟩ := h
  refine ⟨hpl.move s i p q w' hp hm, ?_⟩
  have hlen := (List.getElem?_eq_some_iff.mp hp).1
  -- the printer did not move
  have other : i ≠ 0 → (s.points.set i q)[0]? = s.points[0]? := fun h => List.getElem?_set_ne h
  -- a goroutine that is not the printer sends
  have send : ∀ (m : ChatMessage), i ≠ 0 → s.world.waiting = true →
      UserChan ⟨{ s.world with waiting := false, slot := some m }, s.points.set i q⟩ := by
    intro m hi hw
    refine ⟨(fun h => by cases h), fun _ => ?_, fun _ => .inr (fun h => by cases h)⟩
    exact (other hi).trans (hc.waits hw).1
  have keep : ∀ (w' : UserWorld), i ≠ 0 → w'.waiting = s.world.waiting → w'.slot = s.world.slot →
      UserChan ⟨w', s.points.set i q⟩ := by
    intro w' hi h1 h2
    refine ⟨?_, ?_, ?_⟩
    · dsimp only; rw [h1, h2, other hi]; exact hc.waits
    · dsimp only; rw [h2, other hi]; exact hc.sent
    · dsimp only; rw [h1, h2, other hi]; exact hc.ready
  by_cases hi : i = 0
  · subst hi
    have hf := hpl.first hp
    have hset : ∀ q, (s.points.set 0 q)[0]? = some q := fun q => List.getElem?_set_self hlen
    have idle : s.points[0]? ≠ some .printReceive → s.world.waiting = false ∧ s.world.slot = none := by
      intro h
      constructor
      · cases hw : s.world.waiting with
        | false => rfl
        | true => exact absurd (hc.waits hw).1 h
      · cases hs : s.world.slot with
        | none => rfl
        | some m => exact absurd (hc.sent (by rw [hs]; exact (fun h => by cases h))) h
    cases hm <;> first | (cases hf; done) | skip
    case receive m hs =>
      have hw : s.world.waiting = false := by
        cases hw : s.world.waiting with
        | false => rfl
        | true => rw [(hc.waits hw).2] at hs; cases hs
      refine ⟨(fun h => by simp [hw] at h), (fun h => absurd rfl h), fun h => ?_⟩
      rw [hset] at h
      cases h
    case receiveStop hs _ =>
      refine ⟨(fun h => by cases h), (fun h => absurd hs h), fun h => ?_⟩
      rw [hset] at h
      cases h
    case ready =>
      obtain ⟨h1, h2⟩ := idle (by rw [hp]; exact (fun h => by cases h))
      exact ⟨fun _ => ⟨hset _, h2⟩, fun _ => hset _, fun _ => .inl rfl⟩
    all_goals
      obtain ⟨h1, h2⟩ := idle (by rw [hp]; exact (fun h => by cases h))
      refine ⟨(fun h => by simp [h1] at h), (fun h => absurd h2 h), fun h => ?_⟩
      rw [hset] at h
      cases h
  · cases hm <;> first
      | exact keep _ hi rfl rfl
      | exact send _ hi (by assumption)
      | skip
    all_goals exact absurd (hpl.printer hp (by simp)) hi

theorem UserChan.run (self : ChatUser) (notifications : List (Option ChatNotification))
    (messages : List (Option (ChatUser × Bytes))) (acts : List (Nat × UserEnv)) :
    UserChan ((userPoints notifications messages).run self acts) :=
  (UserState.run_induct self UserChan.move acts
    ⟨UserPlaced.start self notifications messages, (fun h => by cases h), (fun h => absurd rfl h),
      (fun h => by cases h)⟩).2

/-! ## Nil connections -/

/-- The network of the notification is one that can be dialled. -/
def ChatNotification.dialable (n : ChatNotification) : Prop :=
  n.event = some .joined → n.user.network = str "tcp" ∨ n.user.network = str "udp"

/-- Nothing at this point leads to a nil connection. -/
def UserPoint.sound : UserPoint → Prop
  | .panicked | .refusing _ | .joinLock _ none | .joinPut _ none => False
  | .arriving (some n) => n.dialable
  | .tellEach _ us => ∀ u ∈ us, u.conn ≠ none
  | _ => True

structure UserSound (s : UserState) : Prop where
  points : ∀ (i : Nat) (p : UserPoint), s.points[i]? = some p → p.sound
  users : ∀ e ∈ s.world.users, e.2.conn ≠ none

theorem mem_of_lookup {name : Bytes} {u : UserConnection} {users : List (Bytes × UserConnection)}
    (h : users.lookup name = some u) : (name, u) ∈ users := by
  induction users with
  | nil => cases h
  | cons e users ih =>
    rw [List.lookup_cons] at h
    split at h
    · rename_i hk
      cases h
      rw [eq_of_beq hk]
      exact List.mem_cons_self
    · exact List.mem_cons_of_mem _ (ih h)

theorem mem_range {w : UserWorld} {order : List Bytes} {u : UserConnection} (h : u ∈ w.range order) :
    ∃ name, (name, u) ∈ w.users := by
  obtain ⟨name, _, h2⟩ := List.mem_filterMap.mp h
  exact ⟨name, mem_of_lookup h2⟩

theorem UserSound.move {self : ChatUser} (s : UserState) (i : Nat) (p q : UserPoint) (w' : UserWorld)
    (h : UserSound s) (hp : s.points[i]? = some p) (hm : UserMove self i s.world p q w') :
    UserSound ⟨w', s.points.set i q⟩ := by
  have hs := h.points i p hp
  have main : ∀ w', q.sound → (∀ e ∈ w'.users, e.2.conn ≠ none) → UserSound ⟨w', s.points.set i q⟩ := by
    intro w' h1 h2
    refine ⟨fun j p' hj => ?_, h2⟩
    by_cases hij : i = j
    · subst hij
      rw [List.getElem?_set_self (List.getElem?_eq_some_iff.mp hp).1] at hj
      cases hj
      exact h1
    · rw [List.getElem?_set_ne hij] at hj
      exact h.points j p' hj
  cases hm <;> first | exact main _ trivial h.users | (exact absurd hs id) | skip
  case arrive n _ =>
    refine main _ ?_ h.users
    unfold ChatNotification.point
    split
    · trivial
    · rename_i he
      split
      · trivial
      · rename_i h1
        split
        · trivial
        · rename_i h2
          rcases hs he with h3 | h3
          · exact absurd h3 h1
          · exact absurd h3 h2
    · trivial
  case tellRange m order =>
    refine main _ ?_ h.users
    intro u hu
    obtain ⟨name, hn⟩ := mem_range hu
    exact h.users _ hn
  case encode m u c us ok _ => exact main _ (fun v hv => hs v (List.mem_cons_of_mem _ hv)) h.users
  case joinLock u conn _ _ => exact main _ (by cases conn <;> first | exact hs | trivial) h.users
  case joinPut u conn =>
    refine main _ trivial fun e he => ?_
    rcases List.mem_cons.mp he with rfl | he
    · cases conn with
      | none => exact absurd hs id
      | some c => exact (fun h => by cases h)
    · exact h.users e (List.mem_filter.mp he).1
  case leavePanic u v hg => exact absurd rfl (h.users _ (mem_of_lookup hg))
  case leaveDelete u => exact main _ trivial fun e he => h.users e (List.mem_filter.mp he).1

theorem UserSound.run (self : ChatUser) (notifications : List (Option ChatNotification))
    (messages : List (Option (ChatUser × Bytes))) (acts : List (Nat × UserEnv))
    (hn : ∀ n, some n ∈ notifications → n.dialable) :
    UserSound ((userPoints notifications messages).run self acts) := by
  refine UserState.run_induct self UserSound.move acts ⟨fun i p hp => ?_, (fun _ h => by cases h)⟩
  have hp := List.mem_of_getElem? hp
  simp only [userPoints, List.mem_append, List.mem_cons, List.mem_map, List.not_mem_nil, or_false] at hp
  rcases hp with ((rfl | rfl | rfl) | ⟨b, hb, rfl⟩) | ⟨b, _, rfl⟩
  · trivial
  · trivial
  · trivial
  · cases b with
    | none => trivial
    | some n => exact hn n hb
  · trivial

end Goe2ee
