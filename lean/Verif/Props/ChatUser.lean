import Verif.Proofs.ChatUserInv
import Mathlib.Data.List.Perm.Subperm

/-!
# C110, C111, C114, C116: the users of the chat example
-/

set_option autoImplicit false

namespace Goe2ee

/-- A goroutine of the process is at a point. -/
theorem userRun_thread {self : ChatUser} {notifications : List (Option ChatNotification)}
    {messages : List (Option (ChatUser × Bytes))} {acts : List (Nat × UserEnv)} {i : Nat} {t : UserProg UserLoop}
    (h : (userRun self notifications messages acts).threads[i]? = some t) :
    ∃ p, ((userPoints notifications messages).run self acts).points[i]? = some p ∧ t = p.prog self := by
  rw [userRun_points] at h
  simp only [UserState.loops, List.getElem?_map, Option.map_eq_some_iff] at h
  obtain ⟨p, h1, h2⟩ := h
  exact ⟨p, h1, h2.symm⟩

theorem userRun_world (self : ChatUser) (notifications : List (Option ChatNotification))
    (messages : List (Option (ChatUser × Bytes))) (acts : List (Nat × UserEnv)) :
    (userRun self notifications messages acts).world =
      ((userPoints notifications messages).run self acts).world := by
  rw [userRun_points]
  rfl

theorem UserState.run_append (self : ChatUser) (s : UserState) (a b : List (Nat × UserEnv)) :
    s.run self (a ++ b) = (s.run self a).run self b := by
  simp [UserState.run, List.foldl_append]

/-! ## C110 -/

/-- The role of a goroutine that handles a message. -/
theorem userRoles_message {notifications : List (Option ChatNotification)}
    {messages : List (Option (ChatUser × Bytes))} {i : Nat} {r : UserRole}
    (h : (userRoles notifications messages)[i]? = some r) (hi : 3 + notifications.length ≤ i) :
    ∃ b, messages[i - (3 + notifications.length)]? = some b ∧ r = .message b := by
  rw [userRoles, List.getElem?_append_right (by simp; omega), List.getElem?_map, Option.map_eq_some_iff] at h
  obtain ⟨b, h1, h2⟩ := h
  refine ⟨b, ?_, h2.symm⟩
  rw [← h1]
  congr 1
  simp
  omega

/-- **C110** (full statement): whatever notifications and messages arrive, the process does not die: the goroutine
that chats does not panic. -/
def C110_claim : Prop :=
  ∀ (self : ChatUser) (notifications : List (Option ChatNotification))
    (messages : List (Option (ChatUser × Bytes))) (acts : List (Nat × UserEnv)) (m : String),
    (userRun self notifications messages acts).threads[1]? ≠ some (.panic m)

namespace UserExample

def alice : ChatUser := ⟨str "alice", str "tcp", str "10.0.0.1", 4000, 5000⟩
def bob : ChatUser := ⟨str "bob", str "tcp", str "10.0.0.2", 4001, 5001⟩
/-- A user with a network that does not exist. -/
def mallory : ChatUser := ⟨str "mallory", str "sctp", str "10.0.0.3", 4002, 5002⟩

def joins (u : ChatUser) : Option ChatNotification := some ⟨some .joined, u⟩
def leaves (u : ChatUser) : Option ChatNotification := some ⟨some .left, u⟩

/-- `n` effects of goroutine `i`. -/
def does (i n : Nat) (e : UserEnv := {}) : List (Nat × UserEnv) := List.replicate n (i, e)

/-- The printer waits, `main` has started the chat. -/
def began : List (Nat × UserEnv) := does 0 2 ++ does 2 2

/-- Mallory joins, Alice chats. -/
def crash : List (Nat × UserEnv) := began ++ does 3 6 ++ does 1 8

end UserExample

open UserExample in
/-- C110 fails: a user who joins with an invalid network is stored without a connection, and the next message to
everybody dereferences it. -/
theorem C110_refuted : ¬ C110_claim := by
  intro h
  refine h alice [joins mallory] [] crash "nil pointer dereference" ?_
  rw [userRun_points]
  have : (((userPoints [joins mallory] []).run alice crash).points)[1]? =
      some (.tellEach ⟨false, alice, []⟩ [⟨mallory, none⟩]) := by decide +kernel
  simp only [UserState.loops, List.getElem?_map, this]
  rfl

theorem UserPoint.sound_prog {self : ChatUser} {p : UserPoint} {m : String} (h : p.sound)
    (hp : p.prog self = .panic m) : False := by
  have hf := p.next_fits self
  rw [hp] at hf
  cases hn : p.next self with
  | goes q => rw [hn] at hf; obtain ⟨l, h1, _⟩ := hf; cases h1
  | does o k => rw [hn] at hf; obtain ⟨f, h1, _⟩ := hf; cases h1
  | stuck =>
    cases p <;> first | (cases hn; done) | exact h | skip
    rename_i m us
    match us with
    | [] => cases hn
    | ⟨_, none⟩ :: _ => exact h _ List.mem_cons_self rfl
    | ⟨_, some _⟩ :: _ => cases hn

/-- **C110** (partial): if the users who join have a network that can be dialled, no goroutine of the process panics,
whatever messages arrive, in every schedule and whatever dials, writes and closes fail.  (The full statement is
`C110_claim`.) -/
theorem C110_no_crash_partial (self : ChatUser) (notifications : List (Option ChatNotification))
    (messages : List (Option (ChatUser × Bytes))) (acts : List (Nat × UserEnv))
    (hn : ∀ n, some n ∈ notifications → n.event = some .joined →
      n.user.network = str "tcp" ∨ n.user.network = str "udp") (i : Nat) (m : String) :
    (userRun self notifications messages acts).threads[i]? ≠ some (.panic m) := by
  intro h
  obtain ⟨p, h1, h2⟩ := userRun_thread h
  exact UserPoint.sound_prog ((UserSound.run self notifications messages acts hn).points i p h1) h2.symm

/-- **C110** (partial): whatever notifications arrive, no message kills the process: its handler does not panic, nor
do the printer and `main`. -/
theorem C110_messages_partial (self : ChatUser) (notifications : List (Option ChatNotification))
    (messages : List (Option (ChatUser × Bytes))) (acts : List (Nat × UserEnv)) (i : Nat) (m : String)
    (hi : i = 0 ∨ i = 2 ∨ 3 + notifications.length ≤ i) :
    (userRun self notifications messages acts).threads[i]? ≠ some (.panic m) := by
  intro h
  obtain ⟨p, h1, h2⟩ := userRun_thread h
  obtain ⟨r, h3, h4⟩ := (UserPlaced.run self notifications messages acts).fits i p h1
  have hr : r = .printer ∨ r = .main ∨ ∃ b, r = .message b := by
    rcases hi with rfl | rfl | hi
    · cases h3; exact .inl rfl
    · cases h3; exact .inr (.inl rfl)
    · obtain ⟨b, _, rfl⟩ := userRoles_message h3 hi
      exact .inr (.inr ⟨b, rfl⟩)
  refine UserPoint.sound_prog (p := p) (self := self) (m := m) ?_ h2.symm
  rcases hr with rfl | rfl | ⟨b, rfl⟩ <;> cases p <;> first | trivial | cases h4

open UserExample in
/-- Bob joins and Alice chats with Bob: the message is written to the connection and shown. -/
example : (userRun alice [joins bob] [] (began ++ does 3 6 ++ does 0 4 ++ does 1 11 { content := str "hi" } ++
      does 0 2)).world.log =
    [.shown (named alice (systemMessage (str "bob") joinedText)), .wrote 0 ⟨false, alice, str "hi"⟩ true,
      .shown ⟨false, alice, str "hi"⟩] := by
  rw [userRun_world]; decide +kernel

/-! ## C111 -/

/-- **C111** (full statement): the mutex that a notification needs can always become free again. -/
def C111_claim : Prop :=
  ∀ (self : ChatUser) (notifications : List (Option ChatNotification))
    (messages : List (Option (ChatUser × Bytes))) (acts : List (Nat × UserEnv)),
    (userRun self notifications messages acts).world.exited = false →
    ∃ acts', (userRun self notifications messages (acts ++ acts')).world.writer = false

/-- A goroutine that panicked with the mutex keeps it. -/
theorem panicked_stays (self : ChatUser) (i : Nat) (acts : List (Nat × UserEnv)) {s : UserState}
    (h : s.points[i]? = some .panicked) : (s.run self acts).points[i]? = some .panicked := by
  refine UserState.run_induct (P := fun s => s.points[i]? = some .panicked) self ?_ acts h
  intro s j p q w' h hp hm
  by_cases hij : j = i
  · subst hij
    rw [h] at hp
    cases hp
    cases hm
  · rw [List.getElem?_set_ne hij]
    exact h

open UserExample in
/-- C111 fails: the handler of the news that a user without a connection left panics while it holds the mutex;
`net/http` recovers the panic, and nobody ever gets the mutex again. -/
theorem C111_refuted : ¬ C111_claim := by
  intro h
  obtain ⟨acts', h1⟩ := h alice [joins mallory, leaves mallory] [] (began ++ does 3 6 ++ does 4 3)
    (by rw [userRun_world]; decide +kernel)
  have h2 : ((userPoints [joins mallory, leaves mallory] []).run alice (began ++ does 3 6 ++ does 4 3)).points[4]? =
      some .panicked := by decide +kernel
  have h3 := panicked_stays alice 4 acts' h2
  rw [← UserState.run_append] at h3
  have h4 := (UserLocks.run alice [joins mallory, leaves mallory] [] ((began ++ does 3 6 ++ does 4 3) ++ acts')).writer
  rw [userRun_world] at h1
  rw [h1] at h4
  have := countP_pos_points h3 (f := UserPoint.writes) rfl
  rw [h4] at this
  cases this

/-- One step of a goroutine that can do its effect. -/
theorem UserState.step_does {self : ChatUser} {s : UserState} {i : Nat} {e : UserEnv} {p : UserPoint} {o : UserOp}
    {k : o.Ret → UserPoint} {r : o.Ret × UserWorld} (hp : s.points[i]? = some p) (hn : p.next self = .does o k)
    (he : userExec e i o s.world = some r) : s.step self (i, e) = ⟨r.2, s.points.set i (k r.1)⟩ := by
  unfold UserState.step
  dsimp only
  rw [hp]
  dsimp only
  rw [hn]
  dsimp only
  rw [he]

/-- How many effects until the mutex is released. -/
def UserPoint.hold : UserPoint → Nat
  | .joinPut _ _ => 2
  | .joinUnlock _ => 1
  | .leaveGet _ => 5
  | .leaveClose _ _ => 4
  | .leaveAnswer _ => 3
  | .leaveDelete _ => 2
  | .leaveUnlock _ => 1
  | _ => 0

/-- Goroutine `i` has the mutex and at most `n` effects to do with it, or has released it. -/
def Releasing (i n : Nat) (s : UserState) : Prop :=
  UserSound s ∧ s.world.exited = false ∧ ∃ p, s.points[i]? = some p ∧
    (p.writes = true ∧ p.hold ≤ n ∨ s.world.writer = false ∧ ((∃ m, p = .telling m) ∨ p = .done))

theorem Releasing.step {self : ChatUser} {i n : Nat} {s : UserState} (h : Releasing i (n + 1) s) (e : UserEnv) :
    Releasing i n (s.step self (i, e)) := by
  obtain ⟨hs, hx, p, hp, h⟩ := h
  have hlen := (List.getElem?_eq_some_iff.mp hp).1
  have hset : ∀ q, (s.points.set i q)[i]? = some q := fun q => List.getElem?_set_self hlen
  have sound : UserSound (s.step self (i, e)) := by
    rcases s.step_move self (i, e) with h | ⟨p, q, w', h1, h2, h3⟩
    · rw [h]; exact hs
    · rw [h3]; exact UserSound.move s i p q w' hs h1 h2
  refine ⟨sound, ?_⟩
  have hx' : ¬ s.world.exited = true := by simp [hx]
  rcases h with ⟨hw, hn⟩ | ⟨hw, h⟩
  · cases p <;> first | (cases hw; done) | skip
    case panicked => exact absurd (hs.points i _ hp) id
    case leaveGet u =>
      rw [UserState.step_does (o := .getUser u.name) (r := (s.world.get u.name, s.world)) hp rfl (if_neg hx')]
      refine ⟨hx, _, hset _, .inl ?_⟩
      dsimp only
      cases hg : s.world.get u.name with
      | none => exact ⟨rfl, by simp [UserPoint.hold] at hn ⊢; omega⟩
      | some v =>
        match v, hg with
        | ⟨_, none⟩, hg => exact absurd rfl (hs.users _ (mem_of_lookup hg))
        | ⟨_, some c⟩, hg => exact ⟨rfl, by simp [UserPoint.hold] at hn ⊢; omega⟩
    case leaveClose u c =>
      rw [UserState.step_does (o := .closeConn c)
        (r := (e.ok, { s.world with conns := s.world.conns.set c false })) hp rfl (if_neg hx')]
      refine ⟨hx, _, hset _, .inl ?_⟩
      dsimp only
      cases e.ok
      · exact ⟨rfl, by simp [UserPoint.hold] at hn ⊢; omega⟩
      · exact ⟨rfl, by simp [UserPoint.hold] at hn ⊢; omega⟩
    all_goals
      rw [UserState.step_does hp rfl (if_neg hx')]
      refine ⟨hx, _, hset _, ?_⟩
      first
      | exact .inr ⟨rfl, .inl ⟨_, rfl⟩⟩
      | exact .inl ⟨rfl, by simp [UserPoint.hold] at hn ⊢; try omega⟩
  · have hgo : (s.step self (i, e)).world.exited = false ∧ ∃ p, (s.step self (i, e)).points[i]? = some p ∧
        ((s.step self (i, e)).world.writer = false ∧ ((∃ m, p = .telling m) ∨ p = .done)) := by
      rcases s.step_move self (i, e) with h' | ⟨p', q, w', h1, h2, h3⟩
      · rw [h']; exact ⟨hx, p, hp, hw, h⟩
      · rw [h3]
        rw [hp] at h1
        cases h1
        rcases h with ⟨m, rfl⟩ | rfl <;> cases h2
        · exact ⟨hx, _, hset _, hw, .inr rfl⟩
        · exact ⟨hx, _, hset _, hw, .inr rfl⟩
    exact ⟨hgo.1, hgo.2.choose, hgo.2.choose_spec.1, .inr hgo.2.choose_spec.2⟩

theorem Releasing.run {self : ChatUser} {i : Nat} (es : List UserEnv) {n : Nat} {s : UserState}
    (h : Releasing i n s) (hn : n ≤ es.length) :
    (s.run self (es.map fun e => (i, e))).world.writer = false := by
  induction es generalizing n s with
  | nil =>
    have : n = 0 := by simpa using hn
    subst this
    obtain ⟨hs, _, p, hp, ⟨hw, h⟩ | ⟨hw, _⟩⟩ := h
    · exfalso
      cases p <;> first | (cases hw; done) | (simp [UserPoint.hold] at h; done) | exact hs.points i _ hp
    · exact hw
  | cons e es ih =>
    have hstep : Releasing i (n - 1) (s.step self (i, e)) := by
      cases n with
      | zero =>
        refine Releasing.step (n := 0) ?_ e
        obtain ⟨hs, hx, p, hp, ⟨hw, h⟩ | h⟩ := h
        · exact ⟨hs, hx, p, hp, .inl ⟨hw, by omega⟩⟩
        · exact ⟨hs, hx, p, hp, .inr h⟩
      | succ n => exact h.step e
    exact ih (s := s.step self (i, e)) hstep (by simp at hn; omega)

/-- **C111** (partial): if the users who join have a network that can be dialled, a handler that holds the mutex gives
it back after at most five effects of its own: it waits for nobody.  (The full statement is `C111_claim`.) -/
theorem C111_writer_partial (self : ChatUser) (notifications : List (Option ChatNotification))
    (messages : List (Option (ChatUser × Bytes))) (acts : List (Nat × UserEnv))
    (hn : ∀ n, some n ∈ notifications → n.event = some .joined →
      n.user.network = str "tcp" ∨ n.user.network = str "udp")
    (hx : (userRun self notifications messages acts).world.exited = false)
    (hw : (userRun self notifications messages acts).world.writer = true) :
    ∃ i : Nat, ∀ es : List UserEnv, 5 ≤ es.length →
      (userRun self notifications messages (acts ++ es.map fun e => (i, e))).world.writer = false := by
  rw [userRun_world] at hx hw
  have hl := (UserLocks.run self notifications messages acts).writer
  rw [hw, if_pos rfl] at hl
  obtain ⟨p, hmem, hp⟩ := List.countP_pos_iff.mp (by rw [hl]; exact Nat.one_pos)
  obtain ⟨i, hi⟩ := List.mem_iff_getElem?.mp hmem
  refine ⟨i, fun es hes => ?_⟩
  rw [userRun_world, UserState.run_append]
  refine Releasing.run es (n := 5) ⟨UserSound.run self notifications messages acts hn, hx, p, hi, .inl ⟨hp, ?_⟩⟩ hes
  cases p <;> simp [UserPoint.hold]

open UserExample in
/-- Bob leaves while the handler of the news that Bob joined has the mutex; it releases it. -/
example : (userRun alice [joins bob, leaves bob] [] (began ++ does 3 4 ++ does 4 3)).world.writer = true ∧
    (userRun alice [joins bob, leaves bob] [] (began ++ does 3 4 ++ does 4 3 ++ does 3 5)).world.writer = false := by
  rw [userRun_world, userRun_world]; decide +kernel

/-- Only the goroutine that chats reads the map. -/
theorem UserPlaced.reader {self : ChatUser} {notifications : List (Option ChatNotification)}
    {messages : List (Option (ChatUser × Bytes))} {s : UserState} (h : UserPlaced self notifications messages s)
    {i : Nat} {p : UserPoint} (hp : s.points[i]? = some p) (hr : p.reads = true) : i = 1 := by
  obtain ⟨r, h1, h2⟩ := h.fits i p hp
  match i with
  | 0 => cases h1; cases p <;> first | (cases hr; done) | cases h2
  | 1 => rfl
  | 2 => cases h1; cases p <;> first | (cases hr; done) | cases h2
  | k + 3 =>
    exfalso
    have h3 : r ∈ notifications.map UserRole.note ++ messages.map UserRole.message := by
      refine List.mem_of_getElem? (i := k) ?_
      simpa [userRoles] using h1
    rcases List.mem_append.mp h3 with h3 | h3 <;> obtain ⟨b, _, rfl⟩ := List.mem_map.mp h3 <;>
      cases p <;> first | (cases hr; done) | cases h2

theorem readers_zero {self : ChatUser} {notifications : List (Option ChatNotification)}
    {messages : List (Option (ChatUser × Bytes))} {s : UserState} (h : UserPlaced self notifications messages s)
    (hl : UserLocks s) {p : UserPoint} (hp : s.points[1]? = some p) (hr : p.reads = false) :
    s.world.readers = 0 := by
  rw [← hl.readers]
  refine List.countP_eq_zero.mpr fun q hq hq' => ?_
  obtain ⟨i, hi⟩ := List.mem_iff_getElem?.mp hq
  cases h.reader hi hq'
  rw [hp] at hi
  cases hi
  rw [hr] at hq'
  cases hq'

/-- A visit of the map visits no more users than there are. -/
theorem range_length (w : UserWorld) (order : List Bytes) : (w.range order).length ≤ w.users.length := by
  unfold UserWorld.range
  have h1 : ∀ (l : List Bytes), (l.filterMap w.get).length = (l.filter fun n => (w.get n).isSome).length := by
    intro l
    induction l with
    | nil => rfl
    | cons n l ih =>
      cases hg : w.get n with
      | none => simp [hg, ih]
      | some u => simp [hg, ih]
  rw [h1, ← List.length_map (f := (·.1)) (as := w.users)]
  refine (List.subperm_of_subset ((List.nodup_dedup _).filter _) ?_).length_le
  intro n hn
  obtain ⟨u, hu⟩ := Option.isSome_iff_exists.mp (List.mem_filter.mp hn).2
  exact List.mem_map.mpr ⟨_, mem_of_lookup hu, rfl⟩

/-- The goroutine that chats has the mutex and at most `n` effects to do with it. -/
def TellHold (n : Nat) (s : UserState) : Prop :=
  UserSound s ∧ s.world.exited = false ∧ ∃ p, s.points[1]? = some p ∧
    match p with
    | .chatLen => 2 ≤ n
    | .chatRUnlock _ => 1 ≤ n
    | .tellRange _ => s.world.users.length + 2 ≤ n
    | .tellEach _ us => us.length + 1 ≤ n
    | _ => False

theorem TellHold.step {self : ChatUser} {n : Nat} {s : UserState} (h : TellHold n s) (e : UserEnv)
    (he : e.stalled = false) : 1 ≤ n ∧ (TellHold (n - 1) (s.step self (1, e)) ∨
      ∃ p, (s.step self (1, e)).points[1]? = some p ∧ p.reads = false) := by
  obtain ⟨hs, hx, p, hp, h⟩ := h
  have hlen := (List.getElem?_eq_some_iff.mp hp).1
  have hset : ∀ q, (s.points.set 1 q)[1]? = some q := fun q => List.getElem?_set_self hlen
  have sound : UserSound (s.step self (1, e)) := by
    rcases s.step_move self (1, e) with h | ⟨p, q, w', h1, h2, h3⟩
    · rw [h]; exact hs
    · rw [h3]; exact UserSound.move s 1 p q w' hs h1 h2
  have hx' : ¬ s.world.exited = true := by simp [hx]
  cases p <;> first | (exact absurd h id) | skip
  case chatLen =>
    dsimp only at h
    refine ⟨by omega, .inl ⟨sound, ?_⟩⟩
    rw [UserState.step_does (o := .rangeUsers) (r := (s.world.range e.order, s.world)) hp rfl (if_neg hx')]
    exact ⟨hx, _, hset _, by dsimp only; omega⟩
  case chatRUnlock b =>
    dsimp only at h
    refine ⟨by omega, .inr ?_⟩
    rw [UserState.step_does (o := .runlock) (r := ((), { s.world with readers := s.world.readers - 1 })) hp rfl
      (if_neg hx')]
    exact ⟨_, hset _, by cases b <;> rfl⟩
  case tellRange m =>
    dsimp only at h
    refine ⟨by omega, .inl ⟨sound, ?_⟩⟩
    rw [UserState.step_does (o := .rangeUsers) (r := (s.world.range e.order, s.world)) hp rfl (if_neg hx')]
    have := range_length s.world e.order
    exact ⟨hx, _, hset _, by dsimp only; omega⟩
  case tellEach m us =>
    match us with
    | [] =>
      refine ⟨by simpa using h, .inr ?_⟩
      rw [UserState.step_does (o := .runlock) (r := ((), { s.world with readers := s.world.readers - 1 })) hp rfl
        (if_neg hx')]
      exact ⟨_, hset _, rfl⟩
    | ⟨_, none⟩ :: _ => exact absurd rfl (hs.points 1 _ hp _ List.mem_cons_self)
    | ⟨_, some c⟩ :: us =>
      simp only [List.length_cons] at h
      refine ⟨by omega, .inl ⟨sound, ?_⟩⟩
      rw [UserState.step_does (o := .encode c m) (r := (e.ok && s.world.conns.getD c false,
        { s.world with log := s.world.log ++ [.wrote c m (e.ok && s.world.conns.getD c false)] })) hp rfl
        ((if_neg hx').trans (if_neg (by simp [he])))]
      exact ⟨hx, _, hset _, by dsimp only; omega⟩

theorem TellHold.run {self : ChatUser} (es : List UserEnv) {n : Nat} {s : UserState} (h : TellHold n s)
    (hn : n ≤ es.length) (he : ∀ e ∈ es, e.stalled = false) :
    ∃ k, ∃ p, (s.run self ((es.take k).map fun e => (1, e))).points[1]? = some p ∧ p.reads = false := by
  induction es generalizing n s with
  | nil =>
    exfalso
    have h0 : n = 0 := by simpa using hn
    subst h0
    exact absurd (h.step (self := ⟨[], [], [], 0, 0⟩) {} rfl).1 (by omega)
  | cons e es ih =>
    obtain ⟨h1, h2 | h2⟩ := h.step (self := self) e (he e List.mem_cons_self)
    · obtain ⟨k, hk⟩ := ih h2 (by simp at hn; omega) fun e h => he e (List.mem_cons_of_mem _ h)
      exact ⟨k + 1, by simpa [UserState.run] using hk⟩
    · exact ⟨1, by simpa [UserState.run] using h2⟩

/-- **C111** (partial): the goroutine that chats, when it holds the mutex (for reading), gives it back after a
bounded number of effects of its own, unless a write to a user blocks. -/
theorem C111_reader_partial (self : ChatUser) (notifications : List (Option ChatNotification))
    (messages : List (Option (ChatUser × Bytes))) (acts : List (Nat × UserEnv))
    (hn : ∀ n, some n ∈ notifications → n.event = some .joined →
      n.user.network = str "tcp" ∨ n.user.network = str "udp")
    (hx : (userRun self notifications messages acts).world.exited = false)
    (hr : (userRun self notifications messages acts).world.readers ≠ 0) :
    ∃ bound, ∀ es : List UserEnv, bound ≤ es.length → (∀ e ∈ es, e.stalled = false) →
      ∃ k, (userRun self notifications messages
        (acts ++ (es.take k).map fun e => (1, e))).world.readers = 0 := by
  rw [userRun_world] at hx hr
  have hpl := UserPlaced.run self notifications messages acts
  have hl := UserLocks.run self notifications messages acts
  obtain ⟨p, hmem, hp⟩ := List.countP_pos_iff.mp (Nat.pos_of_ne_zero (by rw [hl.readers]; exact hr))
  obtain ⟨i, hi⟩ := List.mem_iff_getElem?.mp hmem
  cases hpl.reader hi hp
  have hread : ∃ n, TellHold n ((userPoints notifications messages).run self acts) := by
    have base := UserSound.run self notifications messages acts hn
    cases p <;> first | (cases hp; done) | skip
    · exact ⟨2, base, hx, _, hi, Nat.le_refl _⟩
    · exact ⟨1, base, hx, _, hi, Nat.le_refl _⟩
    · exact ⟨_, base, hx, _, hi, Nat.le_refl _⟩
    · exact ⟨_, base, hx, _, hi, Nat.le_refl _⟩
  obtain ⟨n, hread⟩ := hread
  refine ⟨n, fun es hes he => ?_⟩
  obtain ⟨k, q, hq, hqr⟩ := hread.run (self := self) es hes he
  refine ⟨k, ?_⟩
  rw [userRun_world]
  rw [← UserState.run_append] at hq
  exact readers_zero (UserPlaced.run self notifications messages _) (UserLocks.run self notifications messages _) hq hqr

open UserExample in
/-- Alice writes to Bob with the mutex, and releases it after one more effect. -/
example : (userRun alice [joins bob] [] (began ++ does 3 6 ++ does 0 4 ++ does 1 9)).world.readers = 1 ∧
    (userRun alice [joins bob] [] (began ++ does 3 6 ++ does 0 4 ++ does 1 10)).world.readers = 0 := by
  rw [userRun_world, userRun_world]; decide +kernel

/-- The printer ends only when `stop` is closed. -/
theorem printer_done (self : ChatUser) (notifications : List (Option ChatNotification))
    (messages : List (Option (ChatUser × Bytes))) (acts : List (Nat × UserEnv))
    (h : ((userPoints notifications messages).run self acts).points[0]? = some .done) :
    ((userPoints notifications messages).run self acts).world.stop = true := by
  refine (UserState.run_induct (P := fun s => UserPlaced self notifications messages s ∧
    (s.points[0]? = some .done → s.world.stop = true)) self ?_ acts
    ⟨UserPlaced.start self notifications messages, (fun h => by cases h)⟩).2 h
  intro s i p q w' ⟨hpl, hs⟩ hp hm
  refine ⟨hpl.move s i p q w' hp hm, fun hd => ?_⟩
  have mono : s.world.stop = true → w'.stop = true := by
    cases hm <;> first | exact id | exact fun _ => rfl
  by_cases hi : i = 0
  · subst hi
    rw [List.getElem?_set_self (List.getElem?_eq_some_iff.mp hp).1] at hd
    have hd := Option.some.inj hd
    have hf := hpl.first hp
    cases hm <;> first | (cases hf; done) | (cases hd; done) | skip
    · exact hs hp
    · assumption
  · rw [List.getElem?_set_ne hi] at hd
    exact mono (hs hd)

/-- **C111** (partial): until `stop` is closed the printer is ready for the next message after at most four effects of
its own, so that nobody waits for it for ever. -/
theorem C111_printer_partial (self : ChatUser) (notifications : List (Option ChatNotification))
    (messages : List (Option (ChatUser × Bytes))) (acts : List (Nat × UserEnv))
    (hx : (userRun self notifications messages acts).world.exited = false)
    (hs : (userRun self notifications messages acts).world.stop = false) (es : List UserEnv) (hes : es.length = 4) :
    ∃ k, (userRun self notifications messages
      (acts ++ (es.take k).map fun e => (0, e))).world.waiting = true := by
  rw [userRun_world] at hx hs
  have hpl := UserPlaced.run self notifications messages acts
  have hc := UserChan.run self notifications messages acts
  have hnd : ((userPoints notifications messages).run self acts).points[0]? ≠ some .done := fun h => by
    rw [printer_done self notifications messages acts h] at hs; cases hs
  suffices h : ∃ k, (((userPoints notifications messages).run self acts).run self
      ((es.take k).map fun e => (0, e))).world.waiting = true by
    obtain ⟨k, hk⟩ := h
    refine ⟨k, ?_⟩
    rw [userRun_world, UserState.run_append]
    exact hk
  generalize (userPoints notifications messages).run self acts = s at hx hs hpl hc hnd
  have hlen : 0 < s.points.length := by rw [hpl.len]; simp [userRoles]
  have ready : ∀ (s : UserState) (e : UserEnv), s.world.exited = false → s.points[0]? = some .printReady →
      (s.step self (0, e)).world.waiting = true := by
    intro s e hx hp
    rw [UserState.step_does (o := .ready) (r := ((), { s.world with waiting := true })) hp rfl
      (if_neg (by simp [hx]))]
  have top : ∀ (s : UserState) (e : UserEnv), 0 < s.points.length → s.points[0]? = some .printTop →
      s.step self (0, e) = ⟨s.world, s.points.set 0 .printReady⟩ := by
    intro s e _ hp
    unfold UserState.step
    dsimp only
    rw [hp]
    rfl
  have print : ∀ (s : UserState) (e : UserEnv) (m : ChatMessage), s.world.exited = false →
      s.points[0]? = some (.printLine m) →
      s.step self (0, e) = ⟨{ s.world with log := s.world.log ++ [.shown m] }, s.points.set 0 .printTop⟩ := by
    intro s e m hx hp
    rw [UserState.step_does (o := .print m) (r := ((), { s.world with log := s.world.log ++ [.shown m] })) hp rfl
      (if_neg (by simp [hx]))]
  have receive : ∀ (s : UserState) (e : UserEnv) (m : ChatMessage), s.world.exited = false →
      s.world.slot = some m → s.points[0]? = some .printReceive →
      s.step self (0, e) = ⟨{ s.world with slot := none }, s.points.set 0 (.printLine (named self m))⟩ := by
    intro s e m hx hm hp
    rw [UserState.step_does (o := .receive) (r := (some m, { s.world with slot := none })) hp rfl
      ((if_neg (by simp [hx])).trans (by dsimp only; rw [hm]))]
  match es, hes with
  | [e1, e2, e3, e4], _ =>
    have hset : ∀ (ps : List UserPoint) (q : UserPoint), 0 < ps.length → (ps.set 0 q)[0]? = some q :=
      fun ps q h => List.getElem?_set_self h
    have fromTop : ∀ (s : UserState) (e e' : UserEnv), 0 < s.points.length → s.world.exited = false →
        s.points[0]? = some .printTop → ((s.step self (0, e)).step self (0, e')).world.waiting = true := by
      intro s e e' hl hx hp
      rw [top s e hl hp]
      exact ready _ e' hx (hset _ _ hl)
    have fromLine : ∀ (s : UserState) (e e' e'' : UserEnv) (m : ChatMessage), 0 < s.points.length →
        s.world.exited = false → s.points[0]? = some (.printLine m) →
        (((s.step self (0, e)).step self (0, e')).step self (0, e'')).world.waiting = true := by
      intro s e e' e'' m hl hx hp
      rw [print s e m hx hp]
      exact fromTop _ e' e'' (by simpa using hl) hx (hset _ _ hl)
    cases hp : s.points[0]? with
    | none => rw [List.getElem?_eq_none_iff] at hp; omega
    | some p =>
      have hf := hpl.first hp
      cases p <;> first | (cases hf; done) | skip
      case done => exact absurd hp hnd
      case printTop => exact ⟨2, fromTop s e1 e2 hlen hx hp⟩
      case printReady => exact ⟨1, ready s e1 hx hp⟩
      case printLine m => exact ⟨3, fromLine s e1 e2 e3 m hlen hx hp⟩
      case printReceive =>
        rcases hc.ready hp with hw | hm
        · exact ⟨0, hw⟩
        · cases hm' : s.world.slot with
          | none => exact absurd hm' hm
          | some m =>
            refine ⟨4, ?_⟩
            show ((((s.step self (0, e1)).step self (0, e2)).step self (0, e3)).step self (0, e4)).world.waiting = true
            rw [receive s e1 m hx hm' hp]
            exact fromLine _ e2 e3 e4 _ (by simpa using hlen) hx (hset _ _ hlen)

/-! ## C114 -/

/-- **C114** (full statement): after the signal the process can end. -/
def C114_claim : Prop :=
  ∀ (self : ChatUser) (notifications : List (Option ChatNotification))
    (messages : List (Option (ChatUser × Bytes))) (acts : List (Nat × UserEnv)),
    (userRun self notifications messages acts).world.stop = true →
    ∃ acts', (userRun self notifications messages (acts ++ acts')).world.exited = true

/-- Before `server.Close` has returned. -/
def UserPoint.beforeExit : UserPoint → Bool
  | .mainExit => false
  | _ => true

theorem stuck_points (self : ChatUser) (notifications : List (Option ChatNotification))
    (messages : List (Option (ChatUser × Bytes))) (acts : List (Nat × UserEnv)) (i : Nat) (m : ChatMessage)
    (hp : ((userPoints notifications messages).run self acts).points[0]? = some .done)
    (hi : ((userPoints notifications messages).run self acts).points[i]? = some (.passing m))
    (hm : ∀ p ∈ ((userPoints notifications messages).run self acts).points, p.beforeExit = true)
    (hx : (userRun self notifications messages acts).world.exited = false) (acts' : List (Nat × UserEnv)) :
    (userRun self notifications messages (acts ++ acts')).world.exited = false := by
  rw [userRun_world] at hx ⊢
  rw [UserState.run_append]
  have hpl := UserPlaced.run self notifications messages acts
  have hc := UserChan.run self notifications messages acts
  have hl := UserLocks.run self notifications messages acts
  generalize (userPoints notifications messages).run self acts = s at hp hi hm hx hpl hc hl
  refine (UserState.run_induct (P := fun s => (UserPlaced self notifications messages s ∧ UserChan s) ∧ UserLocks s ∧
    s.points[0]? = some .done ∧ s.points[i]? = some (.passing m) ∧ (∀ p ∈ s.points, p.beforeExit = true) ∧
    s.world.exited = false) self ?_ acts' ⟨⟨hpl, hc⟩, hl, hp, hi, hm, hx⟩).2.2.2.2.2
  intro s j p q w' ⟨hpc, hl, hp0, hi, hb, hx⟩ hp hmove
  have hwait : s.world.waiting ≠ true := fun h => by
    have := (hpc.2.waits h).1
    rw [hp0] at this
    cases this
  have hact : s.world.active ≠ 0 := by
    rw [← hl.active]
    exact Nat.pos_iff_ne_zero.mp (countP_pos_points hi rfl)
  have hbp := hb p (List.mem_of_getElem? hp)
  refine ⟨UserChan.move s j p q w' hpc hp hmove, hl.move s j p q w' hp hmove, ?_, ?_, ?_, ?_⟩
  · by_cases hj : j = 0
    · subst hj
      rw [hp0] at hp
      cases hp
      cases hmove
      exact List.getElem?_set_self (List.getElem?_eq_some_iff.mp hp0).1
    · rw [List.getElem?_set_ne hj]; exact hp0
  · by_cases hj : j = i
    · subst hj
      rw [hi] at hp
      cases hp
      cases hmove
      exact absurd (by assumption) hwait
    · rw [List.getElem?_set_ne hj]; exact hi
  · intro x hxm
    rcases List.mem_or_eq_of_mem_set hxm with h | rfl
    · exact hb x h
    · cases hmove <;> first | rfl | exact absurd (by assumption) hact | skip
      rename_i n _
      unfold ChatNotification.point
      split
      · rfl
      · split
        · rfl
        · split <;> rfl
      · rfl
  · cases hmove <;> first | exact hx | cases hbp

/-- **C114**: once the printer is gone, a handler of a message that has not handed it over keeps the process alive,
whatever happens, unless `main` is past `server.Close`. -/
theorem C114_stuck (self : ChatUser) (notifications : List (Option ChatNotification))
    (messages : List (Option (ChatUser × Bytes))) (acts : List (Nat × UserEnv)) (i : Nat) (m : ChatMessage)
    (f : Unit → UserProg UserLoop)
    (hp : (userRun self notifications messages acts).threads[0]? = some (.ret .ended))
    (hi : (userRun self notifications messages acts).threads[i]? = some (.op (.send m) f))
    (hn : 3 + notifications.length ≤ i)
    (hm : ∀ g, (userRun self notifications messages acts).threads[2]? ≠ some (.op .exit g))
    (hx : (userRun self notifications messages acts).world.exited = false) (acts' : List (Nat × UserEnv)) :
    (userRun self notifications messages (acts ++ acts')).world.exited = false := by
  have hpl := UserPlaced.run self notifications messages acts
  obtain ⟨p, hp1, hp2⟩ := userRun_thread hp
  obtain ⟨q, hq1, hq2⟩ := userRun_thread hi
  refine stuck_points self notifications messages acts i m ?_ ?_ ?_ hx acts'
  · have hf := hpl.first hp1
    cases p <;> first | exact hp1 | (cases hf; done) | cases hp2
  · obtain ⟨r, h1, h2⟩ := hpl.fits i q hq1
    obtain ⟨b, _, rfl⟩ := userRoles_message h1 hn
    cases q <;> first | (cases h2; done) | (cases hq2; done) | skip
    cases hq2
    exact hq1
  · intro x hxm
    obtain ⟨j, hj⟩ := List.mem_iff_getElem?.mp hxm
    obtain ⟨r, h1, h2⟩ := hpl.fits j x hj
    cases x <;> first | rfl | skip
    exfalso
    have h3 : j = 2 := by
      match j with
      | 0 => cases h1; cases h2
      | 1 => cases h1; cases h2
      | 2 => rfl
      | k + 3 =>
        have h3 : r ∈ notifications.map UserRole.note ++ messages.map UserRole.message := by
          refine List.mem_of_getElem? (i := k) ?_
          simpa [userRoles] using h1
        rcases List.mem_append.mp h3 with h3 | h3 <;> obtain ⟨b, _, rfl⟩ := List.mem_map.mp h3 <;> cases h2
    subst h3
    refine hm (fun _ => .ret .ended) ?_
    rw [userRun_points]
    simp only [UserState.loops, List.getElem?_map, hj]
    rfl

open UserExample in
/-- The signal comes while Bob's message is being handled. -/
def UserExample.hang : List (Nat × UserEnv) := began ++ does 3 1 ++ does 2 2 { signal := true } ++ does 0 1

open UserExample in
/-- C114 fails: the printer ends with the signal, the handler of a message waits for it for ever, and `server.Close`
waits for the handler. -/
theorem C114_refuted : ¬ C114_claim := by
  intro h
  obtain ⟨acts', h1⟩ := h alice [] [some (bob, str "hi")] hang (by rw [userRun_world]; decide +kernel)
  have h2 := stuck_points alice [] [some (bob, str "hi")] hang 3 ⟨false, bob, str "hi"⟩ (by decide +kernel)
    (by decide +kernel) (by decide +kernel) (by rw [userRun_world]; decide +kernel) acts'
  rw [h2] at h1
  cases h1

/-- How many effects `main` still has to do. -/
def UserPoint.ahead : UserPoint → Nat
  | .mainRegister => 9
  | .mainStart => 8
  | .mainWait => 7
  | .mainStop => 6
  | .mainUnregister => 5
  | .mainShutdown => 4
  | .mainShut => 3
  | .mainClose => 2
  | .mainExit => 1
  | _ => 0

theorem main_step {self : ChatUser} {s : UserState} {p : UserPoint} {n : Nat} (hp : s.points[2]? = some p)
    (hf : p.fitsRole self .main) (ha : s.world.active = 0) (hn : p.ahead ≤ n + 1)
    (hx : s.world.exited = true ∨ p ≠ .done) (e : UserEnv) (he : e.signal = true) :
    ∃ q, (s.step self (2, e)).points[2]? = some q ∧ q.fitsRole self .main ∧ (s.step self (2, e)).world.active = 0 ∧
      (s.world.exited = true ∨ q.ahead ≤ n) ∧ ((s.step self (2, e)).world.exited = true ∨ q ≠ .done) := by
  by_cases hex : s.world.exited = true
  · rcases s.step_move self (2, e) with h | ⟨p', q, w', h1, h2, h3⟩
    · rw [h]; exact ⟨p, hp, hf, ha, .inl hex, .inl hex⟩
    · rw [h3]
      rw [hp] at h1
      cases h1
      have hset : (s.points.set 2 q)[2]? = some q := List.getElem?_set_self (List.getElem?_eq_some_iff.mp hp).1
      refine ⟨q, hset, UserPoint.fitsRole_move hf h2, ?_, .inl hex, .inl ?_⟩
      · cases h2 <;> first | exact ha | cases hf
      · cases h2 <;> first | exact hex | rfl
  · have hset : ∀ q, (s.points.set 2 q)[2]? = some q := fun q =>
      List.getElem?_set_self (List.getElem?_eq_some_iff.mp hp).1
    cases p <;> first | (cases hf; done) | skip
    case done => rcases hx with h | h
                 · exact absurd h hex
                 · exact absurd rfl h
    case mainRegister =>
      rw [UserState.step_does (o := .register) (r := (e.ok, s.world)) hp rfl (if_neg hex)]
      refine ⟨_, hset _, ?_, ha, .inr ?_, .inr ?_⟩ <;> cases e.ok <;> simp_all [UserPoint.ahead, UserPoint.fitsRole]
      omega
    case mainWait =>
      rw [UserState.step_does (o := .waitSignal) (r := ((), s.world)) hp rfl ((if_neg hex).trans (if_pos he))]
      exact ⟨_, hset _, trivial, ha, .inr (by simp [UserPoint.ahead] at hn ⊢; omega), .inr (fun h => by cases h)⟩
    case mainClose =>
      rw [UserState.step_does (o := .waitServer) (r := ((), s.world)) hp rfl ((if_neg hex).trans (if_pos ha))]
      exact ⟨_, hset _, trivial, ha, .inr (by simp [UserPoint.ahead] at hn ⊢; omega), .inr (fun h => by cases h)⟩
    case mainExit =>
      rw [UserState.step_does hp rfl (if_neg hex)]
      exact ⟨_, hset _, trivial, ha, .inr (by simp [UserPoint.ahead]), .inl rfl⟩
    all_goals
      rw [UserState.step_does hp rfl (if_neg hex)]
      exact ⟨_, hset _, trivial, ha, .inr (by simp [UserPoint.ahead] at hn ⊢; omega), .inr (fun h => by cases h)⟩

theorem main_run {self : ChatUser} (es : List UserEnv) (he : ∀ e ∈ es, e.signal = true) {n : Nat} {s : UserState}
    {p : UserPoint} (hp : s.points[2]? = some p) (hf : p.fitsRole self .main) (ha : s.world.active = 0)
    (hn : s.world.exited = true ∨ p.ahead ≤ n) (hx : s.world.exited = true ∨ p ≠ .done) (hlen : n ≤ es.length) :
    (s.run self (es.map fun e => (2, e))).world.exited = true := by
  induction es generalizing n s p with
  | nil =>
    rcases hx with h | h
    · exact h
    · rcases hn with h' | h'
      · exact h'
      · have : n = 0 := by simpa using hlen
        subst this
        exfalso
        cases p <;> first | (cases hf; done) | (simp [UserPoint.ahead] at h'; done) | exact h rfl
  | cons e es ih =>
    by_cases hex : s.world.exited = true
    · obtain ⟨q, h1, h2, h3, _, h5⟩ := main_step (n := p.ahead) hp hf ha (by omega) hx e (he e List.mem_cons_self)
      have hex' : (s.step self (2, e)).world.exited = true := by
        rcases s.step_move self (2, e) with h | ⟨p', q, w', h1, h2, h3⟩
        · rw [h]; exact hex
        · rw [h3]
          cases h2 <;> first | exact hex | rfl
      exact ih (fun e h => he e (List.mem_cons_of_mem _ h)) h1 h2 h3 (.inl hex') h5 (Nat.zero_le _)
    · have hn : p.ahead ≤ n := hn.resolve_left hex
      obtain ⟨q, h1, h2, h3, h4, h5⟩ := main_step (n := n - 1) hp hf ha (by omega) hx e (he e List.mem_cons_self)
      exact ih (fun e h => he e (List.mem_cons_of_mem _ h)) (n := n - 1) h1 h2 h3 (.inr (h4.resolve_left hex)) h5
        (by simp at hlen; omega)

/-- **C114** (partial): when no handler of a message is running, nine effects of `main` end the process after the
signal, whatever the other goroutines wait for and whatever fails.  (The full statement is `C114_claim`.) -/
theorem C114_ends_partial (self : ChatUser) (notifications : List (Option ChatNotification))
    (messages : List (Option (ChatUser × Bytes))) (acts : List (Nat × UserEnv))
    (ha : (userRun self notifications messages acts).world.active = 0) (es : List UserEnv) (hes : 9 ≤ es.length)
    (he : ∀ e ∈ es, e.signal = true) :
    (userRun self notifications messages (acts ++ es.map fun e => (2, e))).world.exited = true := by
  rw [userRun_world] at ha ⊢
  rw [UserState.run_append]
  have hpl := UserPlaced.run self notifications messages acts
  obtain ⟨p, hp⟩ : ∃ p, ((userPoints notifications messages).run self acts).points[2]? = some p :=
    ⟨_, List.getElem?_eq_getElem (by rw [hpl.len]; simp [userRoles])⟩
  obtain ⟨r, h1, h2⟩ := hpl.fits 2 p hp
  cases h1
  refine main_run es he (n := 9) hp h2 ha (.inr ?_) ?_ hes
  · cases p <;> simp [UserPoint.ahead]
  · -- `main` has returned only if the process has exited
    have := (UserState.run_induct (P := fun s => UserPlaced self notifications messages s ∧
      (s.points[2]? = some .done → s.world.exited = true)) self ?_ acts
      ⟨UserPlaced.start self notifications messages, (fun h => by cases h)⟩).2
    · by_cases hd : p = .done
      · exact .inl (this (by rw [hp, hd]))
      · exact .inr hd
    · intro s i p q w' ⟨hpl, hs⟩ hp hm
      refine ⟨hpl.move s i p q w' hp hm, fun hd => ?_⟩
      have mono : s.world.exited = true → w'.exited = true := by
        cases hm <;> first | exact id | exact fun _ => rfl
      by_cases hi : i = 2
      · subst hi
        rw [List.getElem?_set_self (List.getElem?_eq_some_iff.mp hp).1] at hd
        have hd := Option.some.inj hd
        obtain ⟨r, h1, hf⟩ := hpl.fits 2 p hp
        cases h1
        cases hm <;> first | (cases hf; done) | (cases hd; done) | skip
        · exact hs hp
        · rfl
      · rw [List.getElem?_set_ne hi] at hd
        exact mono (hs hd)

open UserExample in
/-- Bob's message has been handled before the signal: the process ends. -/
example : (userRun alice [] [some (bob, str "hi")] (began ++ does 3 3 ++ does 2 7 { signal := true })).world.exited =
    true := by
  rw [userRun_world]; decide +kernel

/-! ## C116 -/

/-- The effect uses the map of the users. -/
def UserOp.usesMap : UserOp → Bool
  | .getUser _ | .rangeUsers | .putUser _ _ | .deleteUser _ => true
  | _ => false

/-- The effect changes the map of the users. -/
def UserOp.changesMap : UserOp → Bool
  | .putUser _ _ | .deleteUser _ => true
  | _ => false

theorem UserPoint.next_of_prog {self : ChatUser} {p : UserPoint} {o : UserOp} {f : o.Ret → UserProg UserLoop}
    (h : p.prog self = .op o f) : ∃ k, p.next self = .does o k := by
  have hf := p.next_fits self
  rw [h] at hf
  cases hn : p.next self with
  | goes q => rw [hn] at hf; obtain ⟨l, h1, _⟩ := hf; cases h1
  | stuck => rw [hn] at hf; obtain ⟨l, h1⟩ := hf; cases h1
  | does o' k =>
    rw [hn] at hf
    obtain ⟨f', h1, _⟩ := hf
    cases h1
    exact ⟨k, rfl⟩

/-- **C116**: there is no data race on the map of the users: while one goroutine is about to change it, no other is
about to use it. -/
theorem C116_map_exclusive (self : ChatUser) (notifications : List (Option ChatNotification))
    (messages : List (Option (ChatUser × Bytes))) (acts : List (Nat × UserEnv)) (i j : Nat) (o o' : UserOp)
    (f : o.Ret → UserProg UserLoop) (f' : o'.Ret → UserProg UserLoop)
    (hi : (userRun self notifications messages acts).threads[i]? = some (.op o f)) (ho : o.changesMap = true)
    (hj : (userRun self notifications messages acts).threads[j]? = some (.op o' f')) (ho' : o'.usesMap = true) :
    i = j := by
  obtain ⟨p, hp, hp'⟩ := userRun_thread hi
  obtain ⟨q, hq, hq'⟩ := userRun_thread hj
  obtain ⟨k, hk⟩ := UserPoint.next_of_prog hp'.symm
  obtain ⟨k', hk'⟩ := UserPoint.next_of_prog hq'.symm
  have hl := UserLocks.run self notifications messages acts
  have hw : p.writes = true := by
    cases p <;> first | rfl | (cases hk; done) | (cases hk; cases ho; done) | skip
    rename_i m us
    match us with
    | [] => cases hk; cases ho
    | ⟨_, none⟩ :: _ => cases hk
    | ⟨_, some _⟩ :: _ => cases hk; cases ho
  have hu : q.writes = true ∨ q.reads = true := by
    cases q <;> first | exact .inl rfl | exact .inr rfl | (cases hk'; done) | (cases hk'; cases ho'; done)
  rcases Nat.lt_trichotomy i j with h | h | h
  · exfalso
    rcases hu with hu | hu
    · have := countP_two_points hp hq (by omega) hw hu
      rw [hl.writer] at this
      split at this <;> omega
    · have h1 := countP_pos_points hp hw
      have h2 := countP_pos_points hq hu
      rw [hl.readers] at h2
      rw [hl.writer] at h1
      split at h1
      · rename_i h3
        rw [hl.excl h3] at h2
        omega
      · omega
  · exact h
  · exfalso
    rcases hu with hu | hu
    · have := countP_two_points hp hq (by omega) hw hu
      rw [hl.writer] at this
      split at this <;> omega
    · have h1 := countP_pos_points hp hw
      have h2 := countP_pos_points hq hu
      rw [hl.readers] at h2
      rw [hl.writer] at h1
      split at h1
      · rename_i h3
        rw [hl.excl h3] at h2
        omega
      · omega

open UserExample in
/-- Bob joins while Alice is about to visit the map: the handler waits for the mutex. -/
example : ((userPoints [joins bob] []).run alice (began ++ does 3 2 ++ does 1 3 ++ does 3 5)).points =
    [.printReceive, .chatLen, .mainWait, .joinLock bob (some 0)] := by decide +kernel

end Goe2ee
