import Verif.Props.ChatScreen
import Verif.Props.ChatOpen

/-!
# C120, C121: a chat user learns who joins and who leaves
-/

set_option autoImplicit false

namespace Goe2ee

/-- The message is on the screen or in the hands of the printer. -/
def Told (me : ChatUser) (m : ChatMessage) (s : UserState) : Prop :=
  UserEvent.shown (named me m) ∈ s.world.log ∨ s.world.slot = some m ∨
    s.points[0]? = some (.printLine (named me m))

/-- What is on the screen stays there. -/
theorem log_move {self : ChatUser} {i : Nat} {w w' : UserWorld} {p q : UserPoint} {e : UserEvent}
    (hm : UserMove self i w p q w') (h : e ∈ w.log) : e ∈ w'.log := by
  cases hm <;> first | exact h | exact List.mem_append_left _ h

/-- The message in the slot is taken by the printer only. -/
theorem slot_kept {self : ChatUser} {i : Nat} {w w' : UserWorld} {p q : UserPoint} {m : ChatMessage}
    (hm : UserMove self i w p q w') (h : w.slot = some m) :
    w'.slot = some m ∨ (p = .printReceive ∧ q = .printLine (named self m)) ∨ w.waiting = true := by
  cases hm <;> first | exact .inl h | (rename_i hw; exact .inr (.inr hw)) | skip
  case receive m' hs =>
    rw [h] at hs
    cases hs
    exact .inr (.inl ⟨rfl, rfl⟩)

theorem line_kept {self : ChatUser} {i : Nat} {w w' : UserWorld} {q : UserPoint} {d : ChatMessage}
    (hm : UserMove self i w (.printLine d) q w') : UserEvent.shown d ∈ w'.log := by
  cases hm
  exact List.mem_append_right _ List.mem_cons_self

theorem Told.move {self : ChatUser} {notifications : List (Option ChatNotification)}
    {messages : List (Option (ChatUser × Bytes))} {s : UserState} {i : Nat} {p q : UserPoint} {w' : UserWorld}
    {m : ChatMessage} (hpl : UserPlaced self notifications messages s) (hc : UserChan s) (h : Told self m s)
    (hp : s.points[i]? = some p) (hm : UserMove self i s.world p q w') :
    Told self m ⟨w', s.points.set i q⟩ := by
  have hlt := (List.getElem?_eq_some_iff.mp hp).1
  rcases h with h | h | h
  · exact .inl (log_move hm h)
  · rcases slot_kept hm h with h1 | ⟨rfl, rfl⟩ | h1
    · exact .inr (.inl h1)
    · cases hpl.printer hp (by simp)
      exact .inr (.inr (List.getElem?_set_self hlt))
    · rw [(hc.waits h1).2] at h
      cases h
  · by_cases hi : i = 0
    · subst hi
      rw [h] at hp
      cases hp
      exact .inl (line_kept hm)
    · exact .inr (.inr (by dsimp only; rw [List.getElem?_set_ne hi]; exact h))

/-- How the handler of a notification ends. -/
theorem done_move {self : ChatUser} {i : Nat} {w w' : UserWorld} {p q : UserPoint} {n : ChatNotification}
    {event : ChatEvent} (hf : p.fitsRole self (.note (some n))) (he : n.event = some event)
    (hm : UserMove self i w p q w') (hq : q = .done) :
    p = .done ∨ (w'.slot = some (systemMessage n.user.name event.text)) ∨
      (event = .joined ∧ ∃ status, UserEvent.responded i status ∈ w'.log) := by
  cases hm <;> first | (cases hq; done) | (cases hf; done) | exact .inl rfl | skip
  case arrive n' _ =>
    exfalso
    have hf : some n' = some n := hf
    cases hf
    revert hq
    unfold ChatNotification.point
    rw [he]
    cases event
    · dsimp only
      split
      · exact (fun h => by cases h)
      · split <;> exact (fun h => by cases h)
    · exact (fun h => by cases h)
  case answer status =>
    have h1 := hf n rfl
    rw [he] at h1
    cases h1
    exact .inr (.inr ⟨rfl, status, List.mem_append_right _ List.mem_cons_self⟩)
  case telling m hw =>
    obtain ⟨n', h1, h2⟩ := hf
    cases h1
    refine .inr (.inl ?_)
    rcases h2 with ⟨h3, rfl⟩ | ⟨h3, rfl⟩ <;> rw [he] at h3 <;> cases h3 <;> rfl

structure UserNews (me : ChatUser) (notifications : List (Option ChatNotification))
    (messages : List (Option (ChatUser × Bytes))) (s : UserState) : Prop where
  chan : UserPlaced me notifications messages s ∧ UserChan s
  news : ∀ (i : Nat) (n : ChatNotification) (event : ChatEvent),
    (userRoles notifications messages)[i]? = some (.note (some n)) → n.event = some event →
    s.points[i]? = some .done → Told me (systemMessage n.user.name event.text) s ∨
      (event = .joined ∧ ∃ status, UserEvent.responded i status ∈ s.world.log)

theorem UserNews.move {self : ChatUser} {notifications : List (Option ChatNotification)}
    {messages : List (Option (ChatUser × Bytes))} (s : UserState) (i : Nat) (p q : UserPoint) (w' : UserWorld)
    (h : UserNews self notifications messages s) (hp : s.points[i]? = some p)
    (hm : UserMove self i s.world p q w') : UserNews self notifications messages ⟨w', s.points.set i q⟩ := by
  obtain ⟨⟨hpl, hc⟩, hn⟩ := h
  refine ⟨UserChan.move s i p q w' ⟨hpl, hc⟩ hp hm, ?_⟩
  intro j n event hr he hj
  have keep : s.points[j]? = some .done → Told self (systemMessage n.user.name event.text) ⟨w', s.points.set i q⟩ ∨
      (event = .joined ∧ ∃ status, UserEvent.responded j status ∈ w'.log) := by
    intro hd
    rcases hn j n event hr he hd with h1 | ⟨h1, st, h2⟩
    · exact .inl (h1.move hpl hc hp hm)
    · exact .inr ⟨h1, st, log_move hm h2⟩
  by_cases hij : i = j
  · subst hij
    rw [List.getElem?_set_self (List.getElem?_eq_some_iff.mp hp).1] at hj
    obtain ⟨r, h1, h2⟩ := hpl.fits i p hp
    rw [hr] at h1
    cases h1
    rcases done_move h2 he hm (Option.some.inj hj) with rfl | h3 | h3
    · exact keep hp
    · exact .inl (.inr (.inl h3))
    · exact .inr h3
  · rw [List.getElem?_set_ne hij] at hj
    exact keep hj

theorem UserNews.run (self : ChatUser) (notifications : List (Option ChatNotification))
    (messages : List (Option (ChatUser × Bytes))) (acts : List (Nat × UserEnv)) :
    UserNews self notifications messages ((userPoints notifications messages).run self acts) := by
  refine UserState.run_induct self UserNews.move acts
    ⟨⟨UserPlaced.start self notifications messages, UserChan.run self notifications messages []⟩, ?_⟩
  intro i n event _ _ hi
  have hp := List.mem_of_getElem? hi
  simp only [userPoints, List.mem_append, List.mem_cons, List.mem_map, List.not_mem_nil, or_false] at hp
  rcases hp with ((h | h | h) | ⟨b, _, h⟩) | ⟨b, _, h⟩ <;> cases h

theorem note_role {notifications : List (Option ChatNotification)} {messages : List (Option (ChatUser × Bytes))}
    {k : Nat} {b : Option ChatNotification} (h : notifications[k]? = some b) :
    (userRoles notifications messages)[3 + k]? = some (.note b) := by
  have hlt := (List.getElem?_eq_some_iff.mp h).1
  rw [userRoles, List.append_assoc, List.getElem?_append_right (by simp), List.getElem?_append_left (by simp; omega),
    List.getElem?_map]
  simp [h]

/-- **C120**: whoever joins or leaves is announced: when the handler of the news has ended and the printer waits for
the next message, the news have been shown, or the registry was told that the user could not be connected. -/
theorem C120_announced (self : ChatUser) (notifications : List (Option ChatNotification))
    (messages : List (Option (ChatUser × Bytes))) (acts : List (Nat × UserEnv)) (k : Nat) (n : ChatNotification)
    (event : ChatEvent) (hk : notifications[k]? = some (some n)) (he : n.event = some event)
    (hend : (userRun self notifications messages acts).threads[3 + k]? = some (.ret .ended))
    (hw : (userRun self notifications messages acts).world.waiting = true) :
    UserEvent.shown (named self (systemMessage n.user.name event.text)) ∈
      (userRun self notifications messages acts).world.log ∨
    (event = .joined ∧ ∃ status,
      UserEvent.responded (3 + k) status ∈ (userRun self notifications messages acts).world.log) := by
  obtain ⟨p, hp, hp'⟩ := userRun_thread hend
  rw [userRun_world] at hw ⊢
  have hnews := UserNews.run self notifications messages acts
  have hr := note_role (messages := messages) hk
  have hd : p = .done := by
    obtain ⟨r, h1, h2⟩ := hnews.chan.1.fits _ p hp
    rw [hr] at h1
    cases h1
    cases p <;> first | rfl | (cases h2; done) | (cases hp'; done)
  subst hd
  obtain ⟨h1, h2⟩ := hnews.chan.2.waits hw
  rcases hnews.news _ n event hr he hp with (h3 | h3 | h3) | h3
  · exact .inl h3
  · rw [h2] at h3; cases h3
  · rw [h1] at h3; cases h3
  · exact .inr h3

/-- **C120**: the news that a user left are shown in any case. -/
theorem C120_left_shown (self : ChatUser) (notifications : List (Option ChatNotification))
    (messages : List (Option (ChatUser × Bytes))) (acts : List (Nat × UserEnv)) (k : Nat) (n : ChatNotification)
    (hk : notifications[k]? = some (some n)) (he : n.event = some .left)
    (hend : (userRun self notifications messages acts).threads[3 + k]? = some (.ret .ended))
    (hw : (userRun self notifications messages acts).world.waiting = true) :
    UserEvent.shown (named self (systemMessage n.user.name leftText)) ∈
      (userRun self notifications messages acts).world.log := by
  rcases C120_announced self notifications messages acts k n .left hk he hend hw with h | ⟨h, _⟩
  · exact h
  · cases h

open UserExample in
/-- Bob joins and leaves. -/
example : (userRun alice [joins bob, leaves bob] []
      (began ++ does 3 6 ++ does 0 4 ++ does 4 7 ++ does 0 4)).world.log =
    [.shown ⟨true, alice, str "bob joined the chat"⟩, .shown ⟨true, alice, str "bob left the chat"⟩] := by
  rw [userRun_world]; decide +kernel

/-! ## C121 -/

/-- **C121** (full statement): if the news that a user joined arrive before the news that they left, and both have
been handled, the user is not in the list. -/
def C121_claim : Prop :=
  ∀ (self user : ChatUser) (acts acts' : List (Nat × UserEnv)) (f : Unit → UserProg UserLoop),
    (userRun self [some ⟨some .joined, user⟩, some ⟨some .left, user⟩] [] acts).threads[3]? ≠
      some (handleNotification (some ⟨some .joined, user⟩)) →
    (userRun self [some ⟨some .joined, user⟩, some ⟨some .left, user⟩] [] acts).threads[4]? = some (.op .arrive f) →
    (userRun self [some ⟨some .joined, user⟩, some ⟨some .left, user⟩] [] (acts ++ acts')).threads[3]? =
      some (.ret .ended) →
    (userRun self [some ⟨some .joined, user⟩, some ⟨some .left, user⟩] [] (acts ++ acts')).threads[4]? =
      some (.ret .ended) →
    (userRun self [some ⟨some .joined, user⟩, some ⟨some .left, user⟩] [] (acts ++ acts')).world.get user.name = none

open UserExample in
/-- C121 fails: while the program is still dialling a user who joins, they leave: nothing is found that could be
deleted, and afterwards the user is stored, for ever. -/
theorem C121_refuted : ¬ C121_claim := by
  intro h
  have h3 : ((userPoints [joins bob, leaves bob] []).run alice (began ++ does 3 1)).points[3]? =
      some (.dialling false bob) := by decide +kernel
  have h4 : ((userPoints [joins bob, leaves bob] []).run alice (began ++ does 3 1)).points[4]? =
      some (.arriving (leaves bob)) := by decide +kernel
  have h5 := h alice bob (began ++ does 3 1) (does 4 6 ++ does 0 4 ++ does 3 5)
    (fun _ => (UserPoint.leaveLock bob).prog alice)
    (by
      rw [userRun_points]
      simp only [UserState.loops, List.getElem?_map]
      rw [show (some ⟨some .joined, bob⟩ : Option ChatNotification) = joins bob from rfl,
        show (some ⟨some .left, bob⟩ : Option ChatNotification) = leaves bob from rfl, h3]
      exact (fun h => by cases h))
    (by
      rw [userRun_points]
      simp only [UserState.loops, List.getElem?_map]
      rw [show (some ⟨some .joined, bob⟩ : Option ChatNotification) = joins bob from rfl,
        show (some ⟨some .left, bob⟩ : Option ChatNotification) = leaves bob from rfl, h4]
      rfl)
    (ended_of_point (by decide +kernel)) (ended_of_point (by decide +kernel))
  rw [userRun_world] at h5
  exact absurd h5 (by decide +kernel)

/-- The handler of the news that this user left has not deleted them yet. -/
def UserPoint.removes (name : Bytes) : UserPoint → Prop
  | .arriving (some n) => n.event = some .left ∧ n.user.name = name
  | .leaveLock u | .leaveGet u | .leaveClose u _ | .leaveAnswer u | .leaveDelete u => u.name = name
  | .panicked => True
  | _ => False

/-- Nobody with this name joins any more, and they are gone or being removed by goroutine `i`. -/
def UserGone (name : Bytes) (i : Nat) (s : UserState) : Prop :=
  (∀ (j : Nat) (p : UserPoint), s.points[j]? = some p → p.joining ≠ some name) ∧
  ((∃ p, s.points[i]? = some p ∧ p.removes name) ∨ s.world.get name = none)

theorem joining_move {self : ChatUser} {i : Nat} {w w' : UserWorld} {p q : UserPoint} {name : Bytes}
    (hm : UserMove self i w p q w') (hq : q.joining = some name) : p.joining = some name := by
  cases hm <;> first | exact hq | (cases hq; done) | skip
  case arrive n _ => exact joining_point n name hq

theorem removes_move {self : ChatUser} {i : Nat} {w w' : UserWorld} {p q : UserPoint} {name : Bytes}
    (hm : UserMove self i w p q w') (hp : p.removes name) : q.removes name ∨ w'.get name = none := by
  cases hm <;> first | (exact absurd hp id) | exact .inl hp | exact .inl trivial | skip
  case arrive n _ =>
    left
    unfold ChatNotification.point
    rw [hp.1]
    exact hp.2
  case leaveDelete u =>
    right
    refine (lookup_removed _ _ _).trans (if_pos ?_)
    exact (show u.name = name from hp).symm

theorem gone_move {self : ChatUser} {i : Nat} {w w' : UserWorld} {p q : UserPoint} {name : Bytes}
    (hm : UserMove self i w p q w') (hp : p.joining ≠ some name) (hg : w.get name = none) : w'.get name = none := by
  cases hm <;> first | exact hg | skip
  case joinPut u conn =>
    refine (lookup_stored _ _ _ _).trans ?_
    rw [if_neg]
    · exact hg
    · rintro rfl
      exact hp rfl
  case leaveDelete u =>
    refine (lookup_removed _ _ _).trans ?_
    split
    · rfl
    · exact hg

theorem UserGone.move {self : ChatUser} {name : Bytes} {i : Nat} (s : UserState) (j : Nat) (p q : UserPoint)
    (w' : UserWorld) (h : UserGone name i s) (hp : s.points[j]? = some p) (hm : UserMove self j s.world p q w') :
    UserGone name i ⟨w', s.points.set j q⟩ := by
  obtain ⟨h1, h2⟩ := h
  have hlt := (List.getElem?_eq_some_iff.mp hp).1
  refine ⟨fun k p' hk hj => ?_, ?_⟩
  · by_cases hjk : j = k
    · subst hjk
      rw [List.getElem?_set_self hlt] at hk
      cases hk
      exact h1 j p hp (joining_move hm hj)
    · rw [List.getElem?_set_ne hjk] at hk
      exact h1 k p' hk hj
  · rcases h2 with ⟨p', hp', hr⟩ | h2
    · by_cases hji : j = i
      · subst hji
        rw [hp] at hp'
        cases hp'
        rcases removes_move hm hr with h3 | h3
        · exact .inl ⟨q, List.getElem?_set_self hlt, h3⟩
        · exact .inr h3
      · exact .inl ⟨p', by dsimp only; rw [List.getElem?_set_ne hji]; exact hp', hr⟩
    · exact .inr (gone_move hm (h1 j p hp) h2)

/-- **C121** (partial): if the handlers of all news that a user joined have ended before the news arrive that they
left, then, once these have been handled, the user is not in the list, and stays out of it.  (The full statement is
`C121_claim`.) -/
theorem C121_gone_partial (self : ChatUser) (notifications : List (Option ChatNotification))
    (messages : List (Option (ChatUser × Bytes))) (acts acts' : List (Nat × UserEnv)) (k : Nat) (n : ChatNotification)
    (hk : notifications[k]? = some (some n)) (he : n.event = some .left)
    (hjoined : ∀ j n', notifications[j]? = some (some n') → n'.event = some .joined → n'.user.name = n.user.name →
      (userRun self notifications messages acts).threads[3 + j]? = some (.ret .ended))
    (hbefore : (userRun self notifications messages acts).threads[3 + k]? = some (handleNotification (some n)))
    (hend : (userRun self notifications messages (acts ++ acts')).threads[3 + k]? = some (.ret .ended)) :
    (userRun self notifications messages (acts ++ acts')).world.get n.user.name = none := by
  have hpl := UserPlaced.run self notifications messages acts
  obtain ⟨p, hp, hp'⟩ := userRun_thread hbefore
  have hpa : p = .arriving (some n) := by
    obtain ⟨r, h1, h2⟩ := hpl.fits _ p hp
    rw [note_role hk] at h1
    cases h1
    cases p <;> first | (cases h2; done) | (cases hp'; done) | skip
    rw [show _ = some n from h2]
  subst hpa
  have h0 : UserGone n.user.name (3 + k) ((userPoints notifications messages).run self acts) := by
    refine ⟨fun j p hj hjo => ?_, .inl ⟨_, hp, he, rfl⟩⟩
    obtain ⟨h3, n', h4, h5, h6⟩ := joining_role hpl hj hjo
    have h7 := hjoined (j - 3) n' h4 h5 h6
    rw [show 3 + (j - 3) = j by omega] at h7
    obtain ⟨p', h8, h9⟩ := userRun_thread h7
    rw [hj] at h8
    cases h8
    cases p <;> first | (cases hjo; done) | (cases h9; done)
  have h1 := UserState.run_induct self UserGone.move acts' h0
  rw [← UserState.run_append] at h1
  obtain ⟨q, hq, hq'⟩ := userRun_thread hend
  rw [userRun_world]
  rcases h1.2 with ⟨q', h2, h3⟩ | h2
  · exfalso
    rw [hq] at h2
    cases h2
    cases q <;> first | (exact h3) | (cases hq'; done)
  · exact h2

open UserExample in
/-- Bob joins and leaves: the list is empty. -/
example : (userRun alice [joins bob, leaves bob] []
      (began ++ does 3 6 ++ does 0 4 ++ does 4 7)).world.users = [] := by
  rw [userRun_world]; decide +kernel

end Goe2ee
