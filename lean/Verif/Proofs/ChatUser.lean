import Verif.Model.ChatUser

/-!
# The program points of a chat user

Each goroutine is at one of finitely many kinds of points of its program.  `UserPoint.prog` is the rest of the
program at a point, and a step of the process takes points to points (`steps_points`).  The points of the handler of
a message remember the message they passed on.
-/

set_option autoImplicit false

namespace Goe2ee

/-- Where a goroutine is. -/
inductive UserPoint where
  | done
  | panicked
  -- the printer
  | printTop
  | printReady
  | printReceive
  | printLine (m : ChatMessage)
  -- the chatting goroutine
  | chatTop
  | chatTick
  | chatRLock
  | chatLen
  | chatRUnlock (nobody : Bool)
  | chatGenerate
  | tellRLock (m : ChatMessage)
  | tellRange (m : ChatMessage)
  | tellEach (m : ChatMessage) (us : List UserConnection)
  | tellSend (m : ChatMessage)
  -- main
  | mainRegister
  | mainStart
  | mainWait
  | mainStop
  | mainUnregister
  | mainShutdown
  | mainShut
  | mainClose
  | mainExit
  -- a notification
  | arriving (body : Option ChatNotification)
  | answering (status : Nat)
  | dialling (udp : Bool) (u : ChatUser)
  | refusing (u : ChatUser)
  | joinLock (u : ChatUser) (conn : Option Nat)
  | joinPut (u : ChatUser) (conn : Option Nat)
  | joinUnlock (u : ChatUser)
  | telling (m : ChatMessage)
  | leaveLock (u : ChatUser)
  | leaveGet (u : ChatUser)
  | leaveClose (u : ChatUser) (c : Nat)
  | leaveAnswer (u : ChatUser)
  | leaveDelete (u : ChatUser)
  | leaveUnlock (u : ChatUser)
  -- a message
  | receiving (body : Option (ChatUser × Bytes))
  | passing (m : ChatMessage)
  | serving (ok : Bool) (sent : Option ChatMessage)
  | finished (sent : Option ChatMessage)
  deriving DecidableEq, Repr

/-- The rest of the program. -/
def UserPoint.prog (self : ChatUser) : UserPoint → UserProg UserLoop
  | .done => .ret .ended
  | .panicked => .panic "nil pointer dereference"
  | .printTop => .ret .printing
  | .printReady => printingBody self
  | .printReceive => .op .receive fun (m : Option ChatMessage) =>
    match m with
    | none => .ret .ended
    | some m => .op (.print (named self m)) fun _ => .ret .printing
  | .printLine m => .op (.print m) fun _ => .ret .printing
  | .chatTop => .ret .chatting
  | .chatTick => chattingBody self
  | .chatRLock => .op .rlock fun _ => .op .rangeUsers fun (us : List UserConnection) => .op .runlock fun _ =>
    if us.isEmpty then .ret .chatting
    else .op .generate fun (content : Option Bytes) =>
      match content with
      | none => .ret .chatting
      | some content => tellUsers ⟨false, self, content⟩
  | .chatLen => .op .rangeUsers fun (us : List UserConnection) => .op .runlock fun _ =>
    if us.isEmpty then .ret .chatting
    else .op .generate fun (content : Option Bytes) =>
      match content with
      | none => .ret .chatting
      | some content => tellUsers ⟨false, self, content⟩
  | .chatRUnlock nobody => .op .runlock fun _ =>
    if nobody then .ret .chatting
    else .op .generate fun (content : Option Bytes) =>
      match content with
      | none => .ret .chatting
      | some content => tellUsers ⟨false, self, content⟩
  | .chatGenerate => .op .generate fun (content : Option Bytes) =>
      match content with
      | none => .ret .chatting
      | some content => tellUsers ⟨false, self, content⟩
  | .tellRLock m => tellUsers m
  | .tellRange m => .op .rangeUsers fun (us : List UserConnection) =>
    encodeAll m us (.op .runlock fun _ => .op (.send m) fun _ => .ret .chatting)
  | .tellEach m us => encodeAll m us (.op .runlock fun _ => .op (.send m) fun _ => .ret .chatting)
  | .tellSend m => .op (.send m) fun _ => .ret .chatting
  | .mainRegister => userMain
  | .mainStart => .op .startChatting fun _ => .op .waitSignal fun _ => .op .closeStop fun _ =>
    .op .unregister fun _ => userStop
  | .mainWait => .op .waitSignal fun _ => .op .closeStop fun _ => .op .unregister fun _ => userStop
  | .mainStop => .op .closeStop fun _ => .op .unregister fun _ => userStop
  | .mainUnregister => .op .unregister fun _ => userStop
  | .mainShutdown => userStop
  | .mainShut => .op .shutServer fun _ => .op .waitServer fun _ => .op .exit fun _ => .ret .ended
  | .mainClose => .op .waitServer fun _ => .op .exit fun _ => .ret .ended
  | .mainExit => .op .exit fun _ => .ret .ended
  | .arriving body => handleNotification body
  | .answering status => .op (.respond status) fun _ => .ret .ended
  | .dialling udp u => dialUser udp u
  | .refusing u => .op (.respond 500) fun _ => storeUser u none
  | .joinLock u conn => storeUser u conn
  | .joinPut u conn => .op (.putUser u.name ⟨u, conn⟩) fun _ => .op .unlock fun _ =>
    .op (.send (systemMessage u.name joinedText)) fun _ => .ret .ended
  | .joinUnlock u => .op .unlock fun _ => .op (.send (systemMessage u.name joinedText)) fun _ => .ret .ended
  | .telling m => .op (.send m) fun _ => .ret .ended
  | .leaveLock u => userLeft u
  | .leaveGet u => .op (.getUser u.name) fun (v : Option UserConnection) =>
    match v with
    | none => forgetUser u
    | some ⟨_, none⟩ => .panic "nil pointer dereference"
    | some ⟨_, some c⟩ => .op (.closeConn c) fun (ok : Bool) =>
      if ok then forgetUser u else .op (.respond 500) fun _ => forgetUser u
  | .leaveClose u c => .op (.closeConn c) fun (ok : Bool) =>
      if ok then forgetUser u else .op (.respond 500) fun _ => forgetUser u
  | .leaveAnswer u => .op (.respond 500) fun _ => forgetUser u
  | .leaveDelete u => forgetUser u
  | .leaveUnlock u => .op .unlock fun _ => .op (.send (systemMessage u.name leftText)) fun _ => .ret .ended
  | .receiving body => handleMessage body
  | .passing m => .op (.send m) fun _ => .op (.served true) fun _ => .ret .ended
  | .serving ok _ => .op (.served ok) fun _ => .ret .ended
  | .finished _ => .ret .ended

/-- The next effect at a point and the points after it. -/
inductive UserNext where
  /-- no effect -/
  | goes (p : UserPoint)
  | stuck
  | does (o : UserOp) (k : o.Ret → UserPoint)

def UserPoint.next (self : ChatUser) : UserPoint → UserNext
  | .done => .goes .done
  | .panicked => .stuck
  | .printTop => .goes .printReady
  | .printReady => .does .ready fun _ => .printReceive
  | .printReceive => .does .receive fun (m : Option ChatMessage) =>
    match m with
    | none => .done
    | some m => .printLine (named self m)
  | .printLine m => .does (.print m) fun _ => .printTop
  | .chatTop => .goes .chatTick
  | .chatTick => .does .tick fun (ticked : Bool) => if ticked then .chatRLock else .done
  | .chatRLock => .does .rlock fun _ => .chatLen
  | .chatLen => .does .rangeUsers fun (us : List UserConnection) => .chatRUnlock us.isEmpty
  | .chatRUnlock nobody => .does .runlock fun _ => if nobody then .chatTop else .chatGenerate
  | .chatGenerate => .does .generate fun (content : Option Bytes) =>
    match content with
    | none => .chatTop
    | some content => .tellRLock ⟨false, self, content⟩
  | .tellRLock m => .does .rlock fun _ => .tellRange m
  | .tellRange m => .does .rangeUsers fun (us : List UserConnection) => .tellEach m us
  | .tellEach m [] => .does .runlock fun _ => .tellSend m
  | .tellEach _ (⟨_, none⟩ :: _) => .stuck
  | .tellEach m (⟨_, some c⟩ :: us) => .does (.encode c m) fun _ => .tellEach m us
  | .tellSend m => .does (.send m) fun _ => .chatTop
  | .mainRegister => .does .register fun (ok : Bool) => if ok then .mainStart else .mainShutdown
  | .mainStart => .does .startChatting fun _ => .mainWait
  | .mainWait => .does .waitSignal fun _ => .mainStop
  | .mainStop => .does .closeStop fun _ => .mainUnregister
  | .mainUnregister => .does .unregister fun _ => .mainShutdown
  | .mainShutdown => .does .shutdown fun _ => .mainShut
  | .mainShut => .does .shutServer fun _ => .mainClose
  | .mainClose => .does .waitServer fun _ => .mainExit
  | .mainExit => .does .exit fun _ => .done
  | .arriving body => .does .arrive fun _ =>
    match body with
    | none => .answering 400
    | some n =>
      match n.event with
      | none => .done
      | some .joined =>
        if n.user.network = str "tcp" then .dialling false n.user
        else if n.user.network = str "udp" then .dialling true n.user
        else .refusing n.user
      | some .left => .leaveLock n.user
  | .answering status => .does (.respond status) fun _ => .done
  | .dialling udp u => .does (.dial udp u.host u.serverPort) fun (conn : Option Nat) =>
    match conn with
    | none => .answering 500
    | some c => .joinLock u (some c)
  | .refusing u => .does (.respond 500) fun _ => .joinLock u none
  | .joinLock u conn => .does .lock fun _ => .joinPut u conn
  | .joinPut u conn => .does (.putUser u.name ⟨u, conn⟩) fun _ => .joinUnlock u
  | .joinUnlock u => .does .unlock fun _ => .telling (systemMessage u.name joinedText)
  | .telling m => .does (.send m) fun _ => .done
  | .leaveLock u => .does .lock fun _ => .leaveGet u
  | .leaveGet u => .does (.getUser u.name) fun (v : Option UserConnection) =>
    match v with
    | none => .leaveDelete u
    | some ⟨_, none⟩ => .panicked
    | some ⟨_, some c⟩ => .leaveClose u c
  | .leaveClose u c => .does (.closeConn c) fun (ok : Bool) => if ok then .leaveDelete u else .leaveAnswer u
  | .leaveAnswer u => .does (.respond 500) fun _ => .leaveDelete u
  | .leaveDelete u => .does (.deleteUser u.name) fun _ => .leaveUnlock u
  | .leaveUnlock u => .does .unlock fun _ => .telling (systemMessage u.name leftText)
  | .receiving body => .does .serve fun _ =>
    match body with
    | none => .serving false none
    | some (sender, content) => .passing ⟨false, sender, content⟩
  | .passing m => .does (.send m) fun _ => .serving true (some m)
  | .serving ok sent => .does (.served ok) fun _ => .finished sent
  | .finished sent => .goes (.finished sent)

/-- What `next` says about a program. -/
def UserNext.fits (self : ChatUser) (p : UserProg UserLoop) : UserNext → Prop
  | .goes q => ∃ l, p = .ret l ∧ userBody self l = q.prog self
  | .stuck => ∃ m, p = .panic m
  | .does o k => ∃ f, p = .op o f ∧ ∀ r, f r = (k r).prog self

theorem UserPoint.next_fits (self : ChatUser) (p : UserPoint) : (p.next self).fits self (p.prog self) := by
  cases p with
  | done => exact ⟨_, rfl, rfl⟩
  | panicked => exact ⟨_, rfl⟩
  | printTop => exact ⟨_, rfl, rfl⟩
  | chatTop => exact ⟨_, rfl, rfl⟩
  | finished => exact ⟨_, rfl, rfl⟩
  | printReceive => exact ⟨_, rfl, fun r => by cases r <;> rfl⟩
  | chatTick => exact ⟨_, rfl, fun (r : Bool) => by cases r <;> rfl⟩
  | chatLen => exact ⟨_, rfl, fun _ => rfl⟩
  | chatRUnlock b => exact ⟨_, rfl, fun _ => by cases b <;> rfl⟩
  | chatGenerate => exact ⟨_, rfl, fun r => by cases r <;> rfl⟩
  | tellEach m us =>
    match us with
    | [] => exact ⟨_, rfl, fun _ => rfl⟩
    | ⟨_, none⟩ :: _ => exact ⟨_, rfl⟩
    | ⟨_, some c⟩ :: _ => exact ⟨_, rfl, fun _ => rfl⟩
  | mainRegister => exact ⟨_, rfl, fun (r : Bool) => by cases r <;> rfl⟩
  | arriving body =>
    refine ⟨_, rfl, fun _ => ?_⟩
    match body with
    | none => rfl
    | some ⟨none, _⟩ => rfl
    | some ⟨some .left, _⟩ => rfl
    | some ⟨some .joined, u⟩ =>
      show userJoined u = UserPoint.prog self (if _ then _ else if _ then _ else _)
      unfold userJoined
      split
      · rfl
      · split <;> rfl
  | dialling udp u => exact ⟨_, rfl, fun r => by cases r <;> rfl⟩
  | leaveGet u =>
    refine ⟨_, rfl, fun (r : Option UserConnection) => ?_⟩
    match r with
    | none => rfl
    | some ⟨_, none⟩ => rfl
    | some ⟨_, some c⟩ => rfl
  | leaveClose u c => exact ⟨_, rfl, fun (r : Bool) => by cases r <;> rfl⟩
  | receiving body =>
    refine ⟨_, rfl, fun _ => ?_⟩
    match body with
    | none => rfl
    | some (_, _) => rfl
  | _ => exact ⟨_, rfl, fun _ => rfl⟩

/-- The process, with points for programs. -/
structure UserState where
  world : UserWorld
  points : List UserPoint
  deriving DecidableEq, Repr

def UserState.step (self : ChatUser) (s : UserState) (act : Nat × UserEnv) : UserState :=
  match s.points[act.1]? with
  | none => s
  | some p =>
    match p.next self with
    | .goes q => { s with points := s.points.set act.1 q }
    | .stuck => s
    | .does o k =>
      match userExec act.2 act.1 o s.world with
      | none => s
      | some r => { world := r.2, points := s.points.set act.1 (k r.1) }

def UserState.run (self : ChatUser) (s : UserState) (acts : List (Nat × UserEnv)) : UserState :=
  acts.foldl (UserState.step self) s

def UserState.loops (self : ChatUser) (s : UserState) : Loops UserSig UserLoop UserWorld :=
  ⟨s.world, s.points.map (UserPoint.prog self)⟩

theorem steps_points (self : ChatUser) (s : UserState) (act : Nat × UserEnv) :
    (s.loops self).step (userBody self) userExec act = (s.step self act).loops self := by
  obtain ⟨i, e⟩ := act
  unfold Loops.step UserState.step
  have hi : (s.loops self).threads[i]? = s.points[i]?.map (UserPoint.prog self) := by
    simp [UserState.loops]
  rw [hi]
  cases hp : s.points[i]? with
  | none => rfl
  | some p =>
    have hf := p.next_fits self
    dsimp only [Option.map_some]
    cases hn : p.next self with
    | goes q =>
      rw [hn] at hf
      obtain ⟨l, h1, h2⟩ := hf
      rw [h1]
      simp [UserState.loops, List.map_set, h2]
    | stuck =>
      rw [hn] at hf
      obtain ⟨m, h1⟩ := hf
      rw [h1]
    | does o k =>
      rw [hn] at hf
      obtain ⟨f, h1, h2⟩ := hf
      rw [h1]
      have hw : (s.loops self).world = s.world := rfl
      dsimp only
      rw [hw]
      cases userExec e i o s.world with
      | none => rfl
      | some r => simp [UserState.loops, List.map_set, h2]

theorem runs_points (self : ChatUser) (acts : List (Nat × UserEnv)) (s : UserState) :
    (s.loops self).run (userBody self) userExec acts = (s.run self acts).loops self := by
  induction acts generalizing s with
  | nil => rfl
  | cons act acts ih =>
    show Loops.run _ _ (Loops.step _ _ _ _) acts = _
    rw [steps_points, ih]
    rfl

/-- The beginning, with points for programs. -/
def userPoints (notifications : List (Option ChatNotification)) (messages : List (Option (ChatUser × Bytes))) :
    UserState :=
  { world := {}
    points := [.printTop, .chatTop, .mainRegister] ++ notifications.map .arriving ++ messages.map .receiving }

theorem userRun_points (self : ChatUser) (notifications : List (Option ChatNotification))
    (messages : List (Option (ChatUser × Bytes))) (acts : List (Nat × UserEnv)) :
    userRun self notifications messages acts =
      ((userPoints notifications messages).run self acts).loops self := by
  rw [← runs_points]
  unfold userRun
  congr 1
  simp [userStart, userPoints, UserState.loops, UserPoint.prog, Function.comp_def]

/-! ## Moves -/

/-- Where a notification leads. -/
def ChatNotification.point (n : ChatNotification) : UserPoint :=
  match n.event with
  | none => .done
  | some .joined =>
    if n.user.network = str "tcp" then .dialling false n.user
    else if n.user.network = str "udp" then .dialling true n.user
    else .refusing n.user
  | some .left => .leaveLock n.user

/-- The moves of goroutine `i` in the world `w`. -/
inductive UserMove (self : ChatUser) (i : Nat) (w : UserWorld) : UserPoint → UserPoint → UserWorld → Prop
  | done : UserMove self i w .done .done w
  | finished (m : Option ChatMessage) : UserMove self i w (.finished m) (.finished m) w
  | printTop : UserMove self i w .printTop .printReady w
  | chatTop : UserMove self i w .chatTop .chatTick w
  | ready : UserMove self i w .printReady .printReceive { w with waiting := true }
  | receive (m : ChatMessage) : w.slot = some m →
    UserMove self i w .printReceive (.printLine (named self m)) { w with slot := none }
  | receiveStop : w.slot = none → w.stop = true →
    UserMove self i w .printReceive .done { w with waiting := false }
  | print (m : ChatMessage) : UserMove self i w (.printLine m) .printTop { w with log := w.log ++ [.shown m] }
  | tick : w.started = true → UserMove self i w .chatTick .chatRLock w
  | tickStop : w.started = true → w.stop = true → UserMove self i w .chatTick .done w
  | rlock : w.writer = false → UserMove self i w .chatRLock .chatLen { w with readers := w.readers + 1 }
  | len (order : List Bytes) : UserMove self i w .chatLen (.chatRUnlock (w.range order).isEmpty) w
  | runlockTop : UserMove self i w (.chatRUnlock true) .chatTop { w with readers := w.readers - 1 }
  | runlock : UserMove self i w (.chatRUnlock false) .chatGenerate { w with readers := w.readers - 1 }
  | generate (content : Bytes) : UserMove self i w .chatGenerate (.tellRLock ⟨false, self, content⟩) w
  | generateFail : UserMove self i w .chatGenerate .chatTop w
  | tellRLock (m : ChatMessage) : w.writer = false →
    UserMove self i w (.tellRLock m) (.tellRange m) { w with readers := w.readers + 1 }
  | tellRange (m : ChatMessage) (order : List Bytes) : UserMove self i w (.tellRange m) (.tellEach m (w.range order)) w
  | tellRUnlock (m : ChatMessage) : UserMove self i w (.tellEach m []) (.tellSend m) { w with readers := w.readers - 1 }
  | encode (m : ChatMessage) (u : ChatUser) (c : Nat) (us : List UserConnection) (ok : Bool) :
    (ok = true → w.conns[c]? = some true) →
    UserMove self i w (.tellEach m (⟨u, some c⟩ :: us)) (.tellEach m us) { w with log := w.log ++ [.wrote c m ok] }
  | tellSend (m : ChatMessage) : w.waiting = true →
    UserMove self i w (.tellSend m) .chatTop { w with waiting := false, slot := some m }
  | register : UserMove self i w .mainRegister .mainStart w
  | registerFail : UserMove self i w .mainRegister .mainShutdown w
  | start : UserMove self i w .mainStart .mainWait { w with started := true }
  | signal : UserMove self i w .mainWait .mainStop w
  | stop : UserMove self i w .mainStop .mainUnregister { w with stop := true }
  | unregister : UserMove self i w .mainUnregister .mainShutdown w
  | shutdown : UserMove self i w .mainShutdown .mainShut { w with notifyShut := true }
  | shut : UserMove self i w .mainShut .mainClose { w with serverShut := true }
  | close : w.active = 0 → UserMove self i w .mainClose .mainExit w
  | exit : UserMove self i w .mainExit .done { w with exited := true }
  | arriveBad : w.notifyShut = false → UserMove self i w (.arriving none) (.answering 400) w
  | arrive (n : ChatNotification) : w.notifyShut = false → UserMove self i w (.arriving (some n)) n.point w
  | answer (status : Nat) :
    UserMove self i w (.answering status) .done { w with log := w.log ++ [.responded i status] }
  | dial (udp : Bool) (u : ChatUser) :
    UserMove self i w (.dialling udp u) (.joinLock u (some w.conns.length)) { w with conns := w.conns ++ [true] }
  | dialFail (udp : Bool) (u : ChatUser) : UserMove self i w (.dialling udp u) (.answering 500) w
  | refuse (u : ChatUser) :
    UserMove self i w (.refusing u) (.joinLock u none) { w with log := w.log ++ [.responded i 500] }
  | joinLock (u : ChatUser) (conn : Option Nat) : w.writer = false → w.readers = 0 →
    UserMove self i w (.joinLock u conn) (.joinPut u conn) { w with writer := true }
  | joinPut (u : ChatUser) (conn : Option Nat) :
    UserMove self i w (.joinPut u conn) (.joinUnlock u)
      { w with users := (u.name, ⟨u, conn⟩) :: w.users.filter (·.1 ≠ u.name) }
  | joinUnlock (u : ChatUser) :
    UserMove self i w (.joinUnlock u) (.telling (systemMessage u.name joinedText)) { w with writer := false }
  | telling (m : ChatMessage) : w.waiting = true →
    UserMove self i w (.telling m) .done { w with waiting := false, slot := some m }
  | leaveLock (u : ChatUser) : w.writer = false → w.readers = 0 →
    UserMove self i w (.leaveLock u) (.leaveGet u) { w with writer := true }
  | leaveNobody (u : ChatUser) : w.get u.name = none → UserMove self i w (.leaveGet u) (.leaveDelete u) w
  | leavePanic (u v : ChatUser) : w.get u.name = some ⟨v, none⟩ → UserMove self i w (.leaveGet u) .panicked w
  | leaveGet (u v : ChatUser) (c : Nat) : w.get u.name = some ⟨v, some c⟩ →
    UserMove self i w (.leaveGet u) (.leaveClose u c) w
  | leaveClose (u : ChatUser) (c : Nat) :
    UserMove self i w (.leaveClose u c) (.leaveDelete u) { w with conns := w.conns.set c false }
  | leaveCloseFail (u : ChatUser) (c : Nat) :
    UserMove self i w (.leaveClose u c) (.leaveAnswer u) { w with conns := w.conns.set c false }
  | leaveAnswer (u : ChatUser) :
    UserMove self i w (.leaveAnswer u) (.leaveDelete u) { w with log := w.log ++ [.responded i 500] }
  | leaveDelete (u : ChatUser) :
    UserMove self i w (.leaveDelete u) (.leaveUnlock u) { w with users := w.users.filter (·.1 ≠ u.name) }
  | leaveUnlock (u : ChatUser) :
    UserMove self i w (.leaveUnlock u) (.telling (systemMessage u.name leftText)) { w with writer := false }
  | serveBad : w.serverShut = false →
    UserMove self i w (.receiving none) (.serving false none) { w with active := w.active + 1 }
  | serve (sender : ChatUser) (content : Bytes) : w.serverShut = false →
    UserMove self i w (.receiving (some (sender, content))) (.passing ⟨false, sender, content⟩)
      { w with active := w.active + 1 }
  | pass (m : ChatMessage) : w.waiting = true →
    UserMove self i w (.passing m) (.serving true (some m)) { w with waiting := false, slot := some m }
  | served (ok : Bool) (m : Option ChatMessage) :
    UserMove self i w (.serving ok m) (.finished m)
      { w with active := w.active - 1, log := w.log ++ [.served i ok] }

/-- A step is a move or nothing. -/
theorem UserState.step_move (self : ChatUser) (s : UserState) (act : Nat × UserEnv) :
    s.step self act = s ∨ ∃ p q w', s.points[act.1]? = some p ∧ UserMove self act.1 s.world p q w' ∧
      s.step self act = ⟨w', s.points.set act.1 q⟩ := by
  obtain ⟨i, e⟩ := act
  unfold UserState.step
  dsimp only
  cases hp : s.points[i]? with
  | none => exact .inl rfl
  | some p =>
    dsimp only
    cases hn : p.next self with
    | stuck => exact .inl rfl
    | goes q =>
      refine .inr ⟨p, q, s.world, rfl, ?_, rfl⟩
      cases p <;> first | cases hn | skip
      all_goals first | constructor | skip
      rename_i m us
      match us with
      | [] => cases hn
      | ⟨_, none⟩ :: _ => cases hn
      | ⟨_, some _⟩ :: _ => cases hn
    | does o k =>
      dsimp only
      cases he : userExec e i o s.world with
      | none => exact .inl rfl
      | some r =>
        refine .inr ⟨p, k r.1, r.2, rfl, ?_, rfl⟩
        have hx : ¬ s.world.exited = true := fun h => by simp [userExec, h] at he
        unfold userExec at he
        rw [if_neg hx] at he
        cases p <;> first | (cases hn; done) | skip
        case tellEach m us =>
          match us with
          | [] => cases hn; cases he; exact .tellRUnlock _
          | ⟨_, none⟩ :: _ => cases hn
          | ⟨_, some c⟩ :: _ =>
            cases hn
            dsimp only at he
            split at he
            · cases he
            · cases he
              refine UserMove.encode _ _ _ _ _ ?_
              intro h
              simp only [Bool.and_eq_true] at h
              have h2 := h.2
              rw [List.getD_eq_getElem?_getD] at h2
              cases hc : s.world.conns[c]? with
              | none => simp [hc] at h2
              | some b => simp [hc] at h2; rw [h2]
        case printReceive =>
          cases hn
          dsimp only at he
          split at he
          · rename_i m hm; cases he; exact .receive _ hm
          · rename_i hm
            split at he
            · rename_i hs; cases he; exact .receiveStop hm hs
            · cases he
        case chatTick =>
          cases hn
          dsimp only at he
          split at he
          · rename_i hs
            split at he
            · cases he; exact .tick hs
            · split at he
              · rename_i ht; cases he; exact .tickStop hs ht
              · cases he
          · cases he
        case chatRUnlock b => cases hn; cases he; cases b <;> constructor
        case chatGenerate => cases hn; cases he; cases e.ok <;> constructor
        case mainRegister => cases hn; cases he; cases h : e.ok <;> constructor
        case leaveClose u c => cases hn; cases he; cases h : e.ok <;> constructor
        case leaveGet u =>
          cases hn; cases he
          cases hg : s.world.get u.name with
          | none => exact .leaveNobody _ hg
          | some v =>
            match v, hg with
            | ⟨_, none⟩, hg => exact .leavePanic _ _ hg
            | ⟨_, some c⟩, hg => exact .leaveGet _ _ _ hg
        case dialling udp u =>
          cases hn
          dsimp only at he
          split at he <;> cases he <;> constructor
        case arriving body =>
          cases hn
          dsimp only at he
          split at he
          · cases he
          · rename_i h
            cases he
            cases body with
            | none => exact .arriveBad (by simpa using h)
            | some n => exact .arrive n (by simpa using h)
        case receiving body =>
          cases hn
          dsimp only at he
          split at he
          · cases he
          · rename_i h
            cases he
            match body with
            | none => exact .serveBad (by simpa using h)
            | some (_, _) => exact .serve _ _ (by simpa using h)
        case chatRLock | tellRLock | joinLock | leaveLock | tellSend | telling | passing | mainClose | mainWait =>
          cases hn
          dsimp only at he
          split at he
          all_goals first | (cases he; done) | skip
          all_goals rename_i h; cases he; constructor
          all_goals simp_all
        all_goals cases hn; cases he; constructor

end Goe2ee
