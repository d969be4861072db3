import Verif.Model.Loops
import Verif.Model.ChatRegistry

/-!
# The user of the chat example (`examples/chat/cmd/user/main.go`, `examples/chat/message.go`)

A user is a process with these goroutines: the printer, the one that chats, `main`, one per notification that
arrives from the registry (`net/http` runs `handleNotification`) and one per message that arrives from another user
(the goe2ee server calls `handleMessage`).  They share the map of the other users, its mutex, the unbuffered channel
`incoming` and the channel `stop`.  The scheduler may switch goroutines between any two effects, and an effect that
is impossible at the moment blocks its goroutine.

Simplifications:
* the process is modelled from main.go:131 on: the servers are listening;
* JSON is not modelled: a body is decoded or does not decode.  `System` is not decoded (message.go:27);
* dialling, closing and writing to a connection are one effect each, and so are the requests to the registry and to
  the service that makes up messages; the environment decides their results, and a write may block;
* a waiting `Lock` does not keep out new readers (`sync.RWMutex` does that): more schedules;
* of the goe2ee server only what `Server.Close` does to the handlers is modelled: it refuses further messages and
  waits for the handlers that are running;
* a goroutine that panicked does not move any more.  If it is a handler of a notification that is all (`net/http`
  recovers the panic); otherwise the process is dead.
-/

set_option autoImplicit false

namespace Goe2ee

/-- message.go:26-30 -/
structure ChatMessage where
  system : Bool := false
  sender : ChatUser
  content : Bytes
  deriving DecidableEq, Repr

/-- The zero value of `User`. -/
def ChatUser.none : ChatUser := ⟨[], [], [], 0, 0⟩

/-- main.go:307-310.  A connection is a number; none is nil. -/
structure UserConnection where
  user : ChatUser
  conn : Option Nat
  deriving DecidableEq, Repr

/-- notification.go:23-26; the event is none if it is an unknown string. -/
structure ChatNotification where
  event : Option ChatEvent
  user : ChatUser
  deriving DecidableEq, Repr

/-- Effects of a chat user. -/
inductive UserOp where
  /-- `otherUsersMutex.Lock()` etc. -/
  | lock
  | unlock
  | rlock
  | runlock
  /-- `s.otherUsers[name]`, the assignment to it, `delete(s.otherUsers, name)` -/
  | getUser (name : Bytes)
  | putUser (name : Bytes) (u : UserConnection)
  | deleteUser (name : Bytes)
  /-- `range s.otherUsers` and `len(s.otherUsers)` -/
  | rangeUsers
  /-- `goe2ee.DialTCP` or `goe2ee.DialUDP`: none if it fails -/
  | dial (udp : Bool) (host : Bytes) (port : Int)
  /-- `conn.Close()`: did it succeed? -/
  | closeConn (c : Nat)
  /-- `json.NewEncoder(conn).Encode(message)`, one write: did it succeed? -/
  | encode (c : Nat) (m : ChatMessage)
  /-- `chat.GenerateMessage`: none if it fails -/
  | generate
  /-- `s.incoming <- m` -/
  | send (m : ChatMessage)
  /-- the printer comes to its `select`, and leaves it: with a message, or because `stop` is closed -/
  | ready
  | receive
  /-- `fmt.Println(message)` -/
  | print (m : ChatMessage)
  /-- the `select` of main.go:262-267: true for the ticker -/
  | tick
  /-- a notification arrives -/
  | arrive
  /-- `http.Error(w, …, status)` -/
  | respond (status : Nat)
  /-- a message arrives; the handler returns: with the answer "ok" or with an error -/
  | serve
  | served (ok : Bool)
  /-- `registry.Register`: did it succeed? -/
  | register
  /-- `go service.startChatting()` -/
  | startChatting
  /-- `<-sigChan` -/
  | waitSignal
  /-- `close(service.stop)` -/
  | closeStop
  /-- `registry.Unregister` -/
  | unregister
  /-- `notifyServer.Shutdown`: returns after 10 seconds at the latest -/
  | shutdown
  /-- `server.Close()`: it refuses further messages, it waits for the handlers -/
  | shutServer
  | waitServer
  /-- `main` returns -/
  | exit
  deriving DecidableEq, Repr

def UserOp.Ret : UserOp → Type
  | .getUser _ => Option UserConnection
  | .rangeUsers => List UserConnection
  | .dial _ _ _ => Option Nat
  | .closeConn _ => Bool
  | .encode _ _ => Bool
  | .generate => Option Bytes
  | .receive => Option ChatMessage
  | .tick => Bool
  | .register => Bool
  | _ => Unit

abbrev UserSig : Sig := ⟨UserOp, UserOp.Ret⟩
abbrev UserProg (α : Type) := Prog UserSig α

/-- The loops of the process, and the end of a goroutine. -/
inductive UserLoop where
  | printing
  | chatting
  | ended
  deriving DecidableEq, Repr

/-- The bytes of " joined the chat" and " left the chat" (main.go:238, 252). -/
def joinedText : Bytes := str " joined the chat"
def leftText : Bytes := str " left the chat"

/-- main.go:236-239, 250-253 -/
def systemMessage (name text : Bytes) : ChatMessage := ⟨true, .none, name ++ text⟩

/-- main.go:229-239 -/
def storeUser (user : ChatUser) (conn : Option Nat) : UserProg UserLoop :=
  .op .lock fun _ =>
  .op (.putUser user.name ⟨user, conn⟩) fun _ =>
  .op .unlock fun _ =>
  .op (.send (systemMessage user.name joinedText)) fun _ => .ret .ended

/-- main.go:193-224: one of the two dials. -/
def dialUser (udp : Bool) (user : ChatUser) : UserProg UserLoop :=
  .op (.dial udp user.host user.serverPort) fun (conn : Option Nat) =>
  match conn with
  | none => .op (.respond 500) fun _ => .ret .ended
  | some c => storeUser user (some c)

/-- main.go:188-239.  There is no `return` after the answer for an invalid network (main.go:225-227): `conn` is
nil. -/
def userJoined (user : ChatUser) : UserProg UserLoop :=
  if user.network = str "tcp" then dialUser false user
  else if user.network = str "udp" then dialUser true user
  else .op (.respond 500) fun _ => storeUser user none

/-- main.go:247-253 -/
def forgetUser (user : ChatUser) : UserProg UserLoop :=
  .op (.deleteUser user.name) fun _ =>
  .op .unlock fun _ =>
  .op (.send (systemMessage user.name leftText)) fun _ => .ret .ended

/-- main.go:240-253.  Closing a nil connection panics. -/
def userLeft (user : ChatUser) : UserProg UserLoop :=
  .op .lock fun _ =>
  .op (.getUser user.name) fun (u : Option UserConnection) =>
  match u with
  | none => forgetUser user
  | some ⟨_, none⟩ => .panic "nil pointer dereference"
  | some ⟨_, some c⟩ => .op (.closeConn c) fun (ok : Bool) =>
    if ok then forgetUser user else .op (.respond 500) fun _ => forgetUser user

/-- main.go:181-255 -/
def handleNotification (body : Option ChatNotification) : UserProg UserLoop :=
  .op .arrive fun _ =>
  match body with
  | none => .op (.respond 400) fun _ => .ret .ended
  | some n =>
    match n.event with
    | some .joined => userJoined n.user
    | some .left => userLeft n.user
    | none => .ret .ended

/-- main.go:171-179; the body gives the sender and the content. -/
def handleMessage (body : Option (ChatUser × Bytes)) : UserProg UserLoop :=
  .op .serve fun _ =>
  match body with
  | none => .op (.served false) fun _ => .ret .ended
  | some (sender, content) =>
    .op (.send ⟨false, sender, content⟩) fun _ =>
    .op (.served true) fun _ => .ret .ended

/-- main.go:282-286.  Encoding to a nil connection panics. -/
def encodeAll (m : ChatMessage) : List UserConnection → UserProg UserLoop → UserProg UserLoop
  | [], next => next
  | u :: us, next =>
    match u.conn with
    | none => .panic "nil pointer dereference"
    | some c => .op (.encode c m) fun _ => encodeAll m us next

/-- main.go:281-289 -/
def tellUsers (m : ChatMessage) : UserProg UserLoop :=
  .op .rlock fun _ =>
  .op .rangeUsers fun (us : List UserConnection) =>
  encodeAll m us (.op .runlock fun _ => .op (.send m) fun _ => .ret .chatting)

/-- One round of main.go:261-290. -/
def chattingBody (self : ChatUser) : UserProg UserLoop :=
  .op .tick fun (ticked : Bool) =>
  if ticked then
    .op .rlock fun _ =>
    .op .rangeUsers fun (us : List UserConnection) =>
    .op .runlock fun _ =>
    if us.isEmpty then .ret .chatting
    else
      .op .generate fun (content : Option Bytes) =>
      match content with
      | none => .ret .chatting
      | some content => tellUsers ⟨false, self, content⟩
  else .ret .ended

/-- main.go:299-301: whom the printer names as the sender. -/
def named (self : ChatUser) (m : ChatMessage) : ChatMessage :=
  if m.sender.name = [] then { m with sender := self } else m

/-- One round of main.go:294-304. -/
def printingBody (self : ChatUser) : UserProg UserLoop :=
  .op .ready fun _ =>
  .op .receive fun (m : Option ChatMessage) =>
  match m with
  | none => .ret .ended
  | some m => .op (.print (named self m)) fun _ => .ret .printing

/-- The deferred calls of main.go:58-62, 110-117. -/
def userStop : UserProg UserLoop :=
  .op .shutdown fun _ =>
  .op .shutServer fun _ =>
  .op .waitServer fun _ =>
  .op .exit fun _ => .ret .ended

/-- main.go:131-149 and the deferred calls. -/
def userMain : UserProg UserLoop :=
  .op .register fun (ok : Bool) =>
  if ok then
    .op .startChatting fun _ =>
    .op .waitSignal fun _ =>
    .op .closeStop fun _ =>
    .op .unregister fun _ => userStop
  else userStop

def userBody (self : ChatUser) : UserLoop → UserProg UserLoop
  | .printing => printingBody self
  | .chatting => chattingBody self
  | .ended => .ret .ended

/-! ## What is shown -/

/-- message.go:12 -/
def colorReset : Bytes := 0x1b#8 :: str "[0m"

/-- message.go:14-23 -/
def messageColors : List Bytes :=
  ["[31m", "[32m", "[33m", "[34m", "[35m", "[36m", "[37m", "[97m"].map fun s => 0x1b#8 :: str s

/-- message.go:65-75 -/
def ChatMessage.color (sha512 : Bytes → Bytes) (m : ChatMessage) : Bytes :=
  let sum := ((sha512 (m.sender.host ++ m.sender.name)).map BitVec.toNat).sum
  messageColors.getD (sum % messageColors.length) []

/-- The robot of message.go:80 in UTF-8. -/
def robot : Bytes := [0xf0#8, 0x9f#8, 0xa4#8, 0x96#8]

/-- message.go:78-84, for a formatted time. -/
def ChatMessage.text (sha512 : Bytes → Bytes) (time : Bytes) (m : ChatMessage) : Bytes :=
  let m := if m.system then { m with sender := { m.sender with name := robot } } else m
  time ++ str " " ++ m.color sha512 ++ str "[" ++ m.sender.name ++ str "] " ++ m.content ++ colorReset

/-! ## Execution -/

/-- What can be observed. -/
inductive UserEvent where
  /-- a line on the screen -/
  | shown (m : ChatMessage)
  /-- a message was written to the connection (or the write failed) -/
  | wrote (c : Nat) (m : ChatMessage) (ok : Bool)
  /-- goroutine `i` answered its notification -/
  | responded (i : Nat) (status : Nat)
  /-- goroutine `i` finished its message -/
  | served (i : Nat) (ok : Bool)
  deriving DecidableEq, Repr

/-- The memory of a chat user and what happened. -/
structure UserWorld where
  /-- the mutex -/
  writer : Bool := false
  readers : Nat := 0
  users : List (Bytes × UserConnection) := []
  /-- the connections that were opened: is it still open? -/
  conns : List Bool := []
  /-- the printer is in its `select` -/
  waiting : Bool := false
  /-- the message it has received -/
  slot : Option ChatMessage := none
  started : Bool := false
  stop : Bool := false
  notifyShut : Bool := false
  serverShut : Bool := false
  /-- handlers of messages that are running -/
  active : Nat := 0
  exited : Bool := false
  log : List UserEvent := []
  deriving DecidableEq, Repr

def UserWorld.get (w : UserWorld) (name : Bytes) : Option UserConnection := w.users.lookup name

/-- What the environment decides in one step. -/
structure UserEnv where
  /-- does the request, dial, close or write succeed; is it the ticker -/
  ok : Bool := true
  /-- the write blocks -/
  stalled : Bool := false
  /-- the signal has been given -/
  signal : Bool := false
  content : Bytes := []
  /-- the order in which the map is visited -/
  order : List Bytes := []
  deriving DecidableEq, Repr

/-- The users in the order in which the map is visited. -/
def UserWorld.range (w : UserWorld) (order : List Bytes) : List UserConnection :=
  ((w.users.map (·.1) ++ order).dedup).filterMap w.get

/-- One effect of goroutine `i`; none if it blocks.  A process that exited does nothing. -/
def userExec (e : UserEnv) (i : Nat) (o : UserOp) (w : UserWorld) : Option (o.Ret × UserWorld) :=
  if w.exited then none
  else
  match o with
  | .lock => if w.writer || w.readers != 0 then none else some ((), { w with writer := true })
  | .unlock => some ((), { w with writer := false })
  | .rlock => if w.writer then none else some ((), { w with readers := w.readers + 1 })
  | .runlock => some ((), { w with readers := w.readers - 1 })
  | .getUser name => some (w.get name, w)
  | .putUser name u => some ((), { w with users := (name, u) :: w.users.filter (·.1 ≠ name) })
  | .deleteUser name => some ((), { w with users := w.users.filter (·.1 ≠ name) })
  | .rangeUsers => some (w.range e.order, w)
  | .dial _ _ _ =>
    if e.ok then some (some w.conns.length, { w with conns := w.conns ++ [true] }) else some (none, w)
  | .closeConn c => some (e.ok, { w with conns := w.conns.set c false })
  | .encode c m =>
    if e.stalled then none
    else
      let ok := e.ok && w.conns.getD c false
      some (ok, { w with log := w.log ++ [.wrote c m ok] })
  | .generate => some (if e.ok then some e.content else none, w)
  | .send m => if w.waiting then some ((), { w with waiting := false, slot := some m }) else none
  | .ready => some ((), { w with waiting := true })
  | .receive =>
    match w.slot with
    | some m => some (some m, { w with slot := none })
    | none => if w.stop then some (none, { w with waiting := false }) else none
  | .print m => some ((), { w with log := w.log ++ [.shown m] })
  | .tick =>
    if w.started then
      if e.ok then some (true, w) else if w.stop then some (false, w) else none
    else none
  | .arrive => if w.notifyShut then none else some ((), w)
  | .respond status => some ((), { w with log := w.log ++ [.responded i status] })
  | .serve => if w.serverShut then none else some ((), { w with active := w.active + 1 })
  | .served ok => some ((), { w with active := w.active - 1, log := w.log ++ [.served i ok] })
  | .register => some (e.ok, w)
  | .startChatting => some ((), { w with started := true })
  | .waitSignal => if e.signal then some ((), w) else none
  | .closeStop => some ((), { w with stop := true })
  | .unregister => some ((), w)
  | .shutdown => some ((), { w with notifyShut := true })
  | .shutServer => some ((), { w with serverShut := true })
  | .waitServer => if w.active = 0 then some ((), w) else none
  | .exit => some ((), { w with exited := true })

/-- A chat user that will receive these notifications and messages, at any time. -/
def userStart (notifications : List (Option ChatNotification)) (messages : List (Option (ChatUser × Bytes))) :
    Loops UserSig UserLoop UserWorld :=
  { world := {}
    threads := [.ret .printing, .ret .chatting, userMain] ++ notifications.map handleNotification ++
      messages.map handleMessage }

/-- Run a schedule. -/
def userRun (self : ChatUser) (notifications : List (Option ChatNotification))
    (messages : List (Option (ChatUser × Bytes))) (acts : List (Nat × UserEnv)) :
    Loops UserSig UserLoop UserWorld :=
  Loops.run (userBody self) userExec (userStart notifications messages) acts

end Goe2ee
