import Verif.Model.Procs
import Mathlib.Data.List.Dedup

/-!
# The registry of the chat example (`examples/chat/cmd/registry/main.go`)

`net/http` runs `usersHandler` in one goroutine per request; they share `usersStore`, a `sync.Map`.  Every
operation on the map, every response and every notification is an effect, and the scheduler may switch goroutines
between any two.

Simplifications:
* JSON is not modelled: a body is a decoded user or does not decode;
* a notification (examples/chat/notification.go:28-57) is one effect; whether it arrives makes no difference to the
  registry, which only logs the error;
* encoding the answer to GET (main.go:59-61) does not fail.
-/

set_option autoImplicit false

namespace Goe2ee

/-- examples/chat/user.go:4-10 -/
structure ChatUser where
  name : Bytes
  network : Bytes
  host : Bytes
  serverPort : Int
  notifyPort : Int
  deriving DecidableEq, Repr

/-- examples/chat/notification.go:17-20 -/
inductive ChatEvent where
  | joined
  | left
  deriving DecidableEq, Repr

inductive HttpMethod where
  | get
  | post
  | delete
  | other
  deriving DecidableEq, Repr

/-- A request that the multiplexer gives to `usersHandler` (main.go:28-29): the path is "/users" or begins with
"/users/". -/
structure ChatRequest where
  method : HttpMethod
  path : Bytes
  /-- the decoded body, or none if it does not decode -/
  body : Option ChatUser
  deriving DecidableEq, Repr

/-- Effects of the registry. -/
inductive RegOp where
  /-- the beginning of `usersStore.Range(…)`: the keys it will visit -/
  | rangeKeys
  /-- `usersStore.Load(name)`, and the visit of one key in `Range` -/
  | load (name : Bytes)
  | store (name : Bytes) (user : ChatUser)
  | delete (name : Bytes)
  /-- `http.Error(…, status)`, `w.WriteHeader(status)`, `Encode(users)` -/
  | respond (status : Nat) (users : List ChatUser)
  /-- `notification.Notify(host, port)` -/
  | notify (host : Bytes) (port : Int) (event : ChatEvent) (user : ChatUser)
  deriving DecidableEq, Repr

def RegOp.Ret : RegOp → Type
  | .rangeKeys => List Bytes
  | .load _ => Option ChatUser
  | .store _ _ => Unit
  | .delete _ => Unit
  | .respond _ _ => Unit
  | .notify _ _ _ _ => Unit

abbrev RegSig : Sig := ⟨RegOp, RegOp.Ret⟩
abbrev RegProg (α : Type) := Prog RegSig α

/-- `usersStore.Range(f)` over the keys still to be visited: a key that is gone is skipped; `f` says whether to go
on. -/
def forRange {σ : Type} (f : σ → Bytes → ChatUser → RegProg (Bool × σ)) : List Bytes → σ → RegProg σ
  | [], s => .ret s
  | key :: keys, s => .op (.load key) fun (value : Option ChatUser) =>
    match value with
    | none => forRange f keys s
    | some user => (f s key user).bind fun r => if r.1 then forRange f keys r.2 else .ret r.2

/-- main.go:53-61 -/
def getUsers : RegProg Unit :=
  .op .rangeKeys fun (keys : List Bytes) =>
  (forRange (fun users _ user => .ret (true, users ++ [user])) keys []).bind fun users =>
  .op (.respond 200 users) fun _ => .ret ()

/-- main.go:69-76: the callback that looks for the name. -/
def checkName (user : ChatUser) (abort : Bool) (key : Bytes) (_ : ChatUser) : RegProg (Bool × Bool) :=
  if key = user.name then .op (.respond 409 []) fun _ => .ret (false, true)
  else .ret (true, abort)

/-- main.go:86-102: the callback that introduces the users to each other. -/
def introduce (user : ChatUser) (_ : Unit) (key : Bytes) (existing : ChatUser) : RegProg (Bool × Unit) :=
  if key ≠ user.name then
    .op (.notify existing.host existing.notifyPort .joined user) fun _ =>
    .op (.notify user.host user.notifyPort .joined existing) fun _ => .ret (true, ())
  else .ret (true, ())

/-- main.go:62-103 -/
def registerUser (user : ChatUser) : RegProg Unit :=
  .op .rangeKeys fun (keys : List Bytes) =>
  (forRange (checkName user) keys false).bind fun abort =>
  if abort then .ret ()
  else
  .op (.store user.name user) fun _ =>
  .op (.respond 201 []) fun _ =>
  .op .rangeKeys fun (keys : List Bytes) =>
  forRange (introduce user) keys ()

/-- main.go:118-124: the callback that tells the others. -/
def farewell (user : ChatUser) (_ : Unit) (_ : Bytes) (other : ChatUser) : RegProg (Bool × Unit) :=
  .op (.notify other.host other.notifyPort .left user) fun _ => .ret (true, ())

/-- `len("/users/")` -/
def usersPrefix : Nat := 7

/-- main.go:104-125.  Slicing beyond the end of the path panics. -/
def unregisterUser (path : Bytes) : RegProg Unit :=
  if path.length < usersPrefix then .panic "slice bounds out of range"
  else
  let userName := path.drop usersPrefix
  .op (.load userName) fun (value : Option ChatUser) =>
  match value with
  | none => .op (.respond 404 []) fun _ => .ret ()
  | some user =>
  .op (.delete userName) fun _ =>
  .op (.respond 204 []) fun _ =>
  .op .rangeKeys fun (keys : List Bytes) =>
  forRange (farewell user) keys ()

/-- main.go:51-129 -/
def usersHandler (request : ChatRequest) : RegProg Unit :=
  match request.method with
  | .get => getUsers
  | .post =>
    match request.body with
    | none => .op (.respond 400 []) fun _ => .ret ()
    | some user => registerUser user
  | .delete => unregisterUser request.path
  | .other => .op (.respond 405 []) fun _ => .ret ()

/-! ## Execution -/

/-- What can be observed: responses (of the goroutine) and notifications. -/
inductive RegEvent where
  | responded (i : Nat) (status : Nat) (users : List ChatUser)
  | notified (host : Bytes) (port : Int) (event : ChatEvent) (user : ChatUser)
  deriving DecidableEq, Repr

/-- The memory of the registry and what happened. -/
structure RegWorld where
  users : List (Bytes × ChatUser) := []
  log : List RegEvent := []
  deriving DecidableEq, Repr

def RegWorld.get (w : RegWorld) (name : Bytes) : Option ChatUser := w.users.lookup name

/-- One effect of goroutine `i`.  `sync.Map.Range` (Go documentation) visits no key twice and every key that stays
in the map during the call, in any order; for a key that is stored or deleted meanwhile it may reflect any state of
that key.  So the keys to visit are those in the map at the beginning and any others (`order`), in any order; a
visit loads the present value. -/
def regExec (order : List Bytes) (i : Nat) : Interp RegSig RegWorld
  | .rangeKeys, w => ((w.users.map (·.1) ++ order).dedup, w)
  | .load name, w => (w.get name, w)
  | .store name user, w => ((), { w with users := (name, user) :: w.users.filter (·.1 ≠ name) })
  | .delete name, w => ((), { w with users := w.users.filter (·.1 ≠ name) })
  | .respond status users, w => ((), { w with log := w.log ++ [.responded i status users] })
  | .notify host port event user, w => ((), { w with log := w.log ++ [.notified host port event user] })

/-- A registry that will receive these requests, at any time (a request comes when its goroutine takes its first
step). -/
def regStart (requests : List ChatRequest) : Procs RegSig RegWorld :=
  { world := {}, threads := requests.map usersHandler }

/-- Run a schedule. -/
def regRun (requests : List ChatRequest) (acts : List (Nat × List Bytes)) : Procs RegSig RegWorld :=
  Procs.run regExec (regStart requests) acts

end Goe2ee
