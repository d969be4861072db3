import Verif.Model.Prog
import Verif.Model.Dns
import Verif.Model.KeySources
import Verif.Model.ChatRegistry

/-!
# How the user program of the chat example starts and ends (`examples/chat/cmd/user/main.go`)

`main` as one program; the goroutines that it starts are in `Model/ChatUser`.  Simplified: the flags are parsed; names are
valid UTF-8, so the JSON of a user decodes to the same user, and encoding it does not fail; messages for the log and
standard output are not modelled.  Deferred calls are written where the function returns.
-/

set_option autoImplicit false

namespace Goe2ee

/-- Effects of `main`. -/
inductive StartOp where
  /-- `log.Fatal`: the process ends -/
  | fatal
  /-- `key.ServerManagerGenerateOnTheFly(algorithm)` -/
  | generateKey (algorithm : KeyAlgorithm)
  /-- `server.StartTCP(address)`, `server.StartUDP(address)`: where the server listens -/
  | start (udp : Bool) (address : Bytes)
  /-- `net.Listen("tcp", address)` -/
  | listen (address : Bytes)
  /-- `go func() { notifyServer.Serve(notifyListener) … }()` -/
  | goServe
  /-- `go service.printer()` -/
  | goPrinter
  /-- `http.Post` of a user to the registry: the status of the response -/
  | post (user : ChatUser)
  | closeBody
  /-- `go service.startChatting()` -/
  | goChatting
  /-- `signal.Notify(sigChan, syscall.SIGINT, syscall.SIGTERM)` -/
  | catchSignals
  /-- `<-sigChan` -/
  | waitSignal
  /-- `close(service.stop)` -/
  | closeStop
  /-- `service.registry.Unregister(name)` -/
  | unregister (name : Bytes)
  /-- `notifyServer.Shutdown(…)` -/
  | shutdown
  /-- `server.Close()` -/
  | closeServer

def StartOp.Ret : StartOp → Type
  | .generateKey _ => Option Err
  | .start _ _ => Except Err Bytes
  | .listen _ => Except Err Bytes
  | .post _ => Except Err Nat
  | .closeBody => Option Err
  | .unregister _ => Option Err
  | _ => Unit

abbrev StartSig : Sig := ⟨StartOp, StartOp.Ret⟩
abbrev StartProg := Prog StartSig

/-- Go `strconv.FormatInt(port, 10)`. -/
def formatInt (port : Int) : Bytes :=
  if port < 0 then 45#8 :: formatUint port.natAbs else formatUint port.natAbs

/-- Go `strconv.ParseInt(s, 10, 64)`: an optional sign and digits. -/
def parseInt64 (s : Bytes) : Option Int :=
  match s with
  | 45#8 :: digits => (parseUint digits 64).bind fun v => if v ≤ 2 ^ 63 then some (-(v : Int)) else none
  | 43#8 :: digits => (parseUint digits 64).bind fun v => if v < 2 ^ 63 then some (v : Int) else none
  | digits => (parseUint digits 64).bind fun v => if v < 2 ^ 63 then some (v : Int) else none

/-- examples/chat/registry.go:24-44 -/
def chatRegister (user : ChatUser) : StartProg (Option Err) :=
  .op (.post user) fun (r : Except Err Nat) =>
  match r with
  | .error e => .ret (some e)
  | .ok status =>
    let err : Option Err := if status ≠ 201 then some (.other "unexpected error response") else none
    .op .closeBody fun (closeErr : Option Err) =>
    match closeErr with
    | some e => .ret (some (match err with | some err => .wrap "errors.Join" err | none => e))
    | none => .ret err

/-- main.go:58-62 -/
def leaveServer : StartProg Unit := .op .closeServer fun _ => .ret ()

/-- main.go:110-117, then 58-62 -/
def leaveNotify : StartProg Unit := .op .shutdown fun _ => leaveServer

/-- main.go:131-148: the result of `Register`. -/
def afterRegister (user : ChatUser) (err : Option Err) : StartProg Unit :=
  match err with
  | some _ => leaveNotify
  | none =>
    .op .goChatting fun _ =>
    .op .catchSignals fun _ =>
    .op .waitSignal fun _ =>
    .op .closeStop fun _ =>
    .op (.unregister user.name) fun (_ : Option Err) => leaveNotify

/-- main.go:129-148 -/
def startRegistered (user : ChatUser) : StartProg Unit :=
  .op .goPrinter fun _ => (chatRegister user).bind (afterRegister user)

/-- main.go:86-127: the address of the server, and the listener for notifications. -/
def startNotify (name network addr : Bytes) : StartProg Unit :=
  match splitHostPort addr with
  | .error _ => leaveServer
  | .ok (host, portStr) =>
  match parseInt64 portStr with
  | none => leaveServer
  | some serverPort =>
  .op (.listen (str "127.0.0.1:0")) fun (r : Except Err Bytes) =>
  match r with
  | .error _ => leaveServer
  | .ok notifyAddr =>
  .op .goServe fun _ =>
  match splitHostPort notifyAddr with
  | .error _ => leaveNotify
  | .ok (_, portStr) =>
  match parseInt64 portStr with
  | none => leaveNotify
  | some notifyPort => startRegistered ⟨name, network, host, serverPort, notifyPort⟩

/-- main.go:64-84 -/
def startServer (name network : Bytes) (port : Int) : StartProg Unit :=
  if network = str "tcp" then
    .op (.start false (str "127.0.0.1:" ++ formatInt port)) fun (r : Except Err Bytes) =>
    match r with
    | .error _ => leaveServer
    | .ok addr => startNotify name (str "tcp") addr
  else if network = str "udp" then
    .op (.start true (str "127.0.0.1:" ++ formatInt port)) fun (r : Except Err Bytes) =>
    match r with
    | .error _ => leaveServer
    | .ok addr => startNotify name (str "udp") addr
  else leaveServer

/-- main.go:28-149, with the values of the flags. -/
def chatMain (name : Bytes) (port : Int) (network registryHost : Bytes) : StartProg Unit :=
  if name = [] then .op .fatal fun _ => .ret ()
  else if registryHost = [] then .op .fatal fun _ => .ret ()
  else
    .op (.generateKey 2) fun (err : Option Err) =>
    match err with
    | some _ => .ret ()
    | none => startServer name network port

/-! ## What the effects do -/

/-- The environment. -/
structure StartEnv where
  key : Option Err
  start : Bool → Bytes → Except Err Bytes
  listen : Bytes → Except Err Bytes
  /-- does the registry store the user, and what does the client see of it? -/
  post : ChatUser → Bool × Except Err Nat
  body : Option Err
  unregister : Bytes → Option Err

/-- The process and the registry. -/
structure StartWorld where
  /-- where the server listens: the transport is UDP, the address -/
  server : Option (Bool × Bytes) := none
  notify : Option Bytes := none
  serving : Bool := false
  printing : Bool := false
  chatting : Bool := false
  catching : Bool := false
  stopped : Bool := false
  /-- the users that the registry lists -/
  registered : List ChatUser := []
  /-- the users sent to the registry, each with what was running then -/
  posted : List (ChatUser × Option (Bool × Bytes) × Option Bytes × Bool × Bool) := []
  /-- responses received and closed -/
  received : Nat := 0
  closed : Nat := 0

/-- Was there a response? -/
def responses : Except Err Nat → Nat
  | .ok _ => 1
  | .error _ => 0

/-- What the effects do.  `Unregister` removes the user from the registry if it returns no error. -/
def startExec (e : StartEnv) : Interp StartSig StartWorld
  | .fatal, w => ((), w)
  | .generateKey _, w => (e.key, w)
  | .start udp address, w =>
    (e.start udp address, match e.start udp address with
      | .ok addr => { w with server := some (udp, addr) }
      | .error _ => w)
  | .listen address, w =>
    (e.listen address, match e.listen address with
      | .ok addr => { w with notify := some addr }
      | .error _ => w)
  | .goServe, w => ((), { w with serving := true })
  | .goPrinter, w => ((), { w with printing := true })
  | .post user, w =>
    ((e.post user).2,
      { w with
        registered := if (e.post user).1 then w.registered ++ [user] else w.registered
        posted := w.posted ++ [(user, w.server, w.notify, w.serving, w.printing)]
        received := w.received + responses (e.post user).2 })
  | .closeBody, w => (e.body, { w with closed := w.closed + 1 })
  | .goChatting, w => ((), { w with chatting := true })
  | .catchSignals, w => ((), { w with catching := true })
  | .waitSignal, w => ((), w)
  | .closeStop, w => ((), { w with stopped := true })
  | .unregister name, w =>
    (e.unregister name, match e.unregister name with
      | none => { w with registered := w.registered.filter fun u => u.name ≠ name }
      | some _ => w)
  | .shutdown, w => ((), { w with notify := none, serving := false })
  | .closeServer, w => ((), { w with server := none })

/-- The first `n` effects of a program. -/
def Prog.first {S : Sig} {σ α : Type} (I : Interp S σ) : Nat → Prog S α → σ → Prog S α × σ
  | 0, p, s => (p, s)
  | _ + 1, .ret a, s => (.ret a, s)
  | _ + 1, .panic m, s => (.panic m, s)
  | n + 1, .op o k, s => (k (I o s).1).first I n (I o s).2

/-- The program interrupted (SIGINT or SIGTERM) after `n` effects: as long as `main` does not catch signals, the process
ends at once, without the deferred calls; then the signal ends the wait. -/
def interrupted (e : StartEnv) (p : StartProg Unit) (n : Nat) (w : StartWorld) : StartWorld :=
  let (rest, w') := p.first (startExec e) n w
  if w'.catching then (rest.run (startExec e) w').2 else w'

/-! ## Generated messages -/

/-- The effects of `GenerateMessage`. -/
inductive ExcuseOp where
  /-- `http.Get(…)`: the status -/
  | get
  /-- decode the body: the excuses -/
  | decode
  | closeBody

def ExcuseOp.Ret : ExcuseOp → Type
  | .get => Except Err Nat
  | .decode => Except Err (List Bytes)
  | .closeBody => Option Err

abbrev ExcuseSig : Sig := ⟨ExcuseOp, ExcuseOp.Ret⟩

/-- message.go:49-60: what is returned before the body is closed, the message (its sender and content) and the error. -/
def excuseOf (sender : ChatUser) (r : Except Err (List Bytes)) : Option (ChatUser × Bytes) × Option Err :=
  match r with
  | .error e => (none, some e)
  | .ok [] => (none, some (.other "no excuses found"))
  | .ok (excuse :: _) => (some (sender, excuse), none)

/-- message.go:35-61 -/
def generateMessage (sender : ChatUser) : Prog ExcuseSig (Option (ChatUser × Bytes) × Option Err) :=
  .op .get fun (r : Except Err Nat) =>
  match r with
  | .error e => .ret (none, some e)
  | .ok _ =>
    .op .decode fun (r : Except Err (List Bytes)) =>
    .op .closeBody fun (closeErr : Option Err) =>
    match closeErr with
    | none => .ret (excuseOf sender r)
    | some e => .ret ((excuseOf sender r).1, some (match (excuseOf sender r).2 with
      | some err => .wrap "errors.Join" err
      | none => e))

/-- The service that is asked: the status of its response, or an error, the excuses in the body, and closing it. -/
structure ExcuseEnv where
  get : Except Err Nat
  body : Except Err (List Bytes)
  close : Option Err

/-- The state is the number of responses received and closed. -/
def excuseExec (e : ExcuseEnv) : Interp ExcuseSig (Nat × Nat)
  | .get, s => (e.get, match e.get with | .ok _ => (s.1 + 1, s.2) | .error _ => s)
  | .decode, s => (e.body, s)
  | .closeBody, s => (e.close, (s.1, s.2 + 1))

end Goe2ee
