import Verif.Model.Loops
import Verif.Model.Server
import Verif.Model.Client

/-!
# A client and the server's goroutine for its TCP connection, octet by octet

`Client.Write` and `handleConnection` (client.go, server.go:174-234) run at the same time, at the two ends of one
TCP connection.  In each direction at most so many octets are under way as fit into the buffers of the two
operating systems; a write waits for space, a read waits for octets.

Simplifications:
* neither end has deadlines (`ServerWithReadTimeout(0)`, `ServerWithWriteTimeout(0)` and their counterparts of the
  client, as in examples/chat/cmd/user/main.go:50-56), and the client does not close the connection;
* reads and writes move single octets.  (How a stream is divided does not matter: C11.)
* every other effect, such as looking up the session or calling the application, happens at once, and the
  environment decides its result; only sealing is what it is.
* if the server closes the connection, writes of the client fail, and reads return what is still under way and then
  `io.EOF`.
-/

set_option autoImplicit false

namespace Goe2ee

/-- Effects at the ends of the connection. -/
inductive FlowOp where
  /-- one octet of a `Write` -/
  | send (b : Byte)
  /-- one octet of a `Read` -/
  | recv
  /-- the server closes the connection (server.go:179) -/
  | hangUp
  /-- the other effects of the server and of the client -/
  | server (o : SOp)
  | client (o : COp)
  /-- marks that a `Write` and a `Read` of the client returned -/
  | wrote (r : Nat × Option Err)
  | gotData (r : Bytes × Option Err)

/-- Results: `send` says whether the octet was taken, `recv` returns none at the end of the stream. -/
def FlowOp.Ret (C : Crypto) : FlowOp → Type
  | .send _ => Bool
  | .recv => Option Byte
  | .hangUp => Unit
  | .server o => o.Ret C
  | .client o => o.Ret C
  | .wrote _ => Unit
  | .gotData _ => Unit

abbrev FlowSig (C : Crypto) : Sig := ⟨FlowOp, FlowOp.Ret C⟩
abbrev FlowProg (C : Crypto) (α : Type) := Prog (FlowSig C) α

section
variable {C : Crypto}

/-- `conn.Write(bs)`: how many octets were taken, and an error if the connection is closed. -/
def sendAll : Bytes → Nat → FlowProg C (Nat × Option Err)
  | [], n => .ret (n, none)
  | b :: bs, n => .op (.send b) fun (ok : Bool) =>
    if ok then sendAll bs (n + 1) else .ret (n, some (.other "connection closed"))

/-- Read `n` octets: what was read, and whether that is all. -/
def recvAll : Nat → Bytes → FlowProg C (Bytes × Bool)
  | 0, acc => .ret (acc, true)
  | n + 1, acc => .op .recv fun (r : Option Byte) =>
    match r with
    | none => .ret (acc, false)
    | some b => recvAll n (acc ++ [b])

/-- `io.ReadFull` and `io.Copy(&buf, io.LimitReader(…))` (see `Verif.Model.Reader`) on the connection. -/
def flowRead : (o : ROp) → FlowProg C o.Ret
  | .alloc _ => .ret ()
  | .readFull n => (recvAll n []).bind fun r =>
    .ret (if r.2 then .ok r.1 else .error (if r.1 = [] then .eof else .unexpectedEOF))
  | .copyLimit n => (recvAll n.toNat []).bind fun r => .ret (r.1, none)

/-- An effect of the server, on the connection. -/
def serverFlowOp : (o : SOp) → FlowProg C (o.Ret C)
  | .read o => flowRead o
  | .write bs => sendAll bs 0
  | o => .op (.server o) .ret

def serverFlow {α : Type} (p : SProg C α) : FlowProg C α := p.lift (T := FlowSig C) serverFlowOp

/-- An effect of the client, on the connection. -/
def clientFlowOp : (o : COp) → FlowProg C (o.Ret C)
  | .read o => flowRead o
  | .write bs => sendAll bs 0
  | o => .op (.client o) .ret

def clientFlow {α : Type} (p : CProg C α) : FlowProg C α := p.lift (T := FlowSig C) clientFlowOp

/-- The loop of `handleConnection`, and the end of a goroutine. -/
inductive FlowLoop where
  | serving
  | ended
  deriving DecidableEq, Repr

/-- server.go:174-183: the deferred function closes the connection, after a panic too. -/
def thenHangUp : FlowProg C Bool → FlowProg C FlowLoop
  | .ret go => if go then .ret .serving else .op .hangUp fun _ => .ret .ended
  | .panic m => .op .hangUp fun _ => .panic m
  | .op o k => .op o fun r => thenHangUp (k r)

/-- server.go:174-234: one pass of the loop of `handleConnection`. -/
def serverPass (M : Manager C) (host : Except Err Bytes) : FlowProg C FlowLoop :=
  thenHangUp (serverFlow (connPass M host))

def flowBody (M : Manager C) (host : Except Err Bytes) : FlowLoop → FlowProg C FlowLoop
  | .serving => serverPass M host
  | .ended => .ret .ended

/-- An application that writes these messages and never reads (as the chat example does,
examples/chat/cmd/user/main.go:282-286). -/
def writeAll (c : Client) : List Bytes → FlowProg C FlowLoop
  | [] => .ret .ended
  | p :: ps => (clientFlow (c.write p)).bind fun r =>
    .op (.wrote r.1) fun _ => writeAll r.2 ps

/-- The longest message that the server accepts (protocol/limits.go): a buffer of this size has room for every
reply. -/
def wholeReply : Nat := maxMessageSize

/-- An application that reads after each message, with a buffer that has room for every reply; it stops when a message
could not be sent. -/
def exchangeAll (c : Client) : List Bytes → FlowProg C FlowLoop
  | [] => .ret .ended
  | p :: ps => (clientFlow (c.write p)).bind fun r =>
    .op (.wrote r.1) fun _ =>
    if r.1.2.isSome then .ret .ended
    else
    (clientFlow (r.2.read wholeReply)).bind fun q =>
    .op (.gotData q.1) fun _ => exchangeAll q.2 ps

/-- The quick start of the README: dial, then exchange messages.  If the dial fails, its error is recorded like that of a
`Write`. -/
def dialAndExchange (host : Except Err Bytes) (options : ClientOptions) (msgs : List Bytes) : FlowProg C FlowLoop :=
  (clientFlow (dialTCP host options)).bind fun r =>
  match r with
  | .error e => .op (.wrote (0, some e)) fun _ => .ret .ended
  | .ok c => exchangeAll c msgs

end

/-! ## Execution -/

/-- The octets under way, and what the application saw. -/
structure FlowWorld where
  /-- from the client to the server -/
  up : Bytes := []
  /-- from the server to the client -/
  down : Bytes := []
  /-- the server has closed the connection -/
  closed : Bool := false
  /-- the results of the `Write` calls that returned, and of the `Read` calls -/
  written : List (Nat × Option Err) := []
  got : List (Bytes × Option Err) := []
  deriving DecidableEq, Repr

/-- The results that the environment chooses. -/
structure FlowEnv (C : Crypto) where
  server : (o : SOp) → o.Ret C
  client : (o : COp) → o.Ret C

/-- The result of an effect that does not concern the connection. -/
def serverAnswer {C : Crypto} (env : FlowEnv C) : (o : SOp) → o.Ret C
  | .aead _ key nonce plaintext => C.aeadSeal key nonce plaintext
  | o => env.server o

def clientAnswer {C : Crypto} (env : FlowEnv C) : (o : COp) → o.Ret C
  | .aead key nonce plaintext => C.aeadSeal key nonce plaintext
  | o => env.client o

/-- One effect of the client (goroutine 0) or the server (goroutine 1); none while it has to wait.  At most `roomUp`
and `roomDown` octets are under way. -/
def flowExec {C : Crypto} (roomUp roomDown : Nat) (env : FlowEnv C) (i : Nat) :
    (o : FlowOp) → FlowWorld → Option (o.Ret C × FlowWorld)
  | .send b, w =>
    if i = 0 then
      if w.closed then some (false, w)
      else if w.up.length < roomUp then some (true, { w with up := w.up ++ [b] })
      else none
    else if w.down.length < roomDown then some (true, { w with down := w.down ++ [b] })
    else none
  | .recv, w =>
    if i = 0 then
      match w.down with
      | b :: down => some (some b, { w with down })
      | [] => if w.closed then some (none, w) else none
    else
      match w.up with
      | b :: up => some (some b, { w with up })
      | [] => none
  | .hangUp, w => some ((), { w with closed := true })
  | .server o, w => some (serverAnswer env o, w)
  | .client o, w => some (clientAnswer env o, w)
  | .wrote r, w => some ((), { w with written := w.written ++ [r] })
  | .gotData r, w => some ((), { w with got := w.got ++ [r] })

/-- The two goroutines: the application at the client, and `handleConnection`. -/
abbrev Flow (C : Crypto) := Loops (FlowSig C) FlowLoop FlowWorld

/-- A connection on which nothing is under way: a new one, or one whose handshake is over. -/
def flowStart {C : Crypto} (app : FlowProg C FlowLoop) : Flow C :=
  { world := {}, threads := [app, .ret .serving] }

/-- Run a schedule. -/
def flowRun {C : Crypto} (M : Manager C) (host : Except Err Bytes) (roomUp roomDown : Nat)
    (app : FlowProg C FlowLoop) (acts : List (Nat × FlowEnv C)) : Flow C :=
  Loops.run (flowBody M host) (flowExec roomUp roomDown) (flowStart app) acts

/-- The state after `n` steps of an infinite schedule. -/
def flowAfter {C : Crypto} (M : Manager C) (host : Except Err Bytes) (roomUp roomDown : Nat)
    (app : FlowProg C FlowLoop) (σ : Nat → Nat × FlowEnv C) : Nat → Flow C
  | 0 => flowStart app
  | n + 1 => Loops.step (flowBody M host) (flowExec roomUp roomDown) (flowAfter M host roomUp roomDown app σ n) (σ n)

/-- Both ends go on sooner or later. -/
def FlowFair {C : Crypto} (σ : Nat → Nat × FlowEnv C) : Prop :=
  ∀ i < 2, ∀ n, ∃ m, n ≤ m ∧ (σ m).1 = i

end Goe2ee
