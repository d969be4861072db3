import Verif.Model.SharedClient

/-!
# Closing a client while other goroutines use it (client.go:310-433)

`Verif.Model.SharedClient` with calls of `Close` among the calls of `Read` and `Write`.  The client does not
belong to a pool (`c.pool == nil`, client.go:420-422), TCP only.  A closed connection fails at once, whoever uses it and
whatever it was waiting for, as the documentation of `net.Conn` says ("any blocked Read or Write operations will be
unblocked and return errors").
-/

set_option autoImplicit false

namespace Goe2ee

/-- The calls of a goroutine. -/
inductive SCall where
  | read (n : Nat)
  | write (p : Bytes)
  | close
  deriving DecidableEq

/-- The effects. -/
inductive CloseOp where
  /-- an effect of `Read` or `Write` -/
  | shared (o : DOp)
  /-- `c.conn.Close()` -/
  | connClose
  /-- `c.buffer.Reset()` -/
  | bufReset
  /-- do nothing: mark the beginning and the end of a call in the log -/
  | called (call : SCall)
  | ended (call : SCall) (data : Bytes) (err : Option Err)

/-- Result types of the effects. -/
def CloseOp.Ret : CloseOp → Type
  | .shared o => o.Ret
  | .connClose => Option Err
  | .bufReset => Unit
  | .called _ => Unit
  | .ended _ _ _ => Unit

abbrev CloseSig : Sig := ⟨CloseOp, CloseOp.Ret⟩
abbrev CloseProg (α : Type) := Prog CloseSig α

/-- `Read` and `Write` with these effects. -/
def onShared {α : Type} (p : DProg α) : CloseProg α := p.lift (T := CloseSig) fun o => .op (.shared o) .ret

/-- client.go:426-433, called at 423 -/
def sharedClose : CloseProg (Option Err) :=
  .op .connClose fun (r : Option Err) =>
  match r with
  | some e => .ret (some (.wrap "failed to close connection" e))
  | none => .op .bufReset fun _ => .ret none

/-- A goroutine: the calls it still has to make. -/
def closingCalls (C : Crypto) (c : Client) : List SCall → CloseProg (List SCall)
  | [] => .ret []
  | .read n :: rest =>
    .op (.called (.read n)) fun _ => (onShared (sharedRead C c n)).bind fun r =>
    .op (.ended (.read n) r.1 r.2) fun _ => .ret rest
  | .write p :: rest =>
    .op (.called (.write p)) fun _ => (onShared (sharedWrite C c p)).bind fun r =>
    .op (.ended (.write p) [] r.2) fun _ => .ret rest
  | .close :: rest =>
    .op (.called .close) fun _ => sharedClose.bind fun r =>
    .op (.ended .close [] r) fun _ => .ret rest

/-- What the goroutines do, as seen from outside: goroutine, call, what it returned. -/
inductive HEvent where
  | called (i : Nat) (call : SCall)
  | ended (i : Nat) (call : SCall) (data : Bytes) (err : Option Err)
  deriving DecidableEq

/-- The client, its connection and the log. -/
structure HWorld where
  client : DWorld
  /-- the connection was closed -/
  closed : Bool
  log : List HEvent

/-- The environment's choices. -/
structure HEnv where
  shared : DEnv := {}
  /-- the peer does not read, so that a write has to wait -/
  blocked : Bool := false
  /-- outcome of the first `conn.Close()`; whatever it is, the connection is closed -/
  close : Option Err := none

/-- `net.ErrClosed` -/
def errNetClosed : Err := .other "use of closed network connection"

/-- One effect of goroutine `i`, or nothing if it has to wait. -/
def hexec (C : Crypto) (e : HEnv) (i : Nat) (o : CloseOp) (w : HWorld) : Option (o.Ret × HWorld) :=
  match o with
  | .connClose =>
    if w.closed then some (some errNetClosed, w) else some (e.close, { w with closed := true })
  | .bufReset => some ((), { w with client := { w.client with buffer := [] } })
  | .called call => some ((), { w with log := w.log ++ [.called i call] })
  | .ended call data err => some ((), { w with log := w.log ++ [.ended i call data err] })
  | .shared .setReadDeadline =>
    if w.closed then some (some errNetClosed, w)
    else (dexec C e.shared i .setReadDeadline w.client).map fun r => (r.1, { w with client := r.2 })
  | .shared .setWriteDeadline =>
    if w.closed then some (some errNetClosed, w)
    else (dexec C e.shared i .setWriteDeadline w.client).map fun r => (r.1, { w with client := r.2 })
  | .shared (.connRead k) =>
    if w.closed then some (([], some errNetClosed), w)
    else (dexec C e.shared i (.connRead k) w.client).map fun r => (r.1, { w with client := r.2 })
  | .shared (.connWrite bs) =>
    if w.closed then some ((0, some errNetClosed), w)
    else if e.blocked then none
    else (dexec C e.shared i (.connWrite bs) w.client).map fun r => (r.1, { w with client := r.2 })
  | .shared o => (dexec C e.shared i o w.client).map fun r => (r.1, { w with client := r.2 })

/-- Several goroutines using one client and closing it. -/
abbrev HSys := Loops CloseSig (List SCall) HWorld

/-- Run a schedule. -/
def HSys.run (C : Crypto) (c : Client) (s : HSys) (acts : List (Nat × HEnv)) : HSys :=
  Loops.run (closingCalls C c) (hexec C) s acts

/-- The goroutines begin; the client has unread data `c.buffer` and sent its last message with
`c.lastSentCounter`. -/
def HSys.start (c : Client) (counter : BitVec 64) (calls : List (List SCall)) : HSys :=
  { world := { client := (DSys.start c counter []).world, closed := false, log := [] },
    threads := calls.map .ret }

end Goe2ee
