import Verif.Model.Borrow

/-!
# Deadlines set by the application (`client.go`)

`none` is the zero `time.Time`: no deadline.  `env.readDeadline` and `env.writeDeadline` are the errors of
the socket, for instance because it is closed.  The clients have a TCP connection, whose methods the
client's methods call directly.
-/

set_option autoImplicit false

namespace Goe2ee

section
variable {C : Crypto}

/-- client.go:470-472 -/
def setReadDeadline (env : CEnv C) (t : Option Nat) (s : Timed) : Option Err × Timed :=
  match env.readDeadline with
  | some e => (some e, s)
  | none => (none, { s with readBy := t })

/-- client.go:478-480 -/
def setWriteDeadline (env : CEnv C) (t : Option Nat) (s : Timed) : Option Err × Timed :=
  match env.writeDeadline with
  | some e => (some e, s)
  | none => (none, { s with writeBy := t })

/-- client.go:464-466; Go's TCP sockets set both deadlines or none.  Simplified: the call fails if
setting the read deadline would. -/
def setDeadline (env : CEnv C) (t : Option Nat) (s : Timed) : Option Err × Timed :=
  match env.readDeadline with
  | some e => (some e, s)
  | none => (none, { s with readBy := t, writeBy := t })

/-! ## A peer that falls silent

The input of the connection ends with the event `fail timeout`: the peer sends nothing more and does not
close.  A read that reaches this event waits until its deadline. -/

/-- The result of a read that the deadline has ended. -/
def readTimedOut : (o : ROp) → o.Ret → Bool
  | .alloc _, _ => false
  | .readFull _, (.error .timeout : Except Err Bytes) => true
  | .readFull _, _ => false
  | .copyLimit _, ((_, some .timeout) : Bytes × Option Err) => true
  | .copyLimit _, _ => false

/-- Did the effect wait for the peer until a deadline? -/
def opTimedOut : (o : COp) → o.Ret C → Bool
  | .read o, r => readTimedOut o r
  | _, _ => false

/-- The outcome of a call; `none` if it waits for ever, because it reads without a deadline and the peer
is silent.  Writes never wait (the socket's buffer has room). -/
def waitRun {α : Type} (readTimeout writeTimeout : Int) (env : CEnv C) :
    CProg C α → Timed → Option (Res α × Timed)
  | .ret a, s => some (.val a, s)
  | .panic m, s => some (.panic m, s)
  | .op o k, s =>
    let r := texec readTimeout writeTimeout env o s
    if opTimedOut o r.1 && s.readBy.isNone then none
    else waitRun readTimeout writeTimeout env (k r.1) r.2

end

end Goe2ee
