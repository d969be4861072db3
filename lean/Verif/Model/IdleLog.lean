import Verif.Model.ServerLog
import Verif.Model.Loops

/-!
# The loops of a server to which nobody connects, with a clock

The loop of `StartTCP` and the loop of `StartUDP`, as they log (`Verif.Model.ServerLog`).  Nothing arrives: `Accept` does not
return, and a read of the UDP socket ends only by its deadline; or the sockets are broken and fail at once.

Simplification: setting the read deadline of the UDP socket (server.go:273-278) does not fail.
-/

set_option autoImplicit false

namespace Goe2ee

/-- The loops. -/
inductive ListenLoop where
  /-- server.go:153-168 -/
  | tcp
  /-- server.go:266-334 -/
  | udp
  | ended
  deriving DecidableEq, Repr

/-- One round. -/
def listenBody (C : Crypto) : ListenLoop → Prog (LSig C) ListenLoop
  | .tcp => acceptPassL.bind fun more => .ret (if more then .tcp else .ended)
  | .udp => packetPassL.bind fun more => .ret (if more then .udp else .ended)
  | .ended => .ret .ended

/-- Clock, deadline of the socket and log. -/
structure ListenWorld where
  now : Nat := 0
  deadline : Option Nat := none
  lines : List (String × List LogArg) := []

/-- The environment's choices: how much time passes before the effect; is the server closed; does the socket fail? -/
structure ListenEnv where
  tick : Nat := 0
  quit : Bool := false
  broken : Option Err := none

/-- One effect of a server with the given read timeout (0: none). -/
def listenExec (C : Crypto) (readTimeout : Nat) (e : ListenEnv) (_ : Nat) :
    (o : LOp) → ListenWorld → Option (o.Ret C × ListenWorld)
  | .base .quitClosed, w => some (e.quit, { w with now := w.now + e.tick })
  | .base .accept, w => e.broken.map fun err => (.error err, { w with now := w.now + e.tick })
  | .base .receive, w =>
    match e.broken with
    | some err => some (.error err, { w with now := w.now + e.tick })
    | none =>
    match w.deadline with
    | some d => if d ≤ w.now + e.tick then some (.error .timeout, { w with now := w.now + e.tick }) else none
    | none => none
  | .logIfFailed _, w =>
    some ((), { w with
      now := w.now + e.tick
      deadline := if readTimeout > 0 then some (w.now + e.tick + readTimeout) else w.deadline })
  | .log format args, w => some ((), { w with now := w.now + e.tick, lines := w.lines ++ [(format, args)] })
  | _, _ => none

/-- A server that listens on one socket, after a schedule. -/
def listening (C : Crypto) (readTimeout : Nat) (loop : ListenLoop) (acts : List ListenEnv) :
    Loops (LSig C) ListenLoop ListenWorld :=
  Loops.run (listenBody C) (listenExec C readTimeout) ⟨{}, [.ret loop]⟩ (acts.map fun e => (0, e))

end Goe2ee
