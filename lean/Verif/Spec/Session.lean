import Verif.Model.ServerExec
import Verif.Spec.Wire

/-!
# Vocabulary for statements about sessions
-/

set_option autoImplicit false

namespace Goe2ee

/-- Counters accepted for a session, latest first. -/
def acceptedOf (r : Ref) (log : List Event) : List Nat :=
  (log.filterMap fun
    | .accepted r' c => if r' = r then some c.toNat else none
    | _ => none).reverse

/-- A state of the shared memory of a server with the in-memory session manager, after any schedule
and any traffic. -/
def Reachable (C : Crypto) (w : World) : Prop :=
  ∃ (timeout ttl closers : Nat) (acts : List (Nat × Answer C)),
    w = (Sys.run (inMemory C) timeout (Sys.start ttl closers) acts).world

/-- The state after serving one request from `host` (TCP or UDP), nothing else running. -/
def serveOne {C : Crypto} (timeout : Nat) (ans : Nat → Answer C) (host : Bytes) (s : Seq) : Seq :=
  ((serveRequest (inMemory C) (.ok host)).run (seqI C timeout ans) s).2

/-- All that was written in response is one error response with this code. -/
def RefusedWith (s s' : Seq) (code : Nat) : Prop :=
  ∃ text n e, s'.conn.writes = s.conn.writes ++ [(Wire.errorResponse code text, n, e)]

/-- The goroutine is between two passes of its loop, waits for a request, or has ended. -/
def Thread.idle {C : Crypto} (t : Thread C) : Prop :=
  t.prog = t.loop ∨ (∃ host, t.prog = serveRequest (inMemory C) host) ∨ ∃ b, t.prog = .ret b

/-- Two inputs with the same digest. -/
def Collides (digest : Bytes → Bytes) (a b : Bytes) : Prop := a ≠ b ∧ digest a = digest b

end Goe2ee
