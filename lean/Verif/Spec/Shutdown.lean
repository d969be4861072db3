import Verif.Model.ServerExec

/-!
# Vocabulary for statements about shutdown
-/

set_option autoImplicit false

namespace Goe2ee

def Event.isInvoked : Event → Bool
  | .invoked _ _ _ _ _ _ => true
  | _ => false

/-- The application is not called after `Server.Close` returned. -/
def NothingAfterClose (log : List Event) : Prop :=
  ∀ before after, log = before ++ .closeReturned :: after → ∀ e ∈ after, e.isInvoked = false

def Peer.isTcp : Peer → Prop
  | .tcp _ _ => True
  | .udp _ _ => False

/-- No datagram arrives in this step. -/
def NoDatagram {C : Crypto} (a : Answer C) : Prop := ∀ p, a.peer = .ok p → p.isTcp

section
variable {C : Crypto}

/-- The server after the first `n` steps of an endless schedule. -/
def Sys.after (M : Manager C) (timeout : Nat) (s : Sys C) (σ : Nat → Nat × Answer C) : Nat → Sys C
  | 0 => s
  | n + 1 => (s.after M timeout σ n).step M timeout (σ n)

/-- The goroutine waits for a client: for a connection or a datagram. -/
def Thread.awaitsPeer (t : Thread C) : Prop :=
  (∃ k, t.prog = .op .accept k) ∨ ∃ k, t.prog = .op .receive k

/-- Every goroutine goes on sooner or later, except that clients need not come. -/
def Fair (M : Manager C) (timeout : Nat) (s : Sys C) (σ : Nat → Nat × Answer C) : Prop :=
  ∀ (n i : Nat) (t : Thread C), (s.after M timeout σ n).threads[i]? = some t → ¬ t.awaitsPeer →
    ∃ m, n ≤ m ∧ (σ m).1 = i

end

end Goe2ee
