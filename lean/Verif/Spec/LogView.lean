import Verif.Spec.ServerLog

/-!
# What may be learned from a server's log
-/

set_option autoImplicit false

namespace Goe2ee

section
variable {C : Crypto}

/-- What remains of an effect when private keys, secrets, sessions, messages, replies, signatures and all octets sent are
hidden: what was received, how much was sent and how that ended, what failed with which error, whether there is a session,
whether a message number is new, and how the handler ended. -/
inductive LogView where
  | received (o : ROp) (r : o.Ret)
  | sent (length : Nat) (result : Nat × Option Err)
  | keyGenerated (failed : Option Err)
  | signed (failed : Option Err)
  | publicKey (result : Except Err (KeyAlgorithm × PublicKey))
  | sessionOpened
  | sessionFound (yes : Bool)
  | fresh (yes : Bool)
  | replied
  | handlerFailed (e : Err)
  | handlerPanicked (m : String)
  | stopped (yes : Bool)
  | accepted (failed : Option Err)
  | other

/-- The error of a result. -/
def failure {α : Type} : Except Err α → Option Err
  | .error e => some e
  | .ok _ => none

/-- The view of an effect with its result. -/
def logView : (o : SOp) → o.Ret C → LogView
  | .read o, r => .received o r
  | .write bs, r => .sent bs.length r
  | .genKey, r => .keyGenerated (failure r)
  | .sign _ _, r => .signed (failure r)
  | .fetchKey, r => .publicKey r
  | .newSession _ _ _, _ => .sessionOpened
  | .mapLoad _, r => .sessionFound (Option.isSome r)
  | .check _ _, r => .fresh r
  | .invoke _ _ _ _ _, r =>
    match r with
    | .reply _ => .replied
    | .error e => .handlerFailed e
    | .panic m => .handlerPanicked m
  | .quitClosed, r => .stopped r
  | .accept, r => .accepted (failure r)
  | .receive, r => .accepted (failure r)
  | _, _ => .other

/-- The view of what a goroutine did. -/
def logViews : LTrace C → List LogView
  | [] => []
  | ⟨.base o, r⟩ :: rest => logView o r :: logViews rest
  | _ :: rest => logViews rest

end

end Goe2ee
