import Verif.Spec.Trace

/-!
# The server's ephemeral keys
-/

set_option autoImplicit false

namespace Goe2ee

section
variable {C : Crypto}

/-- The key that a call of `ecdh.X25519().GenerateKey` with this result returns. -/
def drawnBy (ops : List SOp) (result : Except Err C.EPriv) : List C.EPriv :=
  match ops, result with
  | [.genKey], .ok k => [k]
  | _, _ => []

/-- The key generated in this step, if any. -/
def Sys.drawn (s : Sys C) (act : Nat × Answer C) : List C.EPriv := drawnBy (s.effect act) act.2.genKey

/-- All keys generated during a schedule, in order. -/
def Sys.generated (M : Manager C) (timeout : Nat) (s : Sys C) : List (Nat × Answer C) → List C.EPriv
  | [] => []
  | act :: acts => s.drawn act ++ Sys.generated M timeout (s.step M timeout act) acts

end

/-- What the key manager was asked to sign, in order. -/
def contentsSigned (ops : List SOp) : List Bytes :=
  ops.filterMap fun
    | .sign _ content => some content
    | _ => none

/-- Each of the handshakes has a key of its own among the keys generated: no key is used for two of them, unless it
was generated twice. -/
def OwnKeys {K H : Type} (key : H → K) (handshakes : List H) (generated : List K) : Prop :=
  ∃ unused, (handshakes.map key ++ unused).Perm generated

end Goe2ee
