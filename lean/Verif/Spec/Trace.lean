import Verif.Model.ServerExec
import Verif.Spec.Wire

/-!
# What a schedule made the server do
-/

set_option autoImplicit false

namespace Goe2ee

section
variable {C : Crypto}

/-- The effect performed when the scheduler picks this goroutine (none if it only enters its next pass,
waits or does not exist). -/
def Sys.effect (s : Sys C) (act : Nat × Answer C) : List SOp :=
  match s.threads[act.1]? with
  | none => []
  | some t =>
    match t.prog with
    | .op o _ => if enabled s.world o then [o] else []
    | _ => []

/-- All effects of a schedule, in order. -/
def Sys.effects (M : Manager C) (timeout : Nat) (s : Sys C) : List (Nat × Answer C) → List SOp
  | [] => []
  | act :: acts => s.effect act ++ Sys.effects M timeout (s.step M timeout act) acts

/-- The server accepted this connection or datagram. -/
def Accepts (ops : List SOp) (p : Peer) : Prop := .spawn p ∈ ops

/-- The key manager was asked to sign this. -/
def Signs (ops : List SOp) (content : Bytes) : Prop := ∃ hash, .sign hash content ∈ ops

end

/-- What arrives from a peer: octets, and errors of the transport. -/
def Peer.stream : Peer → List (Byte ⊕ Err)
  | .tcp _ input => flatten input
  | .udp _ datagram => datagram.map Sum.inl

/-- These octets arrive, one after the other, somewhere in the stream. -/
def Within (bs : Bytes) (stream : List (Byte ⊕ Err)) : Prop := bs.map Sum.inl <:+: stream

/-- The address a connection or datagram comes from, if it can be determined. -/
def Peer.host : Peer → Except Err Bytes
  | .tcp host _ => host
  | .udp host _ => host

/-- The peer sends a process request with this id, counter and ciphertext. -/
def SendsMessage (p : Peer) (id : Bytes) (counter : Nat) (ct : Bytes) : Prop :=
  id.length = 16 ∧ ∃ flags : Byte,
    Within (0x13#8 :: flags :: (id ++ Wire.be64 counter ++ Wire.be64 ct.length ++ ct)) p.stream

/-- The peer sends a setup request with this id and public key. -/
def SendsSetup (p : Peer) (id pk : Bytes) : Prop := Within (Wire.setupRequest id pk) p.stream

end Goe2ee
