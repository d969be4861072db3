import Verif.Proofs.Agreement
import Verif.Props.Session

/-!
# C93: who can replace a session
-/

set_option autoImplicit false

namespace Goe2ee

section
variable {C : Crypto}

/-- **C93**, as one would want it: a session that a client has set up is not lost because somebody else
sends a setup request.  In every reachable state with a session for (host, id): after a setup request with
any public key, a fresh genuine message of that session is still handed to the application. -/
def C93_claim : Prop :=
  ∀ (C : Crypto) (timeout : Nat) (ans : Nat → Answer C) (host : Bytes) (s s' : Seq) (id : ID)
    (other : C.EPub) (rest rest' : List (Byte ⊕ Err)) (expectReply : Bool) (counter : BitVec 64)
    (ciphertext message : Bytes) (r : Ref) (t : Nat) (secret key : Bytes) (window : ReplayWindow),
    C.Lawful → Reachable C s.world → s.world.table (sessionKey C host id) = some (r, t) →
    s.world.heap[r]? = some (secret, window) → Fresh (acceptedOf r s.world.log) counter.toNat →
    deriveKey C secret kdfInfo aesKeySize = .ok key →
    Delivers s.conn.input (Wire.setupRequest id.val (C.marshalEPub other)) rest →
    s'.world = (serveOne timeout ans host s).world →
    Delivers s'.conn.input (Wire.processRequest expectReply id.val counter.toNat ciphertext) rest' →
    ciphertext.length ≤ 2 ^ 30 →
    C.aeadOpen key (Wire.nonce12 0 counter.toNat) ciphertext = some message →
    ∃ result, .invoked r counter host id.val message result ∈ (serveOne timeout ans host s').world.log

namespace ReplaceExample

/-- Somebody at the same address sends a setup request with the client's id, which every request of the
client carries unencrypted. -/
def attack : Bytes := (newSetupRequest Toy.crypto OnceExample.id (6 : BitVec 256)).bytes

def after : World :=
  (serveOne 5000 SessionExample.env (str "10.0.0.1") (SessionExample.start SessionExample.world attack)).world

end ReplaceExample

/-- **C93 is refuted**: the id is no secret, and a setup request with it, from the same address (another
process on the host, another host behind the same address translator), replaces the session; the
client's genuine message is then refused. -/
theorem C93_refuted : ¬ C93_claim := by
  intro h
  obtain ⟨result, hr⟩ := h Toy.crypto 5000 SessionExample.env (str "10.0.0.1")
    (SessionExample.start SessionExample.world ReplaceExample.attack)
    (SessionExample.start ReplaceExample.after SessionExample.genuine) OnceExample.id (6 : BitVec 256) [] [] true 1
    (Toy.crypto.aeadSeal OnceExample.key (Wire.nonce12 0 1) (str "ping")) (str "ping") 0 2 (beEnc 32 14)
    OnceExample.key .fresh Toy.lawful SessionExample.reachable (by decide +kernel) (by decide +kernel)
    (by decide +kernel) SessionExample.key_ok (by unfold Delivers SessionExample.start; decide +kernel) rfl
    (by unfold Delivers SessionExample.start; decide +kernel) (by decide +kernel) (by decide +kernel)
  have hlog : (serveOne 5000 SessionExample.env (str "10.0.0.1")
      (SessionExample.start ReplaceExample.after SessionExample.genuine)).world.log =
      [.established 0 (str "10.0.0.1") OnceExample.id.val, .established 1 (str "10.0.0.1") OnceExample.id.val,
       .accepted 1 1] := by decide +kernel
  rw [hlog] at hr
  simp at hr

/-- **C93**, where sessions come from: whatever the schedule and traffic, each session belongs to an
address from which a setup request with its id was received. -/
theorem C93_sessions_come_from_setups {M : Manager C} (hM : M.Passive) (timeout ttl closers : Nat)
    (acts : List (Nat × Answer C)) (r : Nat) (host id : Bytes)
    (h : .established r host id ∈ (Sys.run M timeout (Sys.start ttl closers) acts).world.log) :
    ∃ p pk, Accepts ((Sys.start ttl closers).effects M timeout acts) p ∧ p.host = .ok host ∧
      SendsSetup p id pk := by
  rcases run_event M timeout acts (Sys.start ttl closers) _ h with h | ⟨secret, h⟩
  · exact absurd h List.not_mem_nil
  obtain ⟨g, hgood, hpre, hpeer, -⟩ :=
    know_run (strict := false) ⟨hM, fun h => nomatch h⟩ timeout ttl closers acts _ h
  rcases hpre with hb | ⟨p, pk, k, clientKey, g1, g2, -, g3, -, -⟩
  · rw [hgood] at hb; cases hb
  exact ⟨p, pk, (hpeer p g1).1, g2, (hpeer p g1).2 _ g3⟩

/-- **C93**, who can touch the session table (`_partial`: requests from the same address with the same id
can): whatever the schedule and traffic, what is stored for an address and id is only ever written on
behalf of a connection or datagram from that address which carries a setup or process request with that
id. -/
theorem C93_only_from_there_partial (timeout ttl closers : Nat) (acts : List (Nat × Answer C)) (key : Bytes)
    (v : Ref × Nat) (h : .mapStore key v ∈ (Sys.start ttl closers).effects (inMemory C) timeout acts) :
    ∃ p host id, Accepts ((Sys.start ttl closers).effects (inMemory C) timeout acts) p ∧ p.host = .ok host ∧
      key = sessionKey C host id ∧
      ((∃ pk, SendsSetup p id.val pk) ∨ ∃ counter ct, SendsMessage p id.val counter ct) := by
  obtain ⟨g, hgood, hpre, hpeer, -⟩ :=
    know_run (strict := true) ⟨inMemory_passive C, fun _ => rfl⟩ timeout ttl closers acts _ h
  rcases hpre rfl with hb | ⟨p, host, id, g1, g2, g3, g4⟩
  · rw [hgood] at hb; cases hb
  refine ⟨p, host, id, (hpeer p g1).1, g2, g3, g4.imp ?_ ?_⟩
  · rintro ⟨pk, hs⟩
    exact ⟨pk, (hpeer p g1).2 _ hs⟩
  · rintro ⟨flags, c, ct, hs⟩
    exact ⟨c, ct, id.property, flags, (hpeer p g1).2 _ hs⟩

/-- **C93**, the undisturbed client (`_partial`: as above): if no other session was ever set up for an
address and id (up to collisions of SHA-256), then whatever else happens, what is stored there is that
session, unless it expired. -/
theorem C93_undisturbed_partial {w : World} (hw : Reachable C w) (r : Ref) (host : Bytes) (id : ID)
    (honly : ∀ r' host' id', .established r' host' id' ∈ w.log →
      C.sha256 (host' ++ id') = C.sha256 (host ++ id.val) → r' = r) :
    w.table (sessionKey C host id) = none ∨ ∃ t, w.table (sessionKey C host id) = some (r, t) := by
  cases ht : w.table (sessionKey C host id) with
  | none => exact .inl rfl
  | some x =>
    obtain ⟨r', t⟩ := x
    obtain ⟨gs, hf⟩ := hw.files
    obtain ⟨host', id', he, hk⟩ := hf.table _ _ _ ht
    refine .inr ⟨t, ?_⟩
    rw [honly r' host' id' he (b64Encode_inj _ _ hk).symm]

/-- In the example world the client is undisturbed before the attack, and not after it. -/
example : (∀ e ∈ SessionExample.world.log, e = .established 0 (str "10.0.0.1") OnceExample.id.val) ∧
    (SessionExample.world.table (sessionKey Toy.crypto (str "10.0.0.1") OnceExample.id)).map (·.1) = some 0 ∧
    (ReplaceExample.after.table (sessionKey Toy.crypto (str "10.0.0.1") OnceExample.id)).map (·.1) = some 1 := by
  decide +kernel

end

end Goe2ee
