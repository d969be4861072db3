import Verif.Props.Handler

/-!
# C141: who decides whether the server replies
-/

set_option autoImplicit false

namespace Goe2ee

/-- **C141**: whether the server replies to a message is decided by the client, even if somebody on the path
changes octets of the request outside the ciphertext.  A client sends a genuine message and asks for a reply or
not (`asked`); what arrives differs at most in the flag (`arrives`).  The session is known, the counter fresh, the
application returns nil, and the transport accepts the response: it is written exactly if the client asked for
it. -/
def C141_claim : Prop :=
  ∀ (C : Crypto) (timeout : Nat) (ans : Nat → Answer C) (host : Bytes) (s : Seq) (asked arrives : Bool) (id : ID)
    (counter : BitVec 64) (sent request ciphertext : Bytes) (r : Ref) (t : Nat) (secret key message written : Bytes)
    (window : ReplayWindow),
    C.Lawful → Reachable C s.world → ciphertext.length ≤ 2 ^ 30 →
    sent = Wire.processRequest asked id.val counter.toNat ciphertext →
    request = sent.set 1 (if arrives then 0x80 else 0x00) →
    flatten s.conn.input = request.map Sum.inl →
    s.world.table (sessionKey C host id) = some (r, t) → s.world.heap[r]? = some (secret, window) →
    Fresh (acceptedOf r s.world.log) counter.toNat →
    deriveKey C secret kdfInfo aesKeySize = .ok key →
    ciphertext = C.aeadSeal key (Wire.nonce12 0 counter.toNat) message →
    (∀ p, (ans p).handle = .reply written ∧ (ans p).write = (0, none)) →
    (∀ d, s.conn.deadline = some d → ∀ i j, s.world.now + (ans i).tick + (ans j).tick ≤ d) →
    (serveOne timeout ans host s).conn.output = s.conn.output ++
      if asked then Wire.processResponse counter.toNat (C.aeadSeal key (Wire.nonce12 1 counter.toNat) written)
      else []

section
variable {C : Crypto}

/-- The request with another flag. -/
theorem processRequest_set (asked arrives : Bool) (id : Bytes) (counter : Nat) (ciphertext : Bytes) :
    (Wire.processRequest asked id counter ciphertext).set 1 (if arrives then 0x80 else 0x00) =
      Wire.processRequest arrives id counter ciphertext := by
  simp [Wire.processRequest]

/-- **C141** as it is: the flag that arrives decides, and in both cases the application is called with the message
once and the counter is used up. -/
theorem C141_flag (hC : C.Lawful) (timeout : Nat) (ans : Nat → Answer C) (host : Bytes) (s : Seq)
    (hs : Reachable C s.world) (asked arrives : Bool) (id : ID) (counter : BitVec 64) (ciphertext : Bytes)
    (r : Ref) (t : Nat) (secret key message written : Bytes) (window : ReplayWindow)
    (hl : ciphertext.length ≤ 2 ^ 30)
    (h : flatten s.conn.input = ((Wire.processRequest asked id.val counter.toNat ciphertext).set 1
      (if arrives then 0x80 else 0x00)).map Sum.inl)
    (ht : s.world.table (sessionKey C host id) = some (r, t)) (hh : s.world.heap[r]? = some (secret, window))
    (hfresh : Fresh (acceptedOf r s.world.log) counter.toNat)
    (hk : deriveKey C secret kdfInfo aesKeySize = .ok key)
    (hct : ciphertext = C.aeadSeal key (Wire.nonce12 0 counter.toNat) message)
    (hans : ∀ p, (ans p).handle = .reply written ∧ (ans p).write = (0, none))
    (hd : ∀ d, s.conn.deadline = some d → ∀ i j, s.world.now + (ans i).tick + (ans j).tick ≤ d) :
    (serveOne timeout ans host s).conn.output = s.conn.output ++
      (if arrives then Wire.processResponse counter.toNat (C.aeadSeal key (Wire.nonce12 1 counter.toNat) written)
       else []) ∧
    handledFor r (serveOne timeout ans host s).world.log =
      handledFor r s.world.log ++ [(message, .reply written)] ∧
    .accepted r counter ∈ (serveOne timeout ans host s).world.log := by
  rw [processRequest_set] at h
  have hwin : Represents window (acceptedOf r s.world.log) := hs.windows.1 r _ hh
  have hopen : C.aeadOpen key (Wire.nonce12 0 counter.toNat) ciphertext = some message := by
    rw [hct]; exact hC.open_seal _ _ _
  cases arrives with
  | true =>
    obtain ⟨evs, now, now', -, hrun⟩ := serve_reply hC timeout ans host s id counter ciphertext hl h r t secret key
      message written window _ ht hh hwin hfresh hk hopen (hans _).1 (hans _).2 (fun d h => hd d h _ _) _ rfl
    rw [serveOne, hrun]
    refine ⟨rfl, ?_, ?_⟩ <;> simp [World.logged, World.acceptedBy, handledFor]
  | false =>
    obtain ⟨evs, -, h1⟩ := run_serveRequest hC timeout ans (inMemory C) (.ok host)
      (.process false id counter ciphertext) hl s [] (by rw [List.append_nil]; exact h)
    have hc : (window.checkAndUpdate counter).1 = true :=
      (checkAndUpdate_spec window _ hwin counter).1.mpr hfresh
    obtain ⟨now, hnow, h2⟩ := run_process_known hC timeout ans host
      (parsedProcess false id counter ciphertext)
      { s with conn := { s.conn with input := evs } } r t secret key window ht hh hc hk
    rw [show (parsedProcess false id counter ciphertext).message = ciphertext from rfl,
      show (parsedProcess false id counter ciphertext).counter = counter from rfl, hopen] at h2
    dsimp only at h2
    rw [serveOne, h1, Prog.run_bind]
    dsimp only [afterParse]
    rw [h2]
    simp only [runHandler, Prog.run, seqI, exec, (hans _).1, goOn]
    rw [show (parsedProcess false id counter ciphertext).expectReply = false from rfl, if_neg (by decide)]
    simp only [Prog.run]
    refine ⟨by simp, ?_, ?_⟩ <;> simp [World.logged, World.acceptedBy, handledFor]

/-- **C141** as far as it holds: if nobody changes the flag. -/
theorem C141_unchanged_partial (hC : C.Lawful) (timeout : Nat) (ans : Nat → Answer C) (host : Bytes) (s : Seq)
    (hs : Reachable C s.world) (asked : Bool) (id : ID) (counter : BitVec 64) (ciphertext : Bytes)
    (r : Ref) (t : Nat) (secret key message written : Bytes) (window : ReplayWindow)
    (hl : ciphertext.length ≤ 2 ^ 30)
    (h : flatten s.conn.input = (Wire.processRequest asked id.val counter.toNat ciphertext).map Sum.inl)
    (ht : s.world.table (sessionKey C host id) = some (r, t)) (hh : s.world.heap[r]? = some (secret, window))
    (hfresh : Fresh (acceptedOf r s.world.log) counter.toNat)
    (hk : deriveKey C secret kdfInfo aesKeySize = .ok key)
    (hct : ciphertext = C.aeadSeal key (Wire.nonce12 0 counter.toNat) message)
    (hans : ∀ p, (ans p).handle = .reply written ∧ (ans p).write = (0, none))
    (hd : ∀ d, s.conn.deadline = some d → ∀ i j, s.world.now + (ans i).tick + (ans j).tick ≤ d) :
    (serveOne timeout ans host s).conn.output = s.conn.output ++
      if asked then Wire.processResponse counter.toNat (C.aeadSeal key (Wire.nonce12 1 counter.toNat) written)
      else [] :=
  (C141_flag hC timeout ans host s hs asked asked id counter ciphertext r t secret key message written window hl
    (by rw [processRequest_set]; exact h) ht hh hfresh hk hct hans hd).1

end

namespace FlagExample
open SessionExample

/-- The client's first message, with another flag. -/
def changed : Bytes := genuine.set 1 0

end FlagExample

/-- The application is called all the same, and nothing is answered; unchanged, it is answered. -/
example :
    let s := SessionExample.start SessionExample.world FlagExample.changed
    let s' := serveOne 5000 SessionExample.env (str "10.0.0.1") s
    handledFor 0 s'.world.log = [(str "ping", .reply (str "pong"))] ∧ s'.conn.output = [] ∧
    (serveOne 5000 SessionExample.env (str "10.0.0.1")
      (SessionExample.start SessionExample.world SessionExample.genuine)).conn.output =
      Wire.processResponse 1 (Toy.crypto.aeadSeal OnceExample.key (Wire.nonce12 1 1) (str "pong")) := by
  decide +kernel

/-- **C141 is refuted**: the flag is not authenticated. -/
theorem C141_refuted : ¬ C141_claim := by
  intro h
  have h1 := h Toy.crypto 5000 SessionExample.env (str "10.0.0.1")
    (SessionExample.start SessionExample.world FlagExample.changed) true false OnceExample.id 1
    SessionExample.genuine FlagExample.changed
    (Toy.crypto.aeadSeal OnceExample.key (Wire.nonce12 0 1) (str "ping")) 0 2 (beEnc 32 14) OnceExample.key
    (str "ping") (str "pong") .fresh
    Toy.lawful SessionExample.reachable (by decide +kernel) rfl rfl
    (by simp [SessionExample.start, flatten]) (by decide +kernel) (by decide +kernel) (by decide +kernel)
    SessionExample.key_ok rfl (fun p => ⟨rfl, rfl⟩) (by intro d hd; cases hd)
  revert h1
  decide +kernel

end Goe2ee
