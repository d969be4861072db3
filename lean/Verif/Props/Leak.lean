import Verif.Proofs.Leak
import Verif.Props.Once
import Verif.Props.Robust

/-!
# C83: what the server discloses

Nothing but fixed texts, public keys, signatures and ciphertexts leaves the server.
-/

set_option autoImplicit false

namespace Goe2ee

/-- Every error text the server can send, with its code.  None of them carries an error of the
application, of the key manager or of the session manager. -/
def errorTexts : List (Nat × String) :=
  [(1, "failed to parse data of the request"),
   (1, "failed to generate private key"),
   (1, "failed to generate shared secret"),
   (2, "failed to split host and port"),
   (2, "failed to store shared secret"),
   (2, "failed to sign response"),
   (2, "failed to derive encryption key"),
   (2, "failed to create AES cipher"),
   (2, "failed to create GCM cipher"),
   (2, "failed to decrypt message"),
   (2, "failed to handle message"),
   (2, "failed to fetch public key"),
   (2, "failed to encode public key"),
   (2, "failed to send back action response"),
   (3, "could not find a shared secret matching the given ID"),
   (5, "message counter was already seen or is too old")]

section
variable {C : Crypto}

/-- What the server may write: `acts` is what its environment did, `log` what it did with sessions. -/
inductive Disclosed (acts : List (Nat × Answer C)) (log : List Event) : Bytes → Prop where
  /-- the hello response -/
  | hello : Disclosed acts log Wire.helloResponse
  /-- an error response with one of the fixed texts -/
  | error {code : Nat} {text : String} (h : (code, text) ∈ errorTexts) :
      Disclosed acts log (Wire.errorResponse code (str text))
  /-- a setup response: the public half of a generated key, and the key manager's signature of the
  transcript with it -/
  | setup {k : C.EPriv} {clientKey : C.EPub} {id : ID} {signature : Bytes}
      (generated : ∃ act ∈ acts, act.2.genKey = .ok k)
      (signed : ∃ act ∈ acts, act.2.sign cryptoSHA512
        (Wire.transcript (C.marshalEPub clientKey) (C.marshalEPub (C.epub k)) id.val) = .ok signature)
      (ne : signature ≠ []) :
      Disclosed acts log (Wire.setupResponse (C.marshalEPub (C.epub k)) 4 signature)
  /-- a setup response without signature, when the key manager's signature is empty -/
  | unsigned {k : C.EPriv} (generated : ∃ act ∈ acts, act.2.genKey = .ok k) :
      Disclosed acts log ([0x80#8] ++ Wire.be32 (C.marshalEPub (C.epub k)).length ++
        C.marshalEPub (C.epub k))
  /-- the key manager's public key -/
  | fetchKey {algorithm : KeyAlgorithm} {key : PublicKey} {raw : Bytes}
      (fetched : ∃ act ∈ acts, act.2.fetchKey = .ok (algorithm, key))
      (encoded : C.marshalPKIX key = .ok raw) :
      Disclosed acts log (Wire.fetchKeyResponse algorithm raw)
  /-- the application's reply to the message with this counter, encrypted for the session -/
  | process {r : Ref} {counter : BitVec 64} {host id message reply key : Bytes}
      (replied : .invoked r counter host id message (.reply reply) ∈ log)
      (encrypted : .sealed r key (Wire.nonce12 1 counter.toNat) reply ∈ log) :
      Disclosed acts log (Wire.processResponse counter.toNat
        (C.aeadSeal key (Wire.nonce12 1 counter.toNat) reply))

theorem Disclosed.mono {acts : List (Nat × Answer C)} {l l' : List Event} (hl : ∀ e ∈ l, e ∈ l')
    {bs : Bytes} (h : Disclosed acts l bs) : Disclosed acts l' bs := by
  cases h with
  | hello => exact .hello
  | error h => exact .error h
  | setup h1 h2 h3 => exact .setup h1 h2 h3
  | unsigned h => exact .unsigned h
  | fetchKey h1 h2 => exact .fetchKey h1 h2
  | process h1 h2 => exact .process (hl _ h1) (hl _ h2)

/-- The automaton of C83. -/
abbrev discloseA (C : Crypto) : Auto (SSig C) (List (Fact C)) := leakA (C := C) Disclosed

theorem errorBytes_layout (code : ErrorCode) (text : String) :
    errorBytes code text = Wire.errorResponse code.toNat (str text) := by
  simp [errorBytes, ErrorResponse.bytes, newErrorResponse, ResponseCommon.bytes, Wire.errorResponse,
    beEnc_eight, beEnc_four]

theorem disclosed_error {code : ErrorCode} {text : String} (h : (code.toNat, text) ∈ errorTexts)
    (acts : List (Nat × Answer C)) (log : List Event) : Disclosed acts log (errorBytes code text) := by
  rw [errorBytes_layout]
  exact .error h

theorem leak_fail {code : ErrorCode} {text : String} (h : (code.toNat, text) ∈ errorTexts)
    (g : List (Fact C)) : Safe (discloseA C) (failWith code text) g AnyL :=
  leak_failWith _ _ (disclosed_error h) g

theorem leak_respond (bs : Bytes) (g : List (Fact C))
    (hb : ∀ acts log, (∀ f ∈ g, f.Holds acts log) → Disclosed acts log bs) :
    Safe (discloseA C) (respondWith bs) g AnyL :=
  leak_respondWith _ _ hb (disclosed_error (by decide))

theorem leak_setupHandler {M : Manager C} (hM : M.Passive) (host : Except Err Bytes)
    (common : RequestCommon) (g : List (Fact C)) :
    Safe (discloseA C) (setupHandler M host common) g AnyL := by
  unfold setupHandler
  refine Safe.bind (leak_plain ((uses_onConn _).mono isRead_unleaky) fun parsed => ?_)
  rcases parsed with _ | request
  · exact leak_fail (by decide) _
  refine ⟨trivial, fun (generated : Except Err C.EPriv) => ?_⟩
  rcases generated with _ | serverPrivateKey
  · exact leak_fail (by decide) _
  dsimp only
  split
  · exact leak_fail (by decide) _
  split
  · exact leak_fail (by decide) _
  refine ⟨trivial, fun (session : Ref) => ?_⟩
  refine Safe.bind (leak_plain ((hM.store _ _).mono isTable_unleaky) fun stored => ?_)
  rcases stored with _ | _
  · exact leak_fail (by decide) _
  refine ⟨trivial, fun (signed : Except Err Bytes) => ?_⟩
  rcases signed with _ | signature
  · exact leak_fail (by decide) _
  refine leak_respond _ _ fun acts log hf => ?_
  have hk : Fact.Holds acts log (.key serverPrivateKey) :=
    hf _ (List.mem_cons_of_mem _ (List.mem_cons_self ..))
  have hs : Fact.Holds acts log (.sig cryptoSHA512
      (setupTranscript C request.publicKey (C.epub serverPrivateKey) request.id) signature) :=
    hf _ (List.mem_cons_self ..)
  rw [C13_transcript_layout] at hs
  by_cases hne : signature = []
  · subst hne
    have : Disclosed acts log _ := Disclosed.unsigned hk
    simpa [SetupResponse.bytes, newSetupResponse, SetupResponse.setSignature,
      ResponseCommon.bytes, beEnc_four] using this
  · have hlen : 0 < signature.length := List.length_pos_iff.mpr hne
    have : Disclosed acts log _ := Disclosed.setup hk hs hne
    simpa [SetupResponse.bytes, newSetupResponse, SetupResponse.setSignature, ResponseCommon.bytes,
      Wire.setupResponse, beEnc_four, hlen, hashTypeSHA512] using this

theorem leak_processHandler {M : Manager C} (hM : M.Passive) (host : Except Err Bytes)
    (common : RequestCommon) (g : List (Fact C)) :
    Safe (discloseA C) (processHandler M host common) g AnyL := by
  unfold processHandler
  refine Safe.bind (leak_plain ((uses_onConn _).mono isRead_unleaky) fun parsed => ?_)
  rcases parsed with _ | request
  · exact leak_fail (by decide) _
  dsimp only
  split
  · exact leak_fail (by decide) _
  refine Safe.bind (leak_plain ((hM.load _).mono isTable_unleaky) fun loaded => ?_)
  rcases loaded with _ | session
  · exact leak_fail (by decide) _
  refine ⟨trivial, fun (fresh : Bool) => ?_⟩
  cases fresh with
  | false => exact leak_fail (by decide) _
  | true =>
    refine ⟨trivial, fun (secret : Bytes) => ?_⟩
    dsimp only
    split
    · exact leak_fail (by decide) _
    split
    · exact leak_fail (by decide) _
    split
    · exact leak_fail (by decide) _
    rw [show gcmNonceSize = 12 from rfl, C12_nonce_layout]
    dsimp only [ofRes, Prog.ret_bind]
    split
    · exact leak_fail (by decide) _
    unfold runHandler
    refine ⟨trivial, fun (handled : HRes) => ?_⟩
    rcases handled with written | e | m
    rotate_left
    · exact leak_fail (by decide) _
    · trivial
    dsimp only
    split
    · rw [show gcmNonceSize = 12 from rfl, C12_nonce_layout]
      refine ⟨trivial, fun (sealed : Bytes) => ?_⟩
      refine leak_respond _ _ fun acts log hf => ?_
      obtain ⟨h1, h2⟩ := hf _ (List.mem_cons_self ..)
      obtain ⟨host, id, m, h3⟩ := hf _ (List.mem_cons_of_mem _ (List.mem_cons_self ..))
      rw [processResponse_bytes, h2]
      exact .process h3 h1
    · trivial

theorem leak_fetchKeyHandler (g : List (Fact C)) : Safe (discloseA C) fetchKeyHandler g AnyL := by
  unfold fetchKeyHandler
  refine ⟨trivial, fun (fetched : Except Err (KeyAlgorithm × PublicKey)) => ?_⟩
  rcases fetched with _ | ⟨alg, pk⟩
  · exact leak_fail (by decide) _
  dsimp only
  split
  · exact leak_fail (by decide) _
  · rename_i raw hraw
    refine leak_respond _ _ fun acts log hf => ?_
    rw [fetchKeyResponse_bytes]
    exact .fetchKey (hf _ (List.mem_cons_self ..)) hraw

theorem leak_serveRequest {M : Manager C} (hM : M.Passive) (host : Except Err Bytes)
    (g : List (Fact C)) : Safe (discloseA C) (serveRequest M host) g AnyL := by
  unfold serveRequest
  refine Safe.bind (leak_plain ((uses_onConn _).mono isRead_unleaky) fun parsed => ?_)
  rcases parsed with _ | common
  · trivial
  dsimp only
  split
  · trivial
  have : Safe (discloseA C) (handle M host common) g AnyL := by
    unfold handle
    split
    · exact leak_respond _ _ fun _ _ _ => .hello
    split
    · exact leak_setupHandler hM _ _ _
    split
    · exact leak_processHandler hM _ _ _
    split
    · exact leak_fetchKeyHandler _
    · trivial
  refine Safe.bind (this.mono fun err g' _ => ?_)
  rcases err with _ | _ <;> trivial

theorem leak_acceptPass (g : List (Fact C)) : Safe (discloseA C) acceptPass g AnyL := by
  refine ⟨trivial, fun (closed : Bool) => ?_⟩
  cases closed
  rotate_left
  · trivial
  refine ⟨trivial, fun (accepted : Except Err Peer) => ?_⟩
  rcases accepted with _ | peer
  · trivial
  exact ⟨trivial, fun _ => ⟨trivial, fun _ => trivial⟩⟩

theorem leak_packetPass (g : List (Fact C)) : Safe (discloseA C) packetPass g AnyL := by
  refine ⟨trivial, fun (closed : Bool) => ?_⟩
  cases closed
  rotate_left
  · trivial
  refine ⟨trivial, fun (received : Except Err Peer) => ?_⟩
  rcases received with _ | peer
  · trivial
  exact ⟨trivial, fun _ => trivial⟩

theorem leak_closeServer (g : List (Fact C)) : Safe (discloseA C) closeServer g AnyL := by
  refine ⟨trivial, fun (ok : Bool) => ?_⟩
  cases ok
  · trivial
  · exact ⟨trivial, fun _ => ⟨trivial, fun _ => trivial⟩⟩

theorem leak_gcVisit (ttl : Nat) (g : List (Fact C)) : Safe (discloseA C) (gcVisit ttl) g AnyL := by
  refine ⟨trivial, fun key => ⟨trivial, fun (value : Option (Ref × Nat)) => ?_⟩⟩
  rcases value with _ | ⟨r, last⟩
  · trivial
  refine ⟨trivial, fun (t : Nat) => ?_⟩
  dsimp only
  split
  · exact ⟨trivial, fun _ => trivial⟩
  · trivial

theorem leak_repeating {p : SProg C Bool} (hp : ∀ g, Safe (discloseA C) p g AnyL) (g : List (Fact C)) :
    ThreadOK (discloseA C) (.repeating p) g := by
  refine ThreadOK.always ?_ ?_ ?_ g
  · exact hp
  · exact hp
  · exact fun _ => trivial

theorem leak_peer {M : Manager C} (hM : M.Passive) (p : Peer) (g : List (Fact C)) :
    ThreadOK (discloseA C) (Thread.ofPeer M p) g := by
  cases p with
  | tcp host input =>
    have : ∀ g, Safe (discloseA C) (connPass M host) g AnyL := by
      intro g
      refine ⟨trivial, fun (closed : Bool) => ?_⟩
      cases closed
      · exact ⟨trivial, fun _ => leak_serveRequest hM _ _⟩
      · trivial
    refine ThreadOK.always ?_ ?_ ?_ g
    · exact this
    · exact this
    · exact fun _ => ⟨trivial, fun _ => ⟨trivial, fun _ => trivial⟩⟩
  | udp host datagram =>
    refine ThreadOK.always ?_ ?_ ?_ g
    · exact fun g => ⟨trivial, fun _ => Safe.bind ((leak_serveRequest hM host _).mono fun _ _ _ => trivial)⟩
    · exact fun _ => trivial
    · exact fun _ => ⟨trivial, fun _ => trivial⟩

/-- **C83.** Whatever the schedule, the traffic and the session manager: everything the server writes
to a connection is a hello response, an error response with one of sixteen fixed texts, the public
half of a generated key with the key manager's signature of the transcript, the key manager's public
key, or the application's reply encrypted with the key of the session that the message it answers was
accepted for.  Session secrets, private keys, plaintexts and error values of the application and of
the managers never appear. -/
theorem C83_server_discloses {M : Manager C} (hM : M.Passive) (timeout ttl closers : Nat)
    (acts : List (Nat × Answer C)) :
    let s := Sys.run M timeout (Sys.start ttl closers) acts
    (∀ t ∈ s.threads, ∀ wr ∈ t.conn.writes, Disclosed acts s.world.log wr.1) ∧
    ∀ r key nonce reply, .sealed r key nonce reply ∈ s.world.log →
      ∃ secret window, s.world.heap[r]? = some (secret, window) ∧
        deriveKey C secret kdfInfo aesKeySize = .ok key := by
  refine ⟨?_, fun r key n reply h =>
    ((C22_reply_nonces_unique hM timeout ttl closers acts).2 r key n reply h).1⟩
  have hk : KeepsLog M timeout (discloseA C) (LeakR Disclosed acts) (fun a => ∃ act ∈ acts, act.2 = a) :=
    { exec := fun a o c w g ha hpre h =>
        leakR_exec timeout acts a ha o c w g (fun _ _ _ hl h => h.mono hl) hpre h
      mono := fun g c l l' hl h =>
        ⟨fun f hf => (h.1 f hf).mono hl, fun wr hm => (h.2 wr hm).mono hl⟩
      spawn := fun p l => ⟨[], leak_peer hM p [], by simp, by cases p <;> simp [Conn.ofPeer, Conn.none]⟩ }
  have hnone : LeakR Disclosed acts ([] : List (Fact C)) Conn.none [] := ⟨by simp, by simp [Conn.none]⟩
  have hclose : ThreadOK (discloseA C)
      { conn := .none, prog := closeServer, loop := .ret false, deferred := .ret false } [] := by
    refine ThreadOK.always ?_ ?_ ?_ []
    · exact leak_closeServer
    · exact fun _ => trivial
    · exact fun _ => trivial
  intro t ht
  obtain ⟨g, -, hR⟩ := hk.run acts (fun act h => ⟨act, h, rfl⟩) (Sys.start ttl closers)
    (start_threads (P := LogOK (discloseA C) (LeakR Disclosed acts) [])
      ⟨[], leak_repeating leak_acceptPass _, hnone⟩ ⟨[], leak_repeating leak_packetPass _, hnone⟩
      ⟨[], leak_repeating (leak_gcVisit ttl) _, hnone⟩ ⟨[], hclose, hnone⟩) t ht
  exact hR.2

/-- What the transport accepted of each write. -/
def Conn.accepted (c : Conn) : Bytes := (c.writes.map fun wr => wr.1.take wr.2.1).flatten

/-- The automaton that allows everything. -/
def freeA (C : Crypto) : Auto (SSig C) Unit := ⟨fun _ _ => True, fun _ _ _ => ()⟩

theorem freeA_safe {α : Type} (p : SProg C α) (g : Unit) : Safe (freeA C) p g (fun _ _ => True) := by
  induction p with
  | ret a => trivial
  | panic m => trivial
  | op o k ih => exact ⟨trivial, fun r => ih r⟩

theorem freeA_thread (t : Thread C) : ThreadOK (freeA C) t () :=
  .always (fun _ => freeA_safe _ _) (fun _ => freeA_safe _ _) (fun _ => freeA_safe _ _) ()

/-- **C83**, on the wire: what a connection sends (datagrams, then what is buffered or, for TCP, the
stream) is what its transport accepted of the writes, in order, and nothing else. -/
theorem C83_wire_is_writes {M : Manager C} (timeout ttl closers : Nat) (acts : List (Nat × Answer C)) :
    ∀ t ∈ (Sys.run M timeout (Sys.start ttl closers) acts).threads,
      t.conn.sent.flatten ++ t.conn.output = t.conn.accepted := by
  have hk : KeepsLog M timeout (freeA C)
      (fun _ c _ => c.sent.flatten ++ c.output = c.accepted) (fun _ => True) :=
    { exec := by
        intro a o c w _ _ _ h
        dsimp only at h ⊢
        cases o with
        | write bs => simp [exec, execWrite, Conn.accepted, ← List.append_assoc, h]
        | flush =>
          simp only [exec]
          split
          · exact h
          · simpa [Conn.accepted] using h
        | check r n =>
          have : (exec C timeout a (.check r n) (c, w)).2.1 = c := by
            simp only [exec]; split <;> rfl
          rw [this]
          exact h
        | _ => exact h
      mono := fun _ _ _ _ _ h => h
      spawn := fun p _ => ⟨(), freeA_thread _, by cases p <;> rfl⟩ }
  intro t ht
  obtain ⟨_, -, hR⟩ := hk.run acts (fun _ _ => trivial) (Sys.start ttl closers)
    (start_threads (P := LogOK _ _ []) ⟨(), freeA_thread _, rfl⟩ ⟨(), freeA_thread _, rfl⟩
      ⟨(), freeA_thread _, rfl⟩ ⟨(), freeA_thread _, rfl⟩) t ht
  exact hR

end

/-- In the schedule of `OnceExample` goroutine 2 (TCP) writes a setup response and the encrypted reply
"pong", goroutine 3 (UDP) refuses the copy of the message. -/
example :
    let s := Sys.run (inMemory Toy.crypto) 5000 (Sys.start 0 0) OnceExample.schedule
    (s.threads.map fun t => t.conn.writes.map (·.1)) = [[], [],
      [Wire.setupResponse (Toy.crypto.marshalEPub (Toy.crypto.epub (9 : BitVec 256))) 4 [1, 2, 3],
       Wire.processResponse 1 (Toy.crypto.aeadSeal OnceExample.key (Wire.nonce12 1 1) (str "pong"))],
      [Wire.errorResponse 5 (str "message counter was already seen or is too old")]] := by
  decide +kernel

/-- Not everything may be disclosed: the plaintext of the reply, for one, is not in that schedule. -/
example : ¬ Disclosed OnceExample.schedule
    (Sys.run (inMemory Toy.crypto) 5000 (Sys.start 0 0) OnceExample.schedule).world.log
    (str "pong") := by
  intro h
  have hb : (str "pong").head? = some 0x70#8 := by decide +kernel
  generalize str "pong" = bs at h hb
  cases h <;> simp [Wire.helloResponse, Wire.errorResponse, Wire.setupResponse, Wire.fetchKeyResponse,
    Wire.processResponse] at hb

end Goe2ee
