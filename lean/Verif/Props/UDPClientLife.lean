import Verif.Props.Lossy
import Verif.Props.Handshake

/-!
# C163: a client over UDP, from `DialUDP` to the last message
-/

set_option autoImplicit false

namespace Goe2ee

section
variable {C : Crypto}

/-! ## The server -/

/-- The application is called only for sessions that exist. -/
theorem Reachable.called {w : World} (h : Reachable C w) {r : Ref} {c : BitVec 64} {host id m : Bytes} {res : HRes}
    (hm : .invoked r c host id m res ∈ w.log) : r < w.heap.length := by
  obtain ⟨timeout, ttl, closers, acts, rfl⟩ := h
  obtain ⟨gs, h⟩ := run_inv (inMemory_passive C) timeout acts _ _ (start_inv (C := C) ttl closers)
  obtain ⟨x, -, -, hx, -⟩ := h.world.auth _ _ _ _ _ _ hm
  exact (List.getElem?_eq_some_iff.mp hx).1

/-- A datagram with a setup request is answered with a datagram, and from then on messages of that session are served. -/
theorem answerUDP_setup (hC : C.Lawful) (timeout : Nat) (ans : Nat → Answer C) (host : Bytes) (s : Seq)
    (hs : Reachable C s.world) (id : ID) (clientKey : C.EPub) (serverKey : C.EPriv) (secret signature : Bytes)
    (hg : (ans (s.pos + 1)).genKey = .ok serverKey) (he : C.ecdh serverKey clientKey = .ok secret)
    (hsig : (ans (s.pos + 5)).sign 7 (Wire.transcript (C.marshalEPub clientKey)
      (C.marshalEPub (C.epub serverKey)) id.val) = .ok signature)
    (hne : 0 < signature.length) (hw : ∀ p, (ans p).write = (0, none))
    (htime : 0 < timeout → ∀ i j, (ans i).tick + (ans j).tick ≤ timeout)
    (hpdl : timeout = 0 → s.world.packetBy = none) (session : ClientSession) (hid : session.id = id)
    (hsecret : session.secret = secret) :
    ∃ s', answerUDP timeout ans host (Wire.setupRequest id.val (C.marshalEPub clientKey)) s =
        some (Wire.setupResponse (C.marshalEPub (C.epub serverKey)) 4 signature, s') ∧
      ServesUDP C timeout host s.world.heap.length session 0 s' ∧
      handledFor s.world.heap.length s'.world.log = [] := by
  have hready : Delivers (Seq.packetReady timeout ans (.ok host)
      (Wire.setupRequest id.val (C.marshalEPub clientKey)) s).conn.input
      (Req.wire (C := C) (.setup id clientKey)) [] := by
    simp [Seq.packetReady, Conn.ofPeer, Delivers, flatten, Req.wire]
  obtain ⟨evs, h1⟩ := serveOne_setup hC timeout ans host _ id clientKey [] hready
  obtain ⟨now, rfl, h2⟩ := run_setup_stored timeout ans host (parsedSetup C id clientKey)
    { Seq.packetReady timeout ans (.ok host) (Wire.setupRequest id.val (C.marshalEPub clientKey)) s with
      conn := { (Seq.packetReady timeout ans (.ok host)
        (Wire.setupRequest id.val (C.marshalEPub clientKey)) s).conn with input := evs } } serverKey secret hg he
  dsimp only at h2
  have hsig' : (ans ((Seq.packetReady timeout ans (.ok host)
      (Wire.setupRequest id.val (C.marshalEPub clientKey)) s).pos + 4)).sign 7
      (setupTranscript C (parsedSetup C id clientKey).publicKey
      (C.epub serverKey) (parsedSetup C id clientKey).id) = .ok signature := by
    rw [C13_transcript_layout]; exact hsig
  rw [hsig'] at h2
  dsimp only at h2
  have hd : ∀ d, (Seq.packetReady timeout ans (.ok host)
      (Wire.setupRequest id.val (C.marshalEPub clientKey)) s).conn.deadline = some d →
      s.world.now + (ans s.pos).tick + (ans (s.pos + 1 + 2)).tick + (ans (s.pos + 1 + 5)).tick ≤ d := by
    intro d hd
    simp only [Seq.packetReady] at hd
    by_cases h0 : 0 < timeout
    · rw [if_pos h0] at hd
      cases hd
      have := htime h0 (s.pos + 1 + 2) (s.pos + 1 + 5)
      omega
    · rw [if_neg h0] at hd
      cases hd
  rw [h2, run_respondWith _ _ _ _ _ (run_write_ok timeout ans _ _ (hw _) hd),
    C03_setup_response_layout _ _ _ _ hne] at h1
  rw [serveOne] at h1
  have hby : expired (Seq.packetReady timeout ans (.ok host)
      (Wire.setupRequest id.val (C.marshalEPub clientKey)) s).world.packetBy
      (s.world.now + (ans s.pos).tick + (ans (s.pos + 1 + 2)).tick + (ans (s.pos + 1 + 6)).tick) = false := by
    simp only [Seq.packetReady, expired]
    by_cases h0 : 0 < timeout
    · rw [if_pos h0]
      have := htime h0 (s.pos + 1 + 2) (s.pos + 1 + 6)
      exact decide_eq_false (by omega)
    · rw [if_neg h0, hpdl (by omega)]
  rw [answerUDP, run_packetBody, h1]
  simp only [Prog.run, packetDeferred]
  rw [seqI_other _ _ .flush _root_.id]
  simp only [exec, hw]
  rw [if_neg (by
    rintro (h | h | h)
    · simp [Seq.packetReady, Conn.ofPeer, Conn.none, Wire.setupResponse] at h
    · exact Bool.false_ne_true (hby.symm.trans h)
    · cases h)]
  refine ⟨_, rfl, ⟨?_, ?_, ?_⟩, ?_⟩
  · exact ⟨_, if_pos (by rw [hid]; rfl)⟩
  · refine ⟨.fresh, [], ?_, represents_fresh, Nat.zero_le _⟩
    rw [hsecret]
    exact List.getElem?_concat_length
  · intro h0
    refine Eq.trans (if_neg ?_) (hpdl h0)
    omega
  · show handledFor s.world.heap.length (s.world.log ++ [.established s.world.heap.length host id.val]) = []
    simp only [handledFor, List.filterMap_append, List.filterMap_cons, List.filterMap_nil, List.append_nil,
      List.filterMap_eq_nil_iff]
    intro e hm
    cases e with
    | invoked r c host' id' m res =>
      exact if_neg (Nat.ne_of_lt (hs.called hm))
    | _ => rfl

/-! ## The client -/

/-- What reads and writes of the socket preserve, a call of the API preserves. -/
theorem call_keeps_net {α : Type} {P : Transport → Prop} (hr : ∀ t k, P t → P (readNet t k).2)
    (hw : ∀ t, P t → P t.written) {env : CEnv C} (p : CProg C α) (s : CConn × CShared) (h : P s.1.net) :
    P (runClient env p s).2.1.net := by
  induction p generalizing s with
  | ret a => exact h
  | panic m => exact h
  | op o k ih =>
    refine ih _ _ ?_
    obtain ⟨s, w⟩ := s
    cases o with
    | read o => exact readInterp_keeps hr o s.net h
    | write bs => exact hw _ h
    | close =>
      simp only [cexec]
      split <;> exact h
    | _ => exact h

/-- The datagram has been received, or it has not. -/
theorem one_datagram_kept (d : Bytes) (t : Transport)
    (h : t = .udp false [] [.ok d] ∨ ∃ x b, t = .udp x b []) :
    (∀ k, (readNet t k).2 = .udp false [] [.ok d] ∨ ∃ x b, (readNet t k).2 = .udp x b []) ∧
    (t.written = .udp false [] [.ok d] ∨ ∃ x b, t.written = .udp x b []) := by
  rcases h with rfl | ⟨x, b, rfl⟩
  · refine ⟨fun k => .inr ?_, .inl rfl⟩
    rw [readNet, readDatagram]
    split <;> exact ⟨_, _, rfl⟩
  · refine ⟨fun k => .inr ?_, .inr ⟨_, _, rfl⟩⟩
    cases x with
    | true =>
      rw [readNet, readDatagram]
      split <;> exact ⟨_, _, rfl⟩
    | false => exact ⟨_, _, rfl⟩

/-! ## C163 -/

/-- **C163**: a server in any reachable state whose long-term key is the one the client holds, and whose application
replies in time.  The datagram with which `DialUDP` begins is answered with one datagram; when that arrives `DialUDP`
succeeds; and whatever datagrams the network loses afterwards, the messages and replies are as in C135, where the
application is called for the messages of this client that arrived, and for nothing else. -/
theorem C163_udp_client (hC : C.Lawful) (env : CEnv C) (timeout : Nat) (ans : Nat → Answer C) (host hostname : Bytes)
    (options : ClientOptions) (shared : CShared) (s : Seq) (hs : Reachable C s.world) (rounds : List LossyRound)
    (privateKey : PrivateKey C) (algorithm : KeyAlgorithm) (key : PublicKey) (idBytes : ID) (clientKey : C.EPriv)
    (request : Bytes)
    -- the client
    (hconnect : env.connect = none) (hkeep : env.keepAlive = none) (hwrite : env.write = (0, none))
    (hwd : env.writeDeadline = none) (hrd : env.readDeadline = none)
    (hfetch : env.fetch hostname = .ok key) (hrandom : env.random = .ok idBytes) (hgen : env.genKey = .ok clientKey)
    (hreply : options.expectReply = true)
    (hrequest : request = Wire.setupRequest (uuidOf idBytes).val (C.marshalEPub (C.epub clientKey)))
    -- the server
    (hkey : fetchServerKey privateKey = .ok (algorithm, key))
    (hsign : ∀ p, ∃ random, ∀ hash content, (ans p).sign hash content = signServer privateKey random hash content)
    (hsigns : ∀ random content, ∃ signature, signServer privateKey random 7 content = .ok signature)
    (hg : ∀ p, ∃ serverKey secret, (ans p).genKey = .ok serverKey ∧ C.ecdh serverKey (C.epub clientKey) = .ok secret)
    (hpdl : timeout = 0 → s.world.packetBy = none) (hans : Prompt timeout ans)
    -- the messages
    (hcount : rounds.length < 2 ^ 64) (hm : ∀ round ∈ rounds, round.message.length + 16 ≤ 2 ^ 30)
    (hsizes : ∀ round ∈ rounds, ∀ p written, (ans p).handle = .reply written →
      written ≠ [] ∧ written.length ≤ round.sizes.sum) :
    ∃ response server client conn shared', answerUDP timeout ans host request s = some (response, server) ∧
      runClient env (dial true (.ok hostname) options) (⟨.udp false [] [.ok response], [], false⟩, shared) =
        (.val (.ok client), (conn, shared')) ∧
      conn.writes = [(request, request.length, none)] ∧
      ∃ out calls e', lossyConverse env timeout ans host rounds ⟨client, conn, shared', server⟩ = some (out, e') ∧
        handledFor s.world.heap.length e'.server.world.log = calls ∧ Outcomes rounds out calls := by
  obtain ⟨serverKey, secret, hg1, he⟩ := hg (s.pos + 1)
  obtain ⟨random, hrand⟩ := hsign (s.pos + 5)
  obtain ⟨signature, hsig⟩ := hsigns random (Wire.transcript (C.marshalEPub (C.epub clientKey))
    (C.marshalEPub (C.epub serverKey)) (uuidOf idBytes).val)
  have hbounds : 0 < signature.length ∧ signature.length ≤ 65536 := by
    have hsig := hsig
    unfold signServer at hsig
    split at hsig
    case isFalse => cases hsig
    dsimp only at hsig
    cases privateKey with
    | rsa k => exact hC.rsa_sig _ _ _ _ hsig
    | ecdsa k => exact hC.ecdsa_sig _ _ _ _ hsig
    | ed25519 k => cases hsig; exact hC.ed_sig _ _
    | otherType => cases hsig
  obtain ⟨algorithm', key', hkey', -, -, hv⟩ :=
    C40_signature_verifies hC privateKey random 7 _ signature hsig
  rw [hkey] at hkey'
  cases hkey'
  rw [← C13_transcript_layout] at hv
  let session : ClientSession := ⟨secret, uuidOf idBytes, shared.counters.length⟩
  obtain ⟨server, h1, h2, h3⟩ := answerUDP_setup hC timeout ans host s hs (uuidOf idBytes) (C.epub clientKey) serverKey
    secret signature hg1 he ((hrand _ _).trans hsig) hbounds.1 (fun p => (hans.1 p).1) hans.2 hpdl session rfl rfl
  obtain ⟨t, ws, ht, hrun⟩ := handshake_accepts hC env hostname key idBytes clientKey (C.epub serverKey)
    signature secret ⟨.udp false [] [.ok (Wire.setupResponse (C.marshalEPub (C.epub serverKey)) 4 signature)], [], true⟩
    shared [] hfetch hrandom hgen hwrite hbounds.2 (by rw [List.append_nil]; rfl) hv (hC.ecdh_comm _ _ _ he)
  have hdial := dial_of (udp := true) (options := options) (s := (⟨.udp false []
    [.ok (Wire.setupResponse (C.marshalEPub (C.epub serverKey)) 4 signature)], [], false⟩, shared)) hconnect hkeep hrun
  have hnet := call_keeps_net (env := env)
    (P := fun t => t = .udp false [] [.ok (Wire.setupResponse (C.marshalEPub (C.epub serverKey)) 4 signature)] ∨
      ∃ x b, t = .udp x b []) (fun t k h => (one_datagram_kept _ t h).1 k) (fun t h => (one_datagram_kept _ t h).2)
    (dial true (.ok hostname) options) (⟨.udp false []
    [.ok (Wire.setupResponse (C.marshalEPub (C.epub serverKey)) 4 signature)], [], false⟩, shared) (.inl rfl)
  rw [hdial] at hnet
  obtain ⟨random', priv', request', hr1, hr2, hr3, hr4⟩ := C14_request_sent env true _ options _ _ _ hdial
  rw [hrandom] at hr1
  rw [hgen] at hr2
  cases hr1
  cases hr2
  rw [← hrequest] at hr3
  subst hr3
  have hnet' : ∃ x b, t = .udp x b [] := by
    rcases hnet with h | h
    · exfalso
      rw [show t = _ from h] at ht
      simp [Transport.stream, Transport.stream.received, Wire.setupResponse] at ht
    · exact h
  obtain ⟨out, calls, e', hc1, hc2, hc3⟩ := lossyConverse_linked (session := session) hC hwd hrd hwrite hans.2 rounds 0
    ⟨_, _, _, server⟩
    (Quiet.mk (e := ⟨{ newClient (.ok hostname) options with session := some session }, ⟨t, ws, true⟩,
      { shared with counters := shared.counters ++ [0] }, server⟩) rfl rfl hreply
      List.getElem?_concat_length hnet') h2 hm (fun round hr p => by
        obtain ⟨h1, written, h2, h3⟩ := hans.1 p
        exact ⟨h1, written, h2, (hsizes round hr p written h2).1, h3, (hsizes round hr p written h2).2⟩)
    (by simpa using hcount)
  rw [h3, List.nil_append] at hc2
  exact ⟨_, server, _, _, _, hrequest ▸ h1, hdial, hr4, out, calls, e', hc1, hc2, hc3⟩

end

namespace UDPClientLifeExample
open HandshakeExample

/-- A dial over UDP and five messages, of which two are lost in one way or the other: the answer to the setup request, the
results of the reads, and what the application was called with for the session that the server made for this client
(it had one session already). -/
def life : Option (Bool × List (Bytes × Bool) × List (Bytes × HRes)) := do
  let (response, server) ← answerUDP 5000 (LossyExample.ans (str "pong")) (str "10.0.0.1")
    (Wire.setupRequest (uuidOf ⟨List.replicate 16 1, rfl⟩).val (Toy.crypto.marshalEPub (5 : BitVec 256)))
    (SessionExample.start SessionExample.world [])
  match runClient env (dial true (.ok (str "example.com")) {}) (⟨.udp false [] [.ok response], [], false⟩, ⟨[], []⟩) with
  | (.val (.ok client), (conn, shared)) =>
    let (out, e) ← lossyConverse env 5000 (LossyExample.ans (str "pong")) (str "10.0.0.1")
      [⟨str "one", .delivered, [9]⟩, ⟨str "two", .requestLost, [9]⟩, ⟨str "three", .delivered, [2, 2]⟩,
        ⟨str "four", .replyLost, [9]⟩, ⟨str "five", .delivered, [9]⟩] ⟨client, conn, shared, server⟩
    return (response == Wire.setupResponse (Toy.crypto.marshalEPub (9 : BitVec 256)) 4 signature,
      out.map fun g => (g.1, g.2 == some .eof), handledFor 1 e.server.world.log)
  | _ => none

/-- The first, third and fifth reply are read; the application does not see the second message. -/
example : life = some (true, [(str "pong", true), ([], false), (str "pong", true), ([], false), (str "pong", true)],
    [(str "one", .reply (str "pong")), (str "three", .reply (str "pong")), (str "four", .reply (str "pong")),
      (str "five", .reply (str "pong"))]) := by decide +kernel

/-- The conditions of C163 hold for this client and this server. -/
example : ∃ response server client conn shared', answerUDP 5000 (LossyExample.ans (str "pong")) (str "10.0.0.1")
      (Wire.setupRequest (uuidOf ⟨List.replicate 16 1, rfl⟩).val
        (Toy.crypto.marshalEPub (Toy.crypto.epub (5 : BitVec 256))))
      (SessionExample.start SessionExample.world []) = some (response, server) ∧
    runClient env (dial true (.ok (str "example.com")) {}) (⟨.udp false [] [.ok response], [], false⟩, ⟨[], []⟩) =
      (.val (.ok client), (conn, shared')) ∧ conn.writes.length = 1 := by
  obtain ⟨a, b, c, d, e, h1, h2, h3, -⟩ := C163_udp_client Toy.lawful env 5000 (LossyExample.ans (str "pong"))
    (str "10.0.0.1") (str "example.com") {} ⟨[], []⟩ (SessionExample.start SessionExample.world []) SessionExample.reachable []
    (.ed25519 (77 : BitVec 256)) _ (.ed25519 (beEnc 32 77)) ⟨List.replicate 16 1, rfl⟩ (5 : BitVec 256) _ rfl rfl rfl rfl
    rfl rfl rfl rfl rfl rfl rfl (fun p => ⟨3, fun _ _ => rfl⟩) (fun _ _ => ⟨_, rfl⟩) (fun p => ⟨_, _, rfl, rfl⟩) (by simp)
    ⟨fun p => ⟨rfl, _, rfl, by decide +kernel⟩, fun _ i j => show 1 + 1 ≤ 5000 by decide⟩ (by decide) (by simp) (by simp)
  exact ⟨a, b, c, d, e, h1, h2, by rw [h3]; rfl⟩

end UDPClientLifeExample

end Goe2ee
