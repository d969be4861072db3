import Verif.Proofs.Conversation
import Verif.Proofs.UDPClient
import Verif.Spec.Lossy

/-!
# Conversations over a network that loses datagrams
-/

set_option autoImplicit false

namespace Goe2ee

section
variable {C : Crypto}

/-- The server's half of `Linked`. -/
structure ServesUDP (C : Crypto) (timeout : Nat) (host : Bytes) (r : Ref) (session : ClientSession) (v : BitVec 64)
    (s : Seq) : Prop where
  stored : ∃ t, s.world.table (sessionKey C host session.id) = some (r, t)
  window : ∃ window acc, s.world.heap[r]? = some (session.secret, window) ∧
    Represents window acc ∧ largest acc ≤ v.toNat
  noPacketDeadline : timeout = 0 → s.world.packetBy = none

theorem ServesUDP.mono {timeout : Nat} {host : Bytes} {r : Ref} {session : ClientSession} {v v' : BitVec 64} {s : Seq}
    (h : ServesUDP C timeout host r session v s) (hv : v.toNat ≤ v'.toNat) :
    ServesUDP C timeout host r session v' s := by
  obtain ⟨window, acc, h1, h2, h3⟩ := h.window
  exact ⟨h.stored, ⟨window, acc, h1, h2, by omega⟩, h.noPacketDeadline⟩

/-- A datagram with a fresh message is served: the response is buffered, and the write deadline has not passed when it is
to be sent. -/
theorem packet_served (hC : C.Lawful) {timeout : Nat} {ans : Nat → Answer C} {host : Bytes} {r : Ref}
    {session : ClientSession} {v : BitVec 64} {s : Seq} {key : Bytes} (message : Bytes)
    (hl : ServesUDP C timeout host r session v s)
    (hk : deriveKey C session.secret kdfInfo aesKeySize = .ok key) (hm : message.length + 16 ≤ 2 ^ 30)
    (hans : ∀ p, (ans p).write = (0, none) ∧ ∃ written, (ans p).handle = .reply written)
    (htime : 0 < timeout → ∀ i j, (ans i).tick + (ans j).tick ≤ timeout)
    (hv : v.toNat + 1 < 2 ^ 64) (request : Bytes)
    (hreq : request = Wire.processRequest true session.id.val (v + 1).toNat
        (C.aeadSeal key (Wire.nonce12 0 (v + 1).toNat) message)) :
    ∃ p written s', (ans p).handle = .reply written ∧
      ((packetBody (inMemory C) (.ok host)).run (seqI C timeout ans)
        { s with conn := .ofPeer (.udp (.ok host) request) }).2 = s' ∧
      s'.conn.output =
        Wire.processResponse (v + 1).toNat (C.aeadSeal key (Wire.nonce12 1 (v + 1).toNat) written) ∧
      s'.conn.sent = [] ∧ expired s'.world.packetBy (s'.world.now + (ans s'.pos).tick) = false ∧
      ServesUDP C timeout host r session (v + 1) s' ∧
      handledFor r s'.world.log = handledFor r s.world.log ++ [(message, .reply written)] := by
  have hvn : (v + 1).toNat = v.toNat + 1 := by
    rw [BitVec.toNat_add]; exact Nat.mod_eq_of_lt (by simpa using hv)
  obtain ⟨t, ht⟩ := hl.stored
  obtain ⟨window, acc, hh, hwin, hmax⟩ := hl.window
  have hfresh : Fresh acc (v + 1).toNat := by
    rw [hvn]
    refine ⟨by omega, ?_, by omega⟩
    intro hmem
    have := le_largest hmem
    omega
  have hsl : (C.aeadSeal key (Wire.nonce12 0 (v + 1).toNat) message).length ≤ 2 ^ 30 := by
    rw [hC.seal_length]; exact hm
  have hspec := (checkAndUpdate_spec window acc hwin (v + 1))
  have hwin' := hspec.2.1 (hspec.1.mpr hfresh)
  have hlt : r < s.world.heap.length := (List.getElem?_eq_some_iff.mp hh).1
  obtain ⟨-, written, hans1⟩ := hans (s.pos + 1 + 5)
  have hdl : ∀ d, (Seq.packetReady timeout ans (.ok host) request s).conn.deadline = some d →
      (Seq.packetReady timeout ans (.ok host) request s).world.now +
        (ans (s.pos + 1 + 1)).tick + (ans (s.pos + 1 + 7)).tick ≤ d := by
    intro d hd
    simp only [Seq.packetReady] at hd ⊢
    by_cases h0 : 0 < timeout
    · rw [if_pos h0] at hd
      cases hd
      have := htime h0 (s.pos + 1 + 1) (s.pos + 1 + 7)
      omega
    · rw [if_neg h0] at hd
      cases hd
  obtain ⟨evs, now, now', hnow, hserve⟩ := serve_reply hC timeout ans host
    (Seq.packetReady timeout ans (.ok host) request s)
    session.id (v + 1) _ hsl (by rw [← hreq]; simp [Seq.packetReady, Conn.ofPeer, flatten]) r t
    session.secret key message written
    window acc ht hh hwin hfresh hk (hC.open_seal _ _ _) hans1 (hans _).1 hdl _ rfl
  have hnow := hnow rfl
  have hby : expired (Seq.packetReady timeout ans (.ok host) request s).world.packetBy
      (now' + (ans (s.pos + 1 + 8)).tick) = false := by
    rw [hnow]
    simp only [Seq.packetReady, expired]
    by_cases h0 : 0 < timeout
    · rw [if_pos h0]
      have := htime h0 (s.pos + 1 + 1) (s.pos + 1 + 8)
      exact decide_eq_false (by omega)
    · rw [if_neg h0, hl.noPacketDeadline (by omega)]
  rw [run_packetBody, hserve]
  refine ⟨_, written, _, hans1, rfl, List.nil_append _, rfl, hby, ⟨?_, ?_, ?_⟩, ?_⟩
  · exact ⟨_, if_pos rfl⟩
  · exact ⟨_, _, List.getElem?_set_self hlt, hwin', by simp only [largest]; omega⟩
  · intro h0
    refine Eq.trans (if_neg ?_) (hl.noPacketDeadline h0)
    omega
  · show handledFor r (s.world.log ++ [.accepted r (v + 1)] ++ _) = _
    simp [handledFor]

/-- A datagram with a fresh message is answered. -/
theorem answerUDP_reply (hC : C.Lawful) {timeout : Nat} {ans : Nat → Answer C} {host : Bytes} {r : Ref}
    {session : ClientSession} {v : BitVec 64} {s : Seq} {key : Bytes} (message : Bytes)
    (hl : ServesUDP C timeout host r session v s)
    (hk : deriveKey C session.secret kdfInfo aesKeySize = .ok key) (hm : message.length + 16 ≤ 2 ^ 30)
    (hans : ∀ p, (ans p).write = (0, none) ∧ ∃ written, (ans p).handle = .reply written)
    (htime : 0 < timeout → ∀ i j, (ans i).tick + (ans j).tick ≤ timeout)
    (hv : v.toNat + 1 < 2 ^ 64) :
    ∃ p written s', (ans p).handle = .reply written ∧
      answerUDP timeout ans host (Wire.processRequest true session.id.val (v + 1).toNat
        (C.aeadSeal key (Wire.nonce12 0 (v + 1).toNat) message)) s =
      some (Wire.processResponse (v + 1).toNat (C.aeadSeal key (Wire.nonce12 1 (v + 1).toNat) written), s') ∧
      ServesUDP C timeout host r session (v + 1) s' ∧
      handledFor r s'.world.log = handledFor r s.world.log ++ [(message, .reply written)] := by
  obtain ⟨p, written, s', h1, h2, h3, h4, h5, h6, h7⟩ := packet_served hC message hl hk hm hans htime hv _ rfl
  rw [answerUDP, h2]
  simp only [Prog.run, packetDeferred]
  rw [seqI_other _ _ _ id]
  simp only [exec, (hans _).1]
  rw [if_neg (by
    rintro (h | h | h)
    · rw [h3] at h; simp [Wire.processResponse] at h
    · exact Bool.false_ne_true (h5.symm.trans h)
    · cases h)]
  simp only [h4, List.nil_append, h3]
  exact ⟨p, written, _, h1, rfl, ⟨h6.stored, h6.window, h6.noPacketDeadline⟩, h7⟩

/-- A datagram with a fresh message is answered if the response fits into a datagram, and otherwise it is not. -/
theorem answerWithin_reply (hC : C.Lawful) (limit : Nat) {timeout : Nat} {ans : Nat → Answer C} {host : Bytes} {r : Ref}
    {session : ClientSession} {v : BitVec 64} {s : Seq} {key : Bytes} (message : Bytes)
    (hl : ServesUDP C timeout host r session v s)
    (hk : deriveKey C session.secret kdfInfo aesKeySize = .ok key) (hm : message.length + 16 ≤ 2 ^ 30)
    (hans : ∀ p, (ans p).write = (0, none) ∧ ∃ written, (ans p).handle = .reply written)
    (htime : 0 < timeout → ∀ i j, (ans i).tick + (ans j).tick ≤ timeout)
    (hv : v.toNat + 1 < 2 ^ 64) :
    ∃ p written s', (ans p).handle = .reply written ∧
      answerWithin limit timeout ans host (Wire.processRequest true session.id.val (v + 1).toNat
        (C.aeadSeal key (Wire.nonce12 0 (v + 1).toNat) message)) s =
      (if written.length + 33 ≤ limit then
        [Wire.processResponse (v + 1).toNat (C.aeadSeal key (Wire.nonce12 1 (v + 1).toNat) written)] else [], s') ∧
      handledFor r s'.world.log = handledFor r s.world.log ++ [(message, .reply written)] := by
  obtain ⟨p, written, s', h1, h2, h3, h4, h5, h6, h7⟩ := packet_served hC message hl hk hm hans htime hv _ rfl
  have hlen : s'.conn.output.length = written.length + 33 := by
    rw [h3]
    simp [Wire.processResponse, Wire.be64, hC.seal_length]
  rw [answerWithin, h2, hlen]
  simp only [Prog.run, packetDeferred]
  rw [seqI_other _ _ _ id]
  by_cases hfit : written.length + 33 ≤ limit
  · simp only [exec, if_pos hfit]
    rw [if_neg (by
      rintro (h | h | h)
      · rw [h3] at h; simp [Wire.processResponse] at h
      · exact Bool.false_ne_true (h5.symm.trans h)
      · cases h)]
    simp only [h4, List.nil_append, h3]
    exact ⟨p, written, _, h1, Prod.ext (if_pos hfit).symm rfl, h7⟩
  · simp only [exec, if_neg hfit]
    rw [if_pos (.inr (.inr rfl))]
    exact ⟨p, written, _, h1, Prod.ext (h4.trans (if_neg hfit).symm) rfl, h7⟩

/-- Reading a datagram with a reply until `io.EOF`. -/
theorem readAll_datagram {env : CEnv C} {c : Client} {ns : List Nat} {s : CConn} {w : CShared}
    {session : ClientSession} {key message rb : Bytes} {queue : List (Except Err Bytes)} (hC : C.Lawful)
    (hd : env.readDeadline = none) (hb : c.buffer = []) (hs : c.session = some session)
    (hk : deriveKey C session.secret kdfInfo aesKeySize = .ok key) (hm : message ≠ [])
    (hl : message.length + 16 ≤ 2 ^ 30)
    (hnet : s.net = .udp false rb (.ok (Wire.processResponse c.lastSentCounter.toNat
      (C.aeadSeal key (Wire.nonce12 1 c.lastSentCounter.toNat) message)) :: queue))
    (hns : message.length ≤ ns.sum) :
    readAll env c (s, w) ns = some ((message, some .eof), c, ({ s with net := .udp true [] queue }, w)) := by
  cases ns with
  | nil =>
    exfalso
    apply hm
    apply List.eq_nil_of_length_eq_zero
    simpa using hns
  | cons n ns =>
    obtain ⟨t, ht, hrun⟩ := read_accepts (n := n) (s := s) (w := w) (rest := []) hC hd hb hs hk
      (by rw [hC.seal_length]; exact hl) (by rw [List.append_nil, hnet]; rfl) (hC.open_seal _ _ _)
    have hkeep := read_keeps_net (readNet_one rb _ queue) (env := env) (c := c) (n := n) (w := w)
      (.inl hnet)
    rw [hrun] at hkeep
    have htt : t = .udp true [] queue := by
      rcases hkeep with h | ⟨b, h⟩
      · exfalso
        rw [show t = _ from h] at ht
        simp [Transport.stream, Transport.stream.received, Wire.processResponse] at ht
      · rw [show t = _ from h] at ht ⊢
        cases b with
        | nil => rfl
        | cons x b => simp [Transport.stream] at ht
    subst htt
    have hbuf := readAll_buffer (env := env) hd (n :: ns) { c with buffer := message }
      ({ s with net := .udp true [] queue }, w) hm hns
    rw [readAll, runClient, read_buffered hd hm] at hbuf
    rw [readAll, runClient, hrun, hbuf]
    dsimp only
    rw [← hb]

/-- Reading while nothing arrives before the deadline. -/
theorem readAll_silence {env : CEnv C} {c : Client} {n : Nat} {ns : List Nat} {s : CConn} {w : CShared} {rb : Bytes}
    {queue : List (Except Err Bytes)} (hd : env.readDeadline = none) (hb : c.buffer = [])
    (hnet : s.net = .udp false rb (.error .timeout :: queue)) :
    ∃ e, e.Is .timeout ∧
      readAll env c (s, w) (n :: ns) = some (([], some e), c, ({ s with net := .udp false rb queue }, w)) := by
  have hrun : (c.read n).run (cexec env) (s, w) =
      (.val (([], some (.wrap "failed to parse response" (.wrap "failed to read flags" .timeout))), c),
        ({ s with net := .udp false rb queue }, w)) := by
    rw [Client.read, run_readDeadline, hd, ite_self]
    dsimp only
    have he : runNet parseResponseCommon s.net =
        (.val (.error (.wrap "failed to read flags" .timeout)), .udp false rb queue) := by
      rw [hnet]; rfl
    rw [if_neg (by simpa using hb), Prog.run_bind, run_onClientConn, he]
    rfl
  refine ⟨.wrap "failed to parse response" (.wrap "failed to read flags" .timeout), .wrap _ _ _ (.wrap _ _ _ (.self _)), ?_⟩
  rw [readAll, runClient, hrun]

/-- The client's half, over UDP, with nothing under way. -/
structure Quiet (C : Crypto) (session : ClientSession) (v : BitVec 64) (e : Ends) : Prop where
  has : e.client.session = some session
  buffer : e.client.buffer = []
  expectReply : e.client.expectReply = true
  counter : e.shared.counters[session.sendCounter]? = some v
  net : ∃ connRead readBuffer, e.conn.net = .udp connRead readBuffer []

/-- One message. -/
theorem lossyExchange_linked (hC : C.Lawful) {env : CEnv C} {timeout : Nat}
    {ans : Nat → Answer C} {host : Bytes} {r : Ref} {session : ClientSession} {v : BitVec 64} {e : Ends}
    (round : LossyRound) (hq : Quiet C session v e) (hl : ServesUDP C timeout host r session v e.server)
    (hwd : env.writeDeadline = none) (hrd : env.readDeadline = none) (hwr : env.write = (0, none))
    (hm : round.message.length + 16 ≤ 2 ^ 30)
    (hans : ∀ p, (ans p).write = (0, none) ∧ ∃ written, (ans p).handle = .reply written ∧
      written ≠ [] ∧ written.length + 16 ≤ 2 ^ 30 ∧ written.length ≤ round.sizes.sum)
    (htime : 0 < timeout → ∀ i j, (ans i).tick + (ans j).tick ≤ timeout)
    (hv : v.toNat + 1 < 2 ^ 64) :
    ∃ got calls e', lossyExchange env timeout ans host round e = some (got, e') ∧
      Quiet C session (v + 1) e' ∧ ServesUDP C timeout host r session (v + 1) e'.server ∧
      handledFor r e'.server.world.log = handledFor r e.server.world.log ++ calls ∧
      ∀ rs out calls', Outcomes rs out calls' → Outcomes (round :: rs) (got :: out) (calls ++ calls') := by
  obtain ⟨key, hk, -⟩ := newGCM_ok hC session.secret
  have hvn : (v + 1).toNat = v.toNat + 1 := by
    rw [BitVec.toNat_add]; exact Nat.mod_eq_of_lt (by simpa using hv)
  have hv0 : v + 1 ≠ 0 := by
    intro h
    rw [h] at hvn
    simp at hvn
  have hc : v + 1 = e.shared.counters.getD session.sendCounter 0 + 1 := by
    rw [List.getD_eq_getElem?_getD, hq.counter]; rfl
  have hcl : session.sendCounter < e.shared.counters.length :=
    (List.getElem?_eq_some_iff.mp hq.counter).1
  obtain ⟨cr, rb, hnet⟩ := hq.net
  have hreq : writeRequest C e.client session key (v + 1) round.message =
      Wire.processRequest true session.id.val (v + 1).toNat
        (C.aeadSeal key (Wire.nonce12 0 (v + 1).toNat) round.message) := by
    rw [writeRequest, hq.expectReply]
  have hwrite := write_run (s := e.conn) (w := e.shared) (p := round.message) hC hwd hq.has hk (v + 1)
    hc hv0 (by omega)
  rw [hreq, hwr] at hwrite
  dsimp only at hwrite
  obtain ⟨p, written, server, hp, hserve, hl', hlog⟩ := answerUDP_reply hC round.message hl hk hm
    (fun p => ⟨(hans p).1, (hans p).2.imp fun _ h => h.1⟩) htime hv
  obtain ⟨-, w', hw1, hw2, hw3, hw4⟩ := hans p
  rw [hp] at hw1
  cases hw1
  unfold lossyExchange
  rw [runClient, hwrite]
  dsimp only
  rw [List.getLast?_concat]
  dsimp only
  rw [Nat.sub_zero, List.take_length, hserve]
  -- nothing arrives
  have hsilence : ∀ (conn : CConn) (shared : CShared), ∃ err, err.Is .timeout ∧
      readAll env { e.client with lastSentCounter := v + 1 }
        ({ conn with net := .udp false rb [.error .timeout] }, shared) round.sizes =
        some (([], some err), { e.client with lastSentCounter := v + 1 },
          ({ conn with net := .udp false rb [] }, shared)) := by
    intro conn shared
    cases hsizes : round.sizes with
    | nil =>
      exfalso
      apply hw2
      apply List.eq_nil_of_length_eq_zero
      rw [hsizes] at hw4
      simpa using hw4
    | cons n ns => exact readAll_silence (n := n) hrd hq.buffer rfl
  cases hfate : round.fate with
  | requestLost =>
    rw [if_pos rfl]
    dsimp only
    rw [hnet, Transport.written, Transport.arrives, List.nil_append]
    obtain ⟨err, herr, hread⟩ := hsilence { e.conn with writes := e.conn.writes ++ [(_, _, none)] } _
    rw [hread]
    exact ⟨_, [], _, rfl, ⟨hq.has, hq.buffer, hq.expectReply, List.getElem?_set_self hcl, _, _, rfl⟩,
      hl.mono (by omega), (List.append_nil _).symm, fun rs out calls h => .requestLost err hfate herr h⟩
  | replyLost =>
    rw [if_neg (by decide)]
    rw [Option.map_some]
    dsimp only
    rw [if_pos rfl, hnet, Transport.written, Transport.arrives, List.nil_append]
    obtain ⟨err, herr, hread⟩ := hsilence { e.conn with writes := e.conn.writes ++ [(_, _, none)] } _
    rw [hread]
    exact ⟨_, _, _, rfl, ⟨hq.has, hq.buffer, hq.expectReply, List.getElem?_set_self hcl, _, _, rfl⟩,
      hl', hlog, fun rs out calls h => .replyLost err written hfate herr h⟩
  | delivered =>
    rw [if_neg (by decide)]
    rw [Option.map_some]
    dsimp only
    rw [if_neg (by decide), hnet, Transport.written, Transport.arrives, List.nil_append,
      readAll_datagram (c := { e.client with lastSentCounter := v + 1 }) hC hrd hq.buffer hq.has hk hw2 hw3 rfl hw4]
    exact ⟨_, _, _, rfl, ⟨hq.has, hq.buffer, hq.expectReply, List.getElem?_set_self hcl, _, _, rfl⟩,
      hl', hlog, fun rs out calls h => .delivered written hfate h⟩

/-- Any number of messages. -/
theorem lossyConverse_linked (hC : C.Lawful) {env : CEnv C} {timeout : Nat}
    {ans : Nat → Answer C} {host : Bytes} {r : Ref} {session : ClientSession}
    (hwd : env.writeDeadline = none) (hrd : env.readDeadline = none) (hwr : env.write = (0, none))
    (htime : 0 < timeout → ∀ i j, (ans i).tick + (ans j).tick ≤ timeout)
    (rounds : List LossyRound) (v : BitVec 64) (e : Ends) (hq : Quiet C session v e)
    (hl : ServesUDP C timeout host r session v e.server)
    (hm : ∀ round ∈ rounds, round.message.length + 16 ≤ 2 ^ 30)
    (hans : ∀ round ∈ rounds, ∀ p, (ans p).write = (0, none) ∧ ∃ written,
      (ans p).handle = .reply written ∧
      written ≠ [] ∧ written.length + 16 ≤ 2 ^ 30 ∧ written.length ≤ round.sizes.sum)
    (hv : v.toNat + rounds.length < 2 ^ 64) :
    ∃ out calls e', lossyConverse env timeout ans host rounds e = some (out, e') ∧
      handledFor r e'.server.world.log = handledFor r e.server.world.log ++ calls ∧
      Outcomes rounds out calls := by
  induction rounds generalizing v e with
  | nil => exact ⟨[], [], e, rfl, (List.append_nil _).symm, .nil⟩
  | cons round rounds ih =>
    simp only [List.length_cons] at hv
    obtain ⟨got, calls, e₁, h1, h2, h3, h4, h5⟩ := lossyExchange_linked hC round hq hl hwd hrd hwr
      (hm round List.mem_cons_self) (hans round List.mem_cons_self) htime (by omega)
    obtain ⟨out, calls', e', h6, h7, h8⟩ := ih (v + 1) e₁ h2 h3
      (fun q hq => hm q (List.mem_cons_of_mem _ hq)) (fun q hq => hans q (List.mem_cons_of_mem _ hq))
      (by rw [BitVec.toNat_add, show (1 : BitVec 64).toNat = 1 from rfl]; omega)
    refine ⟨got :: out, calls ++ calls', e', ?_, ?_, h5 _ _ _ h8⟩
    · rw [lossyConverse, h1]
      dsimp only
      rw [h6]
      rfl
    · rw [h7, h4, List.append_assoc]

end

end Goe2ee
