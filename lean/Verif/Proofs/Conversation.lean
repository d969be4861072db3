import Verif.Proofs.ClientCalls
import Verif.Props.Session
import Verif.Spec.Conversation

/-!
# A client and a server that talk to each other
-/

set_option autoImplicit false

namespace Goe2ee

section
variable {C : Crypto}

/-! ## The server -/

/-- The handler replies and the transport accepts the response. -/
theorem run_runHandler_reply (timeout : Nat) (ans : Nat → Answer C) (r : Ref) (host : Bytes)
    (request : ProcessRequest) (key message written : Bytes) (s : Seq)
    (hh : (ans s.pos).handle = .reply written) (her : request.expectReply = true)
    (hw : (ans (s.pos + 2)).write = (0, none))
    (hd : ∀ d, s.conn.deadline = some d → s.world.now + (ans (s.pos + 2)).tick ≤ d)
    (response : Bytes) (hr : response = Wire.processResponse request.counter.toNat
      (C.aeadSeal key (Wire.nonce12 1 request.counter.toNat) written)) :
    ∃ now, (s.conn.buffered = true → now = s.world.now) ∧
      (runHandler r host request key message).run (seqI C timeout ans) s =
      (.val none, { conn := { s.conn with output := s.conn.output ++ response,
                                          writes := s.conn.writes ++ [(response, response.length, none)] },
                    world := { s.world.logged (callEvents r host request key message (.reply written)) with
                      now },
                    pos := s.pos + 3 }) := by
  have hwrite := run_write_ok timeout ans response ⟨s.conn, (s.world.logged
        [.invoked r request.counter host request.id.val message (.reply written)]).logged
        [.sealed r key (Wire.nonce12 directionServerToClient request.counter.toNat) written],
      s.pos + 1 + 1⟩ hw hd
  simp only [runHandler, Prog.run, seqI, exec, hh, her, if_true]
  rw [show gcmNonceSize = 12 from rfl, C12_nonce_layout]
  have hb : (newProcessResponse request.counter (C.aeadSeal key (Wire.nonce12 directionServerToClient
      request.counter.toNat) written)).bytes = response := by
    rw [hr]; exact processResponse_bytes _ _
  have hrun := run_respondWith timeout ans response _ _ hwrite
  rw [← hb] at hrun
  refine ⟨if s.conn.buffered then s.world.now else s.world.now + (ans (s.pos + 2)).tick,
    fun h => if_pos h, ?_⟩
  refine (show _ = _ from hrun).trans ?_
  rw [hb]
  cases hbuf : s.conn.buffered <;>
  · simp [World.logged, callEvents, replyEvents, her, directionServerToClient]
    exact hbuf

/-- A fresh, authentic process message is served. -/
theorem serve_reply (hC : C.Lawful) (timeout : Nat) (ans : Nat → Answer C) (host : Bytes)
    (s : Seq) (id : ID) (counter : BitVec 64) (ciphertext : Bytes) (hl : ciphertext.length ≤ 2 ^ 30)
    (h : flatten s.conn.input = (Wire.processRequest true id.val counter.toNat ciphertext).map Sum.inl)
    (r : Ref) (t : Nat) (secret key message written : Bytes) (window : ReplayWindow) (acc : List Nat)
    (ht : s.world.table (sessionKey C host id) = some (r, t))
    (hh : s.world.heap[r]? = some (secret, window)) (hwin : Represents window acc)
    (hfresh : Fresh acc counter.toNat)
    (hk : deriveKey C secret kdfInfo aesKeySize = .ok key)
    (hopen : C.aeadOpen key (Wire.nonce12 0 counter.toNat) ciphertext = some message)
    (hreply : (ans (s.pos + 5)).handle = .reply written)
    (hw : (ans (s.pos + 7)).write = (0, none))
    (hd : ∀ d, s.conn.deadline = some d →
      s.world.now + (ans (s.pos + 1)).tick + (ans (s.pos + 7)).tick ≤ d)
    (response : Bytes) (hr : response = Wire.processResponse counter.toNat
      (C.aeadSeal key (Wire.nonce12 1 counter.toNat) written)) :
    ∃ evs now now', (s.conn.buffered = true → now' = s.world.now + (ans (s.pos + 1)).tick) ∧
      (serveRequest (inMemory C) (.ok host)).run (seqI C timeout ans) s =
      (.val true, {
        conn := { s.conn with
          input := evs, output := s.conn.output ++ response,
          writes := s.conn.writes ++ [(response, response.length, none)] },
        world := { (s.world.acceptedBy (sessionKey C host id) r now secret window counter).logged
          [.invoked r counter host id.val message (.reply written),
           .sealed r key (Wire.nonce12 1 counter.toNat) written] with now := now' },
        pos := s.pos + 8 }) := by
  obtain ⟨evs, -, h1⟩ := run_serveRequest hC timeout ans (inMemory C) (.ok host)
    (.process true id counter ciphertext) hl s [] (by rw [List.append_nil]; exact h)
  have hc : (window.checkAndUpdate counter).1 = true :=
    (checkAndUpdate_spec window acc hwin counter).1.mpr hfresh
  obtain ⟨now, hnow, h2⟩ := run_process_known hC timeout ans host
    (parsedProcess true id counter ciphertext)
    { s with conn := { s.conn with input := evs } } r t secret key window ht hh hc hk
  rw [show (parsedProcess true id counter ciphertext).message = ciphertext from rfl,
    show (parsedProcess true id counter ciphertext).counter = counter from rfl, hopen] at h2
  obtain ⟨now', hnow', h3⟩ := run_runHandler_reply timeout ans r host (parsedProcess true id counter ciphertext)
    key message written ⟨{ s.conn with input := evs },
      s.world.acceptedBy (sessionKey C host id) r now secret window counter, s.pos + 5⟩ hreply rfl hw
      (by intro d hd'; subst hnow; exact hd d hd') response hr
  refine ⟨evs, now, now', fun hb => (hnow' hb).trans hnow, ?_⟩
  rw [h1, Prog.run_bind]
  dsimp only [afterParse]
  rw [h2]
  dsimp only
  rw [show (parsedProcess true id counter ciphertext).id = id from rfl, h3]
  rfl

/-! ## The client -/

/-- Reading out the buffer until `io.EOF`. -/
theorem readAll_buffer {env : CEnv C} (hd : env.readDeadline = none) (ns : List Nat) (c : Client)
    (s : CConn × CShared) (hb : c.buffer ≠ []) (hns : c.buffer.length ≤ ns.sum) :
    readAll env c s ns = some ((c.buffer, some .eof), { c with buffer := [] }, s) := by
  induction ns generalizing c with
  | nil =>
    exfalso
    apply hb
    apply List.eq_nil_of_length_eq_zero
    simpa using hns
  | cons n ns ih =>
    rw [readAll, runClient, read_buffered hd hb, readBuffer, if_neg (fun h => hb h.1)]
    dsimp only
    by_cases hle : c.buffer.length ≤ n
    · rw [if_pos (List.drop_eq_nil_iff.mpr hle)]
      dsimp only
      rw [List.take_of_length_le hle, List.drop_eq_nil_iff.mpr hle]
    · have hne : c.buffer.drop n ≠ [] := fun h => hle (List.drop_eq_nil_iff.mp h)
      rw [if_neg hne]
      dsimp only
      rw [ih { c with buffer := c.buffer.drop n } hne (by
        simp only [List.sum_cons] at hns
        simp only [List.length_drop]
        omega)]
      simp

/-- Reading a reply until `io.EOF`. -/
theorem readAll_reply {env : CEnv C} {c : Client} {ns : List Nat} {s : CConn} {w : CShared}
    {session : ClientSession} {key message : Bytes} (hC : C.Lawful)
    (hd : env.readDeadline = none) (hb : c.buffer = []) (hs : c.session = some session)
    (hk : deriveKey C session.secret kdfInfo aesKeySize = .ok key) (hm : message ≠ [])
    (hl : message.length + 16 ≤ 2 ^ 30)
    (hstream : s.net.stream = (Wire.processResponse c.lastSentCounter.toNat
      (C.aeadSeal key (Wire.nonce12 1 c.lastSentCounter.toNat) message)).map Sum.inl)
    (hns : message.length ≤ ns.sum) :
    ∃ s', readAll env c (s, w) ns = some ((message, some .eof), c, (s', w)) := by
  cases ns with
  | nil =>
    exfalso
    apply hm
    apply List.eq_nil_of_length_eq_zero
    simpa using hns
  | cons n ns =>
    obtain ⟨t, -, hrun⟩ := read_accepts (n := n) (s := s) (w := w) (rest := []) hC hd hb hs hk
      (by rw [hC.seal_length]; exact hl) (by rw [List.append_nil]; exact hstream) (hC.open_seal _ _ _)
    refine ⟨{ s with net := t }, ?_⟩
    have hbuf := readAll_buffer (env := env) hd (n :: ns) { c with buffer := message }
      ({ s with net := t }, w) hm hns
    rw [readAll, runClient, read_buffered hd hm] at hbuf
    rw [readAll, runClient, hrun, hbuf]
    dsimp only
    rw [← hb]

/-! ## Together -/

/-- Client and server share a session; the server has accepted no counter larger than the client's
last. -/
structure Linked (C : Crypto) (udp : Bool) (timeout : Nat) (host : Bytes) (r : Ref)
    (session : ClientSession) (v : BitVec 64) (e : Ends) : Prop where
  has : e.client.session = some session
  buffer : e.client.buffer = []
  expectReply : e.client.expectReply = true
  counter : e.shared.counters[session.sendCounter]? = some v
  stored : ∃ t, e.server.world.table (sessionKey C host session.id) = some (r, t)
  window : ∃ window acc, e.server.world.heap[r]? = some (session.secret, window) ∧
    Represents window acc ∧ largest acc ≤ v.toNat
  open_ : udp = false → e.server.world.quit = false
  noDeadline : udp = false → timeout = 0 → e.server.conn.deadline = none
  noPacketDeadline : timeout = 0 → e.server.world.packetBy = none

/-- The goroutine for a datagram after setting the deadline. -/
def Seq.packetReady (timeout : Nat) (ans : Nat → Answer C) (host : Except Err Bytes) (request : Bytes)
    (s : Seq) : Seq :=
  { conn := { Conn.ofPeer (.udp host request) with
      deadline := if timeout > 0 then some (s.world.now + (ans s.pos).tick + timeout) else none },
    world := { s.world with
      now := s.world.now + (ans s.pos).tick,
      packetBy := if timeout > 0 then some (s.world.now + (ans s.pos).tick + timeout)
        else s.world.packetBy },
    pos := s.pos + 1 }

theorem run_packetBody (timeout : Nat) (ans : Nat → Answer C) (M : Manager C) (host : Except Err Bytes)
    (request : Bytes) (s : Seq) :
    ((packetBody M host).run (seqI C timeout ans) { s with conn := .ofPeer (.udp host request) }).2 =
      ((serveRequest M host).run (seqI C timeout ans) (s.packetReady timeout ans host request)).2 := by
  have hready : (seqI C timeout ans .setDeadlines
      { s with conn := .ofPeer (.udp host request) }).2 = s.packetReady timeout ans host request := by
    rw [seqI_other _ _ _ id]
    simp [exec, Seq.packetReady, Conn.ofPeer, Conn.none]
  rw [packetBody, Prog.run, hready, Prog.run_bind]
  generalize (serveRequest M host).run (seqI C timeout ans) (s.packetReady timeout ans host request) = q
  rcases q with ⟨_ | _, _⟩ <;> rfl

/-- One message. -/
theorem exchange_linked (hC : C.Lawful) {env : CEnv C} {udp : Bool} {timeout : Nat}
    {ans : Nat → Answer C} {host : Bytes} {r : Ref} {session : ClientSession} {v : BitVec 64} {e : Ends}
    (round : Round) (hl : Linked C udp timeout host r session v e)
    (hwd : env.writeDeadline = none) (hrd : env.readDeadline = none) (hwr : env.write = (0, none))
    (hf : round.faithful) (hm : round.message.length + 16 ≤ 2 ^ 30)
    (hans : ∀ p, (ans p).write = (0, none) ∧ ∃ written, (ans p).handle = .reply written ∧
      written ≠ [] ∧ written.length + 16 ≤ 2 ^ 30 ∧ written.length ≤ round.sizes.sum)
    (htime : 0 < timeout → ∀ i j, (ans i).tick + (ans j).tick ≤ timeout)
    (hv : v.toNat + 1 < 2 ^ 64) :
    ∃ written e', exchange env udp timeout ans host round e = some ((written, some .eof), e') ∧
      Linked C udp timeout host r session (v + 1) e' ∧
      handledFor r e'.server.world.log = handledFor r e.server.world.log ++
        [(round.message, .reply written)] := by
  obtain ⟨key, hk, -⟩ := newGCM_ok hC session.secret
  have hvn : (v + 1).toNat = v.toNat + 1 := by
    rw [BitVec.toNat_add]; exact Nat.mod_eq_of_lt (by simpa using hv)
  have hv0 : v + 1 ≠ 0 := by
    intro h
    rw [h] at hvn
    simp at hvn
  have hc : v + 1 = e.shared.counters.getD session.sendCounter 0 + 1 := by
    rw [List.getD_eq_getElem?_getD, hl.counter]; rfl
  have hcl : session.sendCounter < e.shared.counters.length :=
    (List.getElem?_eq_some_iff.mp hl.counter).1
  obtain ⟨t, ht⟩ := hl.stored
  obtain ⟨window, acc, hh, hwin, hmax⟩ := hl.window
  have hfresh : Fresh acc (v + 1).toNat := by
    rw [hvn]
    refine ⟨by omega, ?_, by omega⟩
    intro hmem
    have := le_largest hmem
    omega
  have hsl : (C.aeadSeal key (Wire.nonce12 0 (v + 1).toNat) round.message).length ≤ 2 ^ 30 := by
    rw [hC.seal_length]; exact hm
  have hspec := (checkAndUpdate_spec window acc hwin (v + 1))
  have hwin' := hspec.2.1 (hspec.1.mpr hfresh)
  have hlt : r < e.server.world.heap.length := (List.getElem?_eq_some_iff.mp hh).1
  have hreq : writeRequest C e.client session key (v + 1) round.message =
      Wire.processRequest true session.id.val (v + 1).toNat
        (C.aeadSeal key (Wire.nonce12 0 (v + 1).toNat) round.message) := by
    rw [writeRequest, hl.expectReply]
  generalize hQ : writeRequest C e.client session key (v + 1) round.message = request at hreq
  have hwrite := write_run (s := e.conn) (w := e.shared) (p := round.message) hC hwd hl.has hk (v + 1)
    hc hv0 (by omega)
  rw [hQ, hwr] at hwrite
  dsimp only at hwrite
  unfold exchange
  rw [runClient, hwrite]
  dsimp only
  rw [List.getLast?_concat]
  dsimp only
  rw [Nat.sub_zero, List.take_length]
  -- what the client does with the answer
  have hread : ∀ written response, response = Wire.processResponse (v + 1).toNat
      (C.aeadSeal key (Wire.nonce12 1 (v + 1).toNat) written) → written ≠ [] →
      written.length + 16 ≤ 2 ^ 30 → written.length ≤ round.sizes.sum → ∀ (conn : CConn) (shared : CShared),
      ∃ s', readAll env { e.client with lastSentCounter := v + 1 }
        ({ conn with net := round.down response }, shared) round.sizes =
        some ((written, some .eof), { e.client with lastSentCounter := v + 1 }, (s', shared)) := by
    intro written response hr h1 h2 h3 conn shared
    refine readAll_reply (c := { e.client with lastSentCounter := v + 1 })
      (s := { conn with net := round.down response }) hC hrd hl.buffer hl.has hk h1 h2 ?_ h3
    rw [hf.2, hr]
  have hlog : ∀ written (w : World), w.log = e.server.world.log ++ [.accepted r (v + 1)] ++
        [.invoked r (v + 1) host session.id.val round.message (.reply written),
         .sealed r key (Wire.nonce12 1 (v + 1).toNat) written] →
      handledFor r w.log = handledFor r e.server.world.log ++ [(round.message, .reply written)] := by
    intro written w h
    rw [h]
    simp [handledFor]
  cases udp with
  | false =>
    obtain ⟨-, written, hans1, hans2, hans3, hans4⟩ := hans (e.server.pos + 2 + 5)
    have hdl : ∀ d, (Seq.ready timeout ans { e.server with conn :=
        { e.server.conn with input := round.up request } }).conn.deadline = some d →
        (Seq.ready timeout ans { e.server with conn :=
          { e.server.conn with input := round.up request } }).world.now +
          (ans (e.server.pos + 2 + 1)).tick + (ans (e.server.pos + 2 + 7)).tick ≤ d := by
      intro d hd
      simp only [Seq.ready] at hd ⊢
      by_cases h0 : 0 < timeout
      · rw [if_pos h0] at hd
        cases hd
        have := htime h0 (e.server.pos + 2 + 1) (e.server.pos + 2 + 7)
        omega
      · rw [if_neg h0, hl.noDeadline rfl (by omega)] at hd
        cases hd
    obtain ⟨evs, now, now', -, hserve⟩ := serve_reply hC timeout ans host
      (Seq.ready timeout ans { e.server with conn := { e.server.conn with input := round.up request } })
      session.id (v + 1) _ hsl (by rw [← hreq]; exact hf.1 request) r t session.secret key round.message written
      window acc ht hh hwin hfresh hk (hC.open_seal _ _ _) hans1 (hans _).1 hdl _ rfl
    obtain ⟨s', hs'⟩ := hread written _ rfl hans2 hans3 hans4 { e.conn with
        net := e.conn.net.written, writes := e.conn.writes ++ [(request, request.length, none)] }
      { counters := e.shared.counters.set session.sendCounter (v + 1),
        sealed := e.shared.sealed ++ [(key, Wire.nonce12 0 (v + 1).toNat, round.message)] }
    rw [if_neg (by decide), answerTCP, run_connPass _ _ _ _ _ (show ({ e.server with conn :=
      { e.server.conn with input := round.up request } } : Seq).world.quit = false from hl.open_ rfl), hserve]
    dsimp only [Seq.ready]
    rw [List.drop_left, hs']
    refine ⟨written, _, rfl, ⟨hl.has, hl.buffer, hl.expectReply, ?_, ?_, ?_, ?_, ?_, ?_⟩, ?_⟩
    · exact List.getElem?_set_self hcl
    · exact ⟨_, if_pos rfl⟩
    · exact ⟨_, _, List.getElem?_set_self hlt, hwin', by simp only [largest]; omega⟩
    · exact fun _ => hl.open_ rfl
    · intro _ h0
      dsimp only
      rw [if_neg (by omega)]
      exact hl.noDeadline rfl h0
    · intro h0
      refine Eq.trans (if_neg ?_) (hl.noPacketDeadline h0)
      omega
    · exact hlog written _ rfl
  | true =>
    obtain ⟨-, written, hans1, hans2, hans3, hans4⟩ := hans (e.server.pos + 1 + 5)
    have hdl : ∀ d, (Seq.packetReady timeout ans (.ok host) request e.server).conn.deadline = some d →
        (Seq.packetReady timeout ans (.ok host) request e.server).world.now +
          (ans (e.server.pos + 1 + 1)).tick + (ans (e.server.pos + 1 + 7)).tick ≤ d := by
      intro d hd
      simp only [Seq.packetReady] at hd ⊢
      by_cases h0 : 0 < timeout
      · rw [if_pos h0] at hd
        cases hd
        have := htime h0 (e.server.pos + 1 + 1) (e.server.pos + 1 + 7)
        omega
      · rw [if_neg h0] at hd
        cases hd
    obtain ⟨evs, now, now', hnow, hserve⟩ := serve_reply hC timeout ans host
      (Seq.packetReady timeout ans (.ok host) request e.server)
      session.id (v + 1) _ hsl (by rw [← hreq]; simp [Seq.packetReady, Conn.ofPeer, flatten]) r t
      session.secret key round.message written
      window acc ht hh hwin hfresh hk (hC.open_seal _ _ _) hans1 (hans _).1 hdl _ rfl
    have hnow := hnow rfl
    obtain ⟨s', hs'⟩ := hread written _ rfl hans2 hans3 hans4 { e.conn with
        net := e.conn.net.written, writes := e.conn.writes ++ [(request, request.length, none)] }
      { counters := e.shared.counters.set session.sendCounter (v + 1),
        sealed := e.shared.sealed ++ [(key, Wire.nonce12 0 (v + 1).toNat, round.message)] }
    have hby : expired (Seq.packetReady timeout ans (.ok host) request e.server).world.packetBy
        (now' + (ans (e.server.pos + 1 + 8)).tick) = false := by
      rw [hnow]
      simp only [Seq.packetReady, expired]
      by_cases h0 : 0 < timeout
      · rw [if_pos h0]
        have := htime h0 (e.server.pos + 1 + 1) (e.server.pos + 1 + 8)
        exact decide_eq_false (by omega)
      · rw [if_neg h0, hl.noPacketDeadline (by omega)]
    rw [if_pos rfl, answerUDP, run_packetBody, hserve]
    simp only [Prog.run, packetDeferred]
    rw [seqI_other _ _ _ id]
    simp only [exec, (hans _).1]
    rw [if_neg (by
      rintro (h | h | h)
      · simp [Seq.packetReady, Conn.ofPeer, Conn.none, Wire.processResponse] at h
      · exact Bool.false_ne_true (hby.symm.trans h)
      · cases h)]
    simp only [Seq.packetReady, Conn.ofPeer, Conn.none, List.nil_append]
    rw [hs']
    refine ⟨written, _, rfl, ⟨hl.has, hl.buffer, hl.expectReply, ?_, ?_, ?_, ?_, ?_, ?_⟩, ?_⟩
    · exact List.getElem?_set_self hcl
    · exact ⟨_, if_pos rfl⟩
    · exact ⟨_, _, List.getElem?_set_self hlt, hwin', by simp only [largest]; omega⟩
    · intro h; cases h
    · intro h; cases h
    · intro h0
      refine Eq.trans (if_neg ?_) (hl.noPacketDeadline h0)
      omega
    · exact hlog written _ rfl

/-- Any number of messages. -/
theorem converse_linked (hC : C.Lawful) {env : CEnv C} {udp : Bool} {timeout : Nat}
    {ans : Nat → Answer C} {host : Bytes} {r : Ref} {session : ClientSession}
    (hwd : env.writeDeadline = none) (hrd : env.readDeadline = none) (hwr : env.write = (0, none))
    (htime : 0 < timeout → ∀ i j, (ans i).tick + (ans j).tick ≤ timeout)
    (rounds : List Round) (v : BitVec 64) (e : Ends) (hl : Linked C udp timeout host r session v e)
    (hf : ∀ round ∈ rounds, round.faithful ∧ round.message.length + 16 ≤ 2 ^ 30)
    (hans : ∀ round ∈ rounds, ∀ p, (ans p).write = (0, none) ∧ ∃ written,
      (ans p).handle = .reply written ∧
      written ≠ [] ∧ written.length + 16 ≤ 2 ^ 30 ∧ written.length ≤ round.sizes.sum)
    (hv : v.toNat + rounds.length < 2 ^ 64) :
    ∃ replies e', converse env udp timeout ans host rounds e =
        some (replies.map fun written => (written, some .eof), e') ∧
      replies.length = rounds.length ∧
      handledFor r e'.server.world.log = handledFor r e.server.world.log ++
        List.zipWith (fun round written => (round.message, .reply written)) rounds replies := by
  induction rounds generalizing v e with
  | nil => exact ⟨[], e, rfl, rfl, by simp⟩
  | cons round rounds ih =>
    have hfr := hf round List.mem_cons_self
    simp only [List.length_cons] at hv
    obtain ⟨written, e₁, h1, h2, h3⟩ := exchange_linked hC round hl hwd hrd hwr hfr.1 hfr.2
      (hans round List.mem_cons_self) htime (by omega)
    obtain ⟨replies, e', h4, h5, h6⟩ := ih (v + 1) e₁ h2
      (fun q hq => hf q (List.mem_cons_of_mem _ hq)) (fun q hq => hans q (List.mem_cons_of_mem _ hq))
      (by rw [BitVec.toNat_add, show (1 : BitVec 64).toNat = 1 from rfl]; omega)
    refine ⟨written :: replies, e', ?_, by simp [h5], ?_⟩
    · rw [converse, h1]
      dsimp only
      rw [h4]
      rfl
    · rw [h6, h3]; simp

end

end Goe2ee
