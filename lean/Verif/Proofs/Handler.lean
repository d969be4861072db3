import Verif.Proofs.Conversation
import Verif.Spec.Handler

/-!
# Conversations with a handler that may fail
-/

set_option autoImplicit false

namespace Goe2ee

section
variable {C : Crypto}

/-! ## The handler -/

theorem handler_reads (expectReply : Bool) (h : HProg) (s : HBuffers) :
    ∃ rest, s.reader = dataRead (h.trace (handlerExec expectReply) s) ++ rest ∧
      (h.run (handlerExec expectReply) s).2.reader = rest := by
  induction h generalizing s with
  | ret a => exact ⟨s.reader, rfl, rfl⟩
  | panic m => exact ⟨s.reader, rfl, rfl⟩
  | op o k ih =>
    obtain ⟨rest, h1, h2⟩ := ih (handlerExec expectReply o s).1 (handlerExec expectReply o s).2
    refine ⟨rest, ?_, h2⟩
    rw [Prog.trace]
    cases o with
    | read n =>
      simp only [dataRead]
      rw [List.append_assoc, ← h1]
      simp only [handlerExec]
      split <;> simp_all
    | write bs =>
      simp only [dataRead]
      rw [← h1]
      cases expectReply <;> rfl

theorem handler_writes (h : HProg) (s : HBuffers) :
    (h.run (handlerExec true) s).2.writer = s.writer ++ dataWritten (h.trace (handlerExec true) s) := by
  induction h generalizing s with
  | ret a => simp [Prog.run, Prog.trace, dataWritten]
  | panic m => simp [Prog.run, Prog.trace, dataWritten]
  | op o k ih =>
    rw [Prog.run, Prog.trace, ih]
    cases o with
    | read n =>
      simp only [dataWritten, handlerExec]
      split <;> rfl
    | write bs => simp [dataWritten, handlerExec]

/-! ## The server -/

/-- The response for an outcome. -/
def responseTo (C : Crypto) (key : Bytes) (counter : BitVec 64) : HRes → Bytes
  | .reply written => Wire.processResponse counter.toNat (C.aeadSeal key (Wire.nonce12 1 counter.toNat) written)
  | _ => Wire.errorResponse 2 (str "failed to handle message")

theorem responseTo_ne_nil (key : Bytes) (counter : BitVec 64) (res : HRes) : responseTo C key counter res ≠ [] := by
  cases res <;> simp [responseTo, Wire.processResponse, Wire.errorResponse]

/-- The handler fails and the transport accepts the response. -/
theorem run_runHandler_error (timeout : Nat) (ans : Nat → Answer C) (r : Ref) (host : Bytes)
    (request : ProcessRequest) (key message : Bytes) (e : Err) (s : Seq)
    (hh : (ans s.pos).handle = .error e)
    (hw : (ans (s.pos + 1)).write = (0, none))
    (hd : ∀ d, s.conn.deadline = some d → s.world.now + (ans (s.pos + 1)).tick ≤ d)
    (response : Bytes) (hr : response = Wire.errorResponse 2 (str "failed to handle message")) :
    ∃ now, (s.conn.buffered = true → now = s.world.now) ∧
      (runHandler r host request key message).run (seqI C timeout ans) s =
      (.val none, { conn := { s.conn with output := s.conn.output ++ response,
                                          writes := s.conn.writes ++ [(response, response.length, none)] },
                    world := { s.world.logged (callEvents r host request key message (.error e)) with now },
                    pos := s.pos + 2 }) := by
  have hb : errorBytes codeServerError "failed to handle message" = response := by
    rw [hr]; decide +kernel
  have hwrite := run_write_ok timeout ans (errorBytes codeServerError "failed to handle message") ⟨s.conn,
      s.world.logged [.invoked r request.counter host request.id.val message (.error e)], s.pos + 1⟩ hw hd
  simp only [runHandler, Prog.run, seqI, exec, hh]
  refine ⟨if s.conn.buffered then s.world.now else s.world.now + (ans (s.pos + 1)).tick,
    fun h => if_pos h, ?_⟩
  refine (show _ = _ from run_failWith timeout ans _ _ _ _ hwrite).trans ?_
  rw [hb]
  cases hbuf : s.conn.buffered <;>
  · simp [World.logged, callEvents, replyEvents]
    exact hbuf

/-- A fresh, authentic process message is answered, whether the handler fails or not. -/
theorem serve_handled (hC : C.Lawful) (timeout : Nat) (ans : Nat → Answer C) (host : Bytes)
    (s : Seq) (id : ID) (counter : BitVec 64) (ciphertext : Bytes) (hl : ciphertext.length ≤ 2 ^ 30)
    (h : flatten s.conn.input = (Wire.processRequest true id.val counter.toNat ciphertext).map Sum.inl)
    (r : Ref) (t : Nat) (secret key message : Bytes) (res : HRes) (window : ReplayWindow) (acc : List Nat)
    (ht : s.world.table (sessionKey C host id) = some (r, t))
    (hh : s.world.heap[r]? = some (secret, window)) (hwin : Represents window acc)
    (hfresh : Fresh acc counter.toNat)
    (hk : deriveKey C secret kdfInfo aesKeySize = .ok key)
    (hopen : C.aeadOpen key (Wire.nonce12 0 counter.toNat) ciphertext = some message)
    (hres : (ans (s.pos + 5)).handle = res) (hreturns : ∀ m, res ≠ .panic m)
    (hw : ∀ p, (ans p).write = (0, none))
    (hd : ∀ d, s.conn.deadline = some d → ∀ p, s.world.now + (ans (s.pos + 1)).tick + (ans p).tick ≤ d) :
    ∃ evs now now' pos', (s.conn.buffered = true → now' = s.world.now + (ans (s.pos + 1)).tick) ∧
      (serveRequest (inMemory C) (.ok host)).run (seqI C timeout ans) s =
      (.val true, {
        conn := { s.conn with
          input := evs, output := s.conn.output ++ responseTo C key counter res,
          writes := s.conn.writes ++
            [(responseTo C key counter res, (responseTo C key counter res).length, none)] },
        world := { (s.world.acceptedBy (sessionKey C host id) r now secret window counter).logged
          ([.invoked r counter host id.val message res] ++ replyEvents r key counter true res) with now := now' },
        pos := pos' }) := by
  cases res with
  | panic m => exact absurd rfl (hreturns m)
  | reply written =>
    obtain ⟨evs, now, now', h1, h2⟩ := serve_reply hC timeout ans host s id counter ciphertext hl h r t secret key
      message written window acc ht hh hwin hfresh hk hopen hres (hw _) (fun d hd' => hd d hd' _) _ rfl
    exact ⟨evs, now, now', _, h1, h2⟩
  | error e =>
    obtain ⟨evs, -, h1⟩ := run_serveRequest hC timeout ans (inMemory C) (.ok host)
      (.process true id counter ciphertext) hl s [] (by rw [List.append_nil]; exact h)
    have hc : (window.checkAndUpdate counter).1 = true :=
      (checkAndUpdate_spec window acc hwin counter).1.mpr hfresh
    obtain ⟨now, hnow, h2⟩ := run_process_known hC timeout ans host
      (parsedProcess true id counter ciphertext)
      { s with conn := { s.conn with input := evs } } r t secret key window ht hh hc hk
    rw [show (parsedProcess true id counter ciphertext).message = ciphertext from rfl,
      show (parsedProcess true id counter ciphertext).counter = counter from rfl, hopen] at h2
    obtain ⟨now', hnow', h3⟩ := run_runHandler_error timeout ans r host (parsedProcess true id counter ciphertext)
      key message e ⟨{ s.conn with input := evs },
        s.world.acceptedBy (sessionKey C host id) r now secret window counter, s.pos + 5⟩ hres (hw _)
        (by intro d hd'; subst hnow; exact hd d hd' _) _ rfl
    refine ⟨evs, now, now', s.pos + 7, fun hb => (hnow' hb).trans hnow, ?_⟩
    rw [h1, Prog.run_bind]
    dsimp only [afterParse]
    rw [h2]
    dsimp only
    rw [show (parsedProcess true id counter ciphertext).id = id from rfl, h3]
    rfl

/-! ## The client -/

/-- Reading an error response. -/
theorem readAll_error {env : CEnv C} {c : Client} {n : Nat} {ns : List Nat} {s : CConn} {w : CShared}
    (hd : env.readDeadline = none) (hb : c.buffer = []) (code : BitVec 32) (text : Bytes)
    (hl : text.length < 2 ^ 63)
    (hstream : s.net.stream = (Wire.errorResponse code.toNat text).map Sum.inl) :
    ∃ s', readAll env c (s, w) (n :: ns) =
      some (([], some (.remote "failed to read data" code text)), c, (s', w)) := by
  rw [← List.append_nil (List.map _ _), show Wire.errorResponse code.toNat text =
    0x00#8 :: (beEnc 4 code.toNat ++ (beEnc 8 text.length ++ text)) by
      simp [Wire.errorResponse, beEnc_eight, beEnc_four], List.map_cons, List.cons_append] at hstream
  have h1 := (congrArg (runI parseResponseCommon) hstream).trans (runI_parseResponseCommon _ _)
  have h2 := congrArg (runI (parseErrorResponse ⟨((0x00#8 : Byte) >>> 7) == 1#8, ((0x00#8 : Byte) <<< 1) >>> 1⟩))
    (runNet_rest h1)
  rw [runI_parseErrorResponse _ code text hl []] at h2
  have hrun : runClient env (c.read n) (s, w) = (.val (([], some (.remote "failed to read data" code text)), c),
      ({ s with net := (runNet (parseErrorResponse ⟨((0x00#8 : Byte) >>> 7) == 1#8, ((0x00#8 : Byte) <<< 1) >>> 1⟩)
        (runNet parseResponseCommon s.net).2).2 }, w)) := by
    rw [runClient, Client.read, run_readDeadline, hd, ite_self]
    dsimp only
    rw [if_neg (by simpa using hb), run_parse_eq _ _ h1]
    dsimp only
    rw [if_pos (by decide), run_parse_eq _ _ h2]
    rfl
  exact ⟨_, by rw [readAll, hrun]⟩

/-- Reading an empty reply. -/
theorem readAll_empty {env : CEnv C} {c : Client} {n : Nat} {ns : List Nat} {s : CConn} {w : CShared}
    {session : ClientSession} {key : Bytes} (hC : C.Lawful)
    (hd : env.readDeadline = none) (hb : c.buffer = []) (hs : c.session = some session)
    (hk : deriveKey C session.secret kdfInfo aesKeySize = .ok key) (hn : 0 < n)
    (hstream : s.net.stream = (Wire.processResponse c.lastSentCounter.toNat
      (C.aeadSeal key (Wire.nonce12 1 c.lastSentCounter.toNat) [])).map Sum.inl) :
    ∃ s', readAll env c (s, w) (n :: ns) =
      some (([], some (.wrap "failed to read data from buffer" .eof)), c, (s', w)) := by
  obtain ⟨t, -, hrun⟩ := read_accepts (n := n) (s := s) (w := w) (rest := []) (message := []) hC hd hb hs hk
    (by rw [hC.seal_length]; decide) (by rw [List.append_nil]; exact hstream) (hC.open_seal _ _ _)
  refine ⟨{ s with net := t }, ?_⟩
  rw [readAll, runClient, hrun, readBuffer, if_pos ⟨rfl, hn⟩]
  dsimp only
  rw [← hb]

/-- Reading the answer to a message. -/
theorem readAll_seen {env : CEnv C} {c : Client} {ns : List Nat} {s : CConn} {w : CShared}
    {session : ClientSession} {key : Bytes} (hC : C.Lawful)
    (hd : env.readDeadline = none) (hb : c.buffer = []) (hs : c.session = some session)
    (hk : deriveKey C session.secret kdfInfo aesKeySize = .ok key) (res : HRes) (hres : Answerable ns res)
    (hns : ∀ n ∈ ns.head?, 0 < n) (hne : ns ≠ [])
    (hstream : s.net.stream = (responseTo C key c.lastSentCounter res).map Sum.inl) :
    ∃ s', readAll env c (s, w) ns = some (seenFor res, c, (s', w)) := by
  cases ns with
  | nil => exact absurd rfl hne
  | cons n ns =>
    cases res with
    | panic m => exact hres.elim
    | error e => exact readAll_error hd hb 2 _ (by decide +kernel) hstream
    | reply written =>
      by_cases h : written = []
      · subst h
        rw [seenFor, if_pos rfl]
        exact readAll_empty hC hd hb hs hk (hns n rfl) hstream
      · rw [seenFor, if_neg h]
        exact readAll_reply hC hd hb hs hk h hres.1 hstream hres.2

/-! ## Together -/

/-- One message. -/
theorem exchange_handled (hC : C.Lawful) {env : CEnv C} {udp : Bool} {timeout : Nat}
    {ans : Nat → Answer C} {host : Bytes} {r : Ref} {session : ClientSession} {v : BitVec 64} {e : Ends}
    (round : Round) (hl : Linked C udp timeout host r session v e)
    (hwd : env.writeDeadline = none) (hrd : env.readDeadline = none) (hwr : env.write = (0, none))
    (hf : round.faithful) (hm : round.message.length + 16 ≤ 2 ^ 30)
    (hsizes : ∃ n ns, round.sizes = n :: ns ∧ 0 < n)
    (hans : ∀ p, (ans p).write = (0, none) ∧ Answerable round.sizes (ans p).handle)
    (htime : 0 < timeout → ∀ i j, (ans i).tick + (ans j).tick ≤ timeout)
    (hv : v.toNat + 1 < 2 ^ 64) :
    ∃ res e', exchange env udp timeout ans host round e = some (seenFor res, e') ∧
      (∃ p, (ans p).handle = res) ∧
      Linked C udp timeout host r session (v + 1) e' ∧
      handledFor r e'.server.world.log = handledFor r e.server.world.log ++ [(round.message, res)] := by
  obtain ⟨key, hk, -⟩ := newGCM_ok hC session.secret
  have hvn : (v + 1).toNat = v.toNat + 1 := by
    rw [BitVec.toNat_add]; exact Nat.mod_eq_of_lt (by simpa using hv)
  have hv0 : v + 1 ≠ 0 := by
    intro h
    rw [h] at hvn
    simp at hvn
  have hc : v + 1 = e.shared.counters.getD session.sendCounter 0 + 1 := by
    rw [List.getD_eq_getElem?_getD, hl.counter]; rfl
  have hcl : session.sendCounter < e.shared.counters.length :=
    (List.getElem?_eq_some_iff.mp hl.counter).1
  obtain ⟨t, ht⟩ := hl.stored
  obtain ⟨window, acc, hh, hwin, hmax⟩ := hl.window
  have hfresh : Fresh acc (v + 1).toNat := by
    rw [hvn]
    refine ⟨by omega, ?_, by omega⟩
    intro hmem
    have := le_largest hmem
    omega
  have hsl : (C.aeadSeal key (Wire.nonce12 0 (v + 1).toNat) round.message).length ≤ 2 ^ 30 := by
    rw [hC.seal_length]; exact hm
  have hspec := (checkAndUpdate_spec window acc hwin (v + 1))
  have hwin' := hspec.2.1 (hspec.1.mpr hfresh)
  have hlt : r < e.server.world.heap.length := (List.getElem?_eq_some_iff.mp hh).1
  have hreq : writeRequest C e.client session key (v + 1) round.message =
      Wire.processRequest true session.id.val (v + 1).toNat
        (C.aeadSeal key (Wire.nonce12 0 (v + 1).toNat) round.message) := by
    rw [writeRequest, hl.expectReply]
  generalize hQ : writeRequest C e.client session key (v + 1) round.message = request at hreq
  have hwrite := write_run (s := e.conn) (w := e.shared) (p := round.message) hC hwd hl.has hk (v + 1)
    hc hv0 (by omega)
  rw [hQ, hwr] at hwrite
  dsimp only at hwrite
  unfold exchange
  rw [runClient, hwrite]
  dsimp only
  rw [List.getLast?_concat]
  dsimp only
  rw [Nat.sub_zero, List.take_length]
  -- what the client does with the answer
  have hread : ∀ res, Answerable round.sizes res → ∀ (conn : CConn) (shared : CShared),
      ∃ s', readAll env { e.client with lastSentCounter := v + 1 }
        ({ conn with net := round.down (responseTo C key (v + 1) res) }, shared) round.sizes =
        some (seenFor res, { e.client with lastSentCounter := v + 1 }, (s', shared)) := by
    intro res hr conn shared
    obtain ⟨n, ns, hs, hn⟩ := hsizes
    refine readAll_seen (c := { e.client with lastSentCounter := v + 1 })
      (s := { conn with net := round.down (responseTo C key (v + 1) res) }) hC hrd hl.buffer hl.has hk res hr
      (by rw [hs]; rintro _ ⟨⟩; exact hn) (by rw [hs]; exact List.cons_ne_nil _ _) ?_
    exact hf.2 _
  have hreturns : ∀ p m, (ans p).handle ≠ .panic m := by
    intro p m h
    have := (hans p).2
    rw [h] at this
    exact this
  have hlog : ∀ res (w : World), w.log = e.server.world.log ++ [.accepted r (v + 1)] ++
        ([.invoked r (v + 1) host session.id.val round.message res] ++ replyEvents r key (v + 1) true res) →
      handledFor r w.log = handledFor r e.server.world.log ++ [(round.message, res)] := by
    intro res w h
    rw [h]
    cases res <;> simp [handledFor, replyEvents]
  cases udp with
  | false =>
    obtain ⟨-, hans1⟩ := hans (e.server.pos + 2 + 5)
    have hdl : ∀ d, (Seq.ready timeout ans { e.server with conn :=
        { e.server.conn with input := round.up request } }).conn.deadline = some d →
        ∀ p, (Seq.ready timeout ans { e.server with conn :=
          { e.server.conn with input := round.up request } }).world.now +
          (ans (e.server.pos + 2 + 1)).tick + (ans p).tick ≤ d := by
      intro d hd p
      simp only [Seq.ready] at hd ⊢
      by_cases h0 : 0 < timeout
      · rw [if_pos h0] at hd
        cases hd
        have := htime h0 (e.server.pos + 2 + 1) p
        omega
      · rw [if_neg h0, hl.noDeadline rfl (by omega)] at hd
        cases hd
    obtain ⟨evs, now, now', pos', -, hserve⟩ := serve_handled hC timeout ans host
      (Seq.ready timeout ans { e.server with conn := { e.server.conn with input := round.up request } })
      session.id (v + 1) _ hsl (by rw [← hreq]; exact hf.1 request) r t session.secret key round.message _
      window acc ht hh hwin hfresh hk (hC.open_seal _ _ _) rfl (hreturns _) (fun p => (hans p).1) hdl
    obtain ⟨s', hs'⟩ := hread _ hans1 { e.conn with
        net := e.conn.net.written, writes := e.conn.writes ++ [(request, request.length, none)] }
      { counters := e.shared.counters.set session.sendCounter (v + 1),
        sealed := e.shared.sealed ++ [(key, Wire.nonce12 0 (v + 1).toNat, round.message)] }
    rw [if_neg (by decide), answerTCP, run_connPass _ _ _ _ _ (show ({ e.server with conn :=
      { e.server.conn with input := round.up request } } : Seq).world.quit = false from hl.open_ rfl), hserve]
    dsimp only [Seq.ready]
    rw [List.drop_left, hs']
    refine ⟨_, _, rfl, ⟨_, rfl⟩, ⟨hl.has, hl.buffer, hl.expectReply, ?_, ?_, ?_, ?_, ?_, ?_⟩, ?_⟩
    · exact List.getElem?_set_self hcl
    · exact ⟨_, if_pos rfl⟩
    · exact ⟨_, _, List.getElem?_set_self hlt, hwin', by simp only [largest]; omega⟩
    · exact fun _ => hl.open_ rfl
    · intro _ h0
      dsimp only
      rw [if_neg (by omega)]
      exact hl.noDeadline rfl h0
    · intro h0
      refine Eq.trans (if_neg ?_) (hl.noPacketDeadline h0)
      omega
    · exact hlog _ _ rfl
  | true =>
    obtain ⟨-, hans1⟩ := hans (e.server.pos + 1 + 5)
    have hdl : ∀ d, (Seq.packetReady timeout ans (.ok host) request e.server).conn.deadline = some d →
        ∀ p, (Seq.packetReady timeout ans (.ok host) request e.server).world.now +
          (ans (e.server.pos + 1 + 1)).tick + (ans p).tick ≤ d := by
      intro d hd p
      simp only [Seq.packetReady] at hd ⊢
      by_cases h0 : 0 < timeout
      · rw [if_pos h0] at hd
        cases hd
        have := htime h0 (e.server.pos + 1 + 1) p
        omega
      · rw [if_neg h0] at hd
        cases hd
    obtain ⟨evs, now, now', pos', hnow, hserve⟩ := serve_handled hC timeout ans host
      (Seq.packetReady timeout ans (.ok host) request e.server)
      session.id (v + 1) _ hsl (by rw [← hreq]; simp [Seq.packetReady, Conn.ofPeer, flatten]) r t
      session.secret key round.message _
      window acc ht hh hwin hfresh hk (hC.open_seal _ _ _) rfl (hreturns _) (fun p => (hans p).1) hdl
    have hnow := hnow rfl
    obtain ⟨s', hs'⟩ := hread _ hans1 { e.conn with
        net := e.conn.net.written, writes := e.conn.writes ++ [(request, request.length, none)] }
      { counters := e.shared.counters.set session.sendCounter (v + 1),
        sealed := e.shared.sealed ++ [(key, Wire.nonce12 0 (v + 1).toNat, round.message)] }
    have hby : expired (Seq.packetReady timeout ans (.ok host) request e.server).world.packetBy
        (now' + (ans pos').tick) = false := by
      rw [hnow]
      simp only [Seq.packetReady, expired]
      by_cases h0 : 0 < timeout
      · rw [if_pos h0]
        have := htime h0 (e.server.pos + 1 + 1) pos'
        exact decide_eq_false (by omega)
      · rw [if_neg h0, hl.noPacketDeadline (by omega)]
    rw [if_pos rfl, answerUDP, run_packetBody, hserve]
    simp only [Prog.run, packetDeferred]
    rw [seqI_other _ _ _ id]
    simp only [exec, (hans _).1]
    rw [if_neg (by
      rintro (h | h | h)
      · simp [Seq.packetReady, Conn.ofPeer, Conn.none, responseTo_ne_nil] at h
      · exact Bool.false_ne_true (hby.symm.trans h)
      · cases h)]
    simp only [Seq.packetReady, Conn.ofPeer, Conn.none, List.nil_append]
    rw [hs']
    refine ⟨_, _, rfl, ⟨_, rfl⟩, ⟨hl.has, hl.buffer, hl.expectReply, ?_, ?_, ?_, ?_, ?_, ?_⟩, ?_⟩
    · exact List.getElem?_set_self hcl
    · exact ⟨_, if_pos rfl⟩
    · exact ⟨_, _, List.getElem?_set_self hlt, hwin', by simp only [largest]; omega⟩
    · intro h; cases h
    · intro h; cases h
    · intro h0
      refine Eq.trans (if_neg ?_) (hl.noPacketDeadline h0)
      omega
    · exact hlog _ _ rfl

/-- Any number of messages. -/
theorem converse_handled (hC : C.Lawful) {env : CEnv C} {udp : Bool} {timeout : Nat}
    {ans : Nat → Answer C} {host : Bytes} {r : Ref} {session : ClientSession}
    (hwd : env.writeDeadline = none) (hrd : env.readDeadline = none) (hwr : env.write = (0, none))
    (htime : 0 < timeout → ∀ i j, (ans i).tick + (ans j).tick ≤ timeout)
    (rounds : List Round) (v : BitVec 64) (e : Ends) (hl : Linked C udp timeout host r session v e)
    (hf : ∀ round ∈ rounds, round.faithful ∧ round.message.length + 16 ≤ 2 ^ 30 ∧
      ∃ n ns, round.sizes = n :: ns ∧ 0 < n)
    (hans : ∀ round ∈ rounds, ∀ p, (ans p).write = (0, none) ∧ Answerable round.sizes (ans p).handle)
    (hv : v.toNat + rounds.length < 2 ^ 64) :
    ∃ (outcomes : List HRes) (e' : Ends), converse env udp timeout ans host rounds e =
        some (outcomes.map seenFor, e') ∧
      outcomes.length = rounds.length ∧ (∀ res ∈ outcomes, ∃ p, (ans p).handle = res) ∧
      handledFor r e'.server.world.log = handledFor r e.server.world.log ++
        (rounds.map (·.message)).zip outcomes := by
  induction rounds generalizing v e with
  | nil => exact ⟨[], e, rfl, rfl, by simp, by simp⟩
  | cons round rounds ih =>
    have hfr := hf round List.mem_cons_self
    simp only [List.length_cons] at hv
    obtain ⟨res, e₁, h1, h7, h2, h3⟩ := exchange_handled hC round hl hwd hrd hwr hfr.1 hfr.2.1 hfr.2.2
      (hans round List.mem_cons_self) htime (by omega)
    obtain ⟨outcomes, e', h4, h5, h8, h6⟩ := ih (v + 1) e₁ h2
      (fun q hq => hf q (List.mem_cons_of_mem _ hq)) (fun q hq => hans q (List.mem_cons_of_mem _ hq))
      (by rw [BitVec.toNat_add, show (1 : BitVec 64).toNat = 1 from rfl]; omega)
    refine ⟨res :: outcomes, e', ?_, by simp [h5], ?_, ?_⟩
    · rw [converse, h1]
      dsimp only
      rw [h4]
      rfl
    · rintro res' (_ | ⟨_, h⟩)
      · exact h7
      · exact h8 _ h
    · rw [h6, h3]; simp

end

end Goe2ee
