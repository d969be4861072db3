import Verif.Props.CutWrite

/-!
# C173: what one side sends, the other side takes
-/

set_option autoImplicit false

namespace Goe2ee

section
variable {C : Crypto}

/-- **C173**, requests: what `Write` sent without an error is a message for the server.  A client and a server
share a session; `Write` succeeds and the connection takes all it writes; when the octets arrive, with a
counter that is fresh, the server calls the handler with the message. -/
def C173_claim : Prop :=
  ∀ (C : Crypto) (timeout : Nat) (ans : Nat → Answer C) (host : Bytes) (env : CEnv C) (c c' : Client)
    (s s' : CConn × CShared) (p : Bytes) (n : Nat) (session : ClientSession) (server : Seq) (r : Ref) (t : Nat)
    (window : ReplayWindow) (rest : List (Byte ⊕ Err)),
    C.Lawful → Used (C := C) c s → Reachable C server.world → p.length < 2 ^ 63 →
    -- the session
    c.session = some session → server.world.table (sessionKey C host session.id) = some (r, t) →
    server.world.heap[r]? = some (session.secret, window) →
    -- the call
    env.write.1 = 0 → runClient env (c.write p) s = (.val ((n, none), c'), s') →
    Fresh (acceptedOf r server.world.log) c'.lastSentCounter.toNat →
    Delivers server.conn.input (taken (s'.1.writes.drop s.1.writes.length)) rest →
    ∃ result, .invoked r c'.lastSentCounter host session.id.val p result ∈
      (serveOne timeout ans host server).world.log

/-- **C173**, replies: what the server sent without an error as the reply to the client's last request is what
`Read` returns.  The server serves the request, the handler replies `written`, the connection takes all of the
response, which arrives (`net`); `Read` returns the beginning of `written`. -/
def C173_reply_claim : Prop :=
  ∀ (C : Crypto) (timeout : Nat) (ans : Nat → Answer C) (host : Bytes) (env : CEnv C) (c c' : Client)
    (s s' : CConn × CShared) (net : Transport) (message written bs : Bytes) (size : Nat) (err : Option Err) (session : ClientSession)
    (key : Bytes) (server : Seq) (r : Ref) (t : Nat) (window : ReplayWindow) (rest more : List (Byte ⊕ Err))
    (response : Bytes) (m : Nat) (e : Option Err),
    C.Lawful → Used (C := C) c s → Reachable C server.world → message.length + 16 ≤ 2 ^ 30 →
    written.length < 2 ^ 63 → written ≠ [] →
    -- the session
    c.session = some session → deriveKey C session.secret kdfInfo aesKeySize = .ok key →
    server.world.table (sessionKey C host session.id) = some (r, t) →
    server.world.heap[r]? = some (session.secret, window) →
    -- the server serves the client's last request
    Delivers server.conn.input (Wire.processRequest true session.id.val c.lastSentCounter.toNat
      (C.aeadSeal key (Wire.nonce12 0 c.lastSentCounter.toNat) message)) rest →
    Fresh (acceptedOf r server.world.log) c.lastSentCounter.toNat →
    .invoked r c.lastSentCounter host session.id.val message (.reply written) ∈
      (serveOne timeout ans host server).world.log.drop server.world.log.length →
    (serveOne timeout ans host server).conn.writes[server.conn.writes.length]? = some (response, m, e) →
    -- the client reads the response
    net.stream = response.map Sum.inl ++ more → c.buffer = [] → env.readDeadline = none → 0 < size →
    runClient env (c.read size) ({ s.1 with net := net }, s.2) = (.val ((bs, err), c'), s') →
    bs = written.take size

/-- A malformed request changes nothing on the server. -/
theorem malformed_world (M : Manager C) (timeout : Nat) (ans : Nat → Answer C) (host : Except Err Bytes)
    (s : Seq) (header : Byte) (common : RequestCommon) (tail rest : List (Byte ⊕ Err)) (e : Err)
    {α : Type} (parse : RProg (Except Err α)) (go : α → SProg C (Option Err))
    (hcommon : runI parseRequestCommon (.inl header :: tail) = (.val (.ok common), tail))
    (hversion : common.version = version1)
    (hhandle : handle M host common = (onConn parse).bind fun parsed => match parsed with
      | .error _ => failWith codeMalformedRequest "failed to parse data of the request"
      | .ok request => go request)
    (h : flatten s.conn.input = .inl header :: tail)
    (hbad : runI parse tail = (.val (.error e), rest)) :
    OnlyTime s.world ((serveRequest M host).run (seqI C timeout ans) s).2.world := by
  obtain ⟨evs1, h1, h2⟩ := run_onConn_of_runI (C := C) timeout ans (s := s) (rest := tail)
    (p := parseRequestCommon) (by rw [h]; exact hcommon)
  obtain ⟨evs2, h3, h4⟩ := run_onConn_of_runI (C := C) timeout ans
    (s := { s with conn := { s.conn with input := evs1 } }) (rest := rest)
    (p := parse) (by rw [← hbad]; exact congrArg _ h1)
  have hrun : (serveRequest M host).run (seqI C timeout ans) s =
      ((failWith codeMalformedRequest "failed to parse data of the request").bind goOn).run
        (seqI C timeout ans) { s with conn := { s.conn with input := evs2 } } := by
    rw [serveRequest_eq, Prog.run_bind, h2]
    dsimp only
    rw [if_neg (fun h => h hversion), hhandle, Prog.bind_assoc, Prog.run_bind, h4]
  rw [hrun, Prog.run_bind]
  have := run_failWith_world codeMalformedRequest "failed to parse data of the request" timeout ans
    { s with conn := { s.conn with input := evs2 } }
  split
  · rename_i err s' hr
    rw [hr] at this
    cases err <;> exact this
  · rename_i hr
    rw [hr] at this
    exact this

/-- A process request that declares more than 1 GiB changes nothing on the server. -/
theorem oversize_world (timeout : Nat) (ans : Nat → Answer C) (host : Bytes) (s : Seq)
    (flags : Byte) (id : ID) (counter size : Nat) (hs : 1073741824 < size) (hs2 : size < 2 ^ 64)
    (rest : List (Byte ⊕ Err))
    (h : Delivers s.conn.input ([0x13, flags] ++ id.val ++ Wire.be64 counter ++ Wire.be64 size) rest) :
    OnlyTime s.world (serveOne timeout ans host s).world := by
  have hb : flatten s.conn.input = .inl 0x13 :: (.inl flags :: (id.val.map Sum.inl ++
      ((beEnc 8 counter).map Sum.inl ++ ((beEnc 8 size).map Sum.inl ++ rest)))) := by
    rw [h, beEnc_eight, beEnc_eight]; simp
  have hm : (BitVec.ofNat 64 (beDec (beEnc 8 size))).toNat = size := by
    rw [beDec_beEnc, Nat.mod_eq_of_lt (by omega), BitVec.toNat_ofNat, Nat.mod_eq_of_lt hs2]
  refine malformed_world (inMemory C) timeout ans (.ok host) s 0x13 { version := 1, action := 3 } _ rest
    (.other "message size exceeds maximum") (parseProcessRequest { version := 1, action := 3 })
    (processParsed (inMemory C) (.ok host)) (runI_parseRequestCommon 0x13 _) rfl
    (by
      rw [handle, if_neg (by decide), if_neg (by decide), if_pos (by decide)]
      exact (processHandler_eq _ _ _).trans (congrArg _ (funext fun p => by cases p <;> rfl))) hb ?_
  rw [parseProcessRequest, runI_readOctet, runI_readField _ _ _ _ _ id.property,
    runI_readField _ _ _ _ _ (beEnc_length _ _), runI_readField _ _ _ _ _ (beEnc_length _ _)]
  simp only [hm, maxMessageSize]
  rw [if_pos (by omega)]
  rfl

/-- What a `Write` that succeeded completely sent. -/
theorem write_taken (hC : C.Lawful) {env : CEnv C} {c c' : Client} {s s' : CConn × CShared} {p : Bytes} {n : Nat}
    {session : ClientSession} (hp : p.length < 2 ^ 63) (hs : c.session = some session) (hw : env.write.1 = 0)
    (h : runClient env (c.write p) s = (.val ((n, none), c'), s')) :
    ∃ key, deriveKey C session.secret kdfInfo aesKeySize = .ok key ∧
      taken (s'.1.writes.drop s.1.writes.length) =
        Wire.processRequest c.expectReply session.id.val c'.lastSentCounter.toNat
          (C.aeadSeal key (Wire.nonce12 0 c'.lastSentCounter.toNat) p) := by
  obtain ⟨session', key, counter, h1, h2, h3, h4, h5, h6, h7, h8, h9⟩ :=
    write_ok (s := s.1) (w := s.2) (s' := s'.1) (w' := s'.2) hC hp h
  rw [hs] at h1
  cases h1
  refine ⟨key, h2, ?_⟩
  rw [h8, h7, h5, hw]
  simp [taken, writeRequest]

/-- **C173**, what holds of requests: a `Write` of at most 2^30 - 16 octets that succeeded completely reaches the
handler. -/
theorem C173_short_partial (hC : C.Lawful) (timeout : Nat) (ans : Nat → Answer C) (host : Bytes) (env : CEnv C)
    (c c' : Client) (s s' : CConn × CShared) (p : Bytes) (n : Nat) (session : ClientSession) (server : Seq) (r : Ref)
    (t : Nat) (window : ReplayWindow) (rest : List (Byte ⊕ Err)) (hr : Reachable C server.world)
    (hp : p.length + 16 ≤ 2 ^ 30) (hs : c.session = some session)
    (ht : server.world.table (sessionKey C host session.id) = some (r, t))
    (hh : server.world.heap[r]? = some (session.secret, window)) (hw : env.write.1 = 0)
    (h : runClient env (c.write p) s = (.val ((n, none), c'), s'))
    (hf : Fresh (acceptedOf r server.world.log) c'.lastSentCounter.toNat)
    (hin : Delivers server.conn.input (taken (s'.1.writes.drop s.1.writes.length)) rest) :
    ∃ result, .invoked r c'.lastSentCounter host session.id.val p result ∈
      (serveOne timeout ans host server).world.log := by
  obtain ⟨key, hk, htaken⟩ := write_taken hC (by omega) hs hw h
  rw [htaken] at hin
  obtain ⟨result, hlog, -⟩ := C19_fresh_messages_are_delivered hC timeout ans host server hr c.expectReply session.id
    c'.lastSentCounter _ rest (by rw [hC.seal_length]; omega) hin r t session.secret key p window ht hh hf hk
    (hC.open_seal _ _ _)
  exact ⟨result, by rw [hlog]; simp⟩

/-- **C173**, what happens to every longer message: `Write` reports success — as soon as the connection takes the
octets —, and the server refuses what it receives as malformed, calls no handler and records no counter.  It has
read the first 34 octets; the ciphertext is left on the connection, where the next request is expected. -/
theorem C173_long_partial (hC : C.Lawful) (timeout : Nat) (ans : Nat → Answer C) (host : Bytes) (env : CEnv C)
    (c : Client) (s : CConn × CShared) (p : Bytes) (session : ClientSession) (server : Seq)
    (rest : List (Byte ⊕ Err)) (hp : 2 ^ 30 < p.length + 16) (hp2 : p.length < 2 ^ 63)
    (hs : c.session = some session) (hw : env.write = (0, none)) (hd : env.writeDeadline = none)
    (hc : s.2.counters.getD session.sendCounter 0 + 1 ≠ 0) :
    ∃ c' s', runClient env (c.write p) s = (.val ((p.length + 50, none), c'), s') ∧
      c'.lastSentCounter = s.2.counters.getD session.sendCounter 0 + 1 ∧
      (Delivers server.conn.input (taken (s'.1.writes.drop s.1.writes.length)) rest →
        RefusedWith server (serveOne timeout ans host server) 1 ∧
        (serveOne timeout ans host server).world.log = server.world.log) := by
  obtain ⟨key, hk, -⟩ := newGCM_ok hC session.secret
  have h := write_run (s := s.1) (w := s.2) hC hd hs hk _ rfl hc hp2
  have hl : (writeRequest C c session key (s.2.counters.getD session.sendCounter 0 + 1) p).length =
      p.length + 50 := by
    simp [writeRequest, Wire.processRequest, Wire.be64, hC.seal_length, session.id.property]
    omega
  rw [hw] at h
  simp only [hl, Nat.sub_zero] at h
  refine ⟨_, _, h, rfl, fun hin => ?_⟩
  obtain ⟨key', -, htaken⟩ := write_taken hC hp2 hs (by rw [hw]) h
  rw [htaken, Wire.processRequest, hC.seal_length] at hin
  rw [Delivers, List.map_append, List.append_assoc] at hin
  exact ⟨C79_oversize_process_partial timeout ans host server _ session.id _ _ (by omega) (by omega) _ hin,
    (oversize_world timeout ans host server _ session.id _ _ (by omega) (by omega) _ hin).log⟩

/-- `Read` of a response that declares more than 1 GiB. -/
theorem read_oversize {env : CEnv C} {c : Client} {n : Nat} {s : CConn × CShared} {rest : List (Byte ⊕ Err)}
    {counter : BitVec 64} {ct : Bytes} (hd : env.readDeadline = none) (hb : c.buffer = [])
    (hl : 2 ^ 30 < ct.length) (hl2 : ct.length < 2 ^ 64)
    (hstream : s.1.net.stream = (Wire.processResponse counter.toNat ct).map Sum.inl ++ rest) :
    ∃ s', s'.1.net.stream = ct.map Sum.inl ++ rest ∧ runClient env (c.read n) s =
      (.val (([], some (.wrap "failed to parse success response" (.other "message size exceeds maximum"))), c),
        s') := by
  have hbytes : Wire.processResponse counter.toNat ct =
      0x80#8 :: (beEnc 8 counter.toNat ++ (beEnc 8 ct.length ++ ct)) := by
    simp [Wire.processResponse, beEnc_eight]
  rw [hbytes, List.map_cons, List.cons_append] at hstream
  have h1 := (congrArg (runI parseResponseCommon) hstream).trans (runI_parseResponseCommon _ _)
  have hm : (BitVec.ofNat 64 (beDec (beEnc 8 ct.length))).toNat = ct.length := by
    rw [beDec_beEnc, Nat.mod_eq_of_lt (by omega), BitVec.toNat_ofNat, Nat.mod_eq_of_lt hl2]
  have h2 := (congrArg (runI (parseProcessResponse ⟨true, 0⟩)) (runNet_rest h1)).trans
    (show _ = ((.val (.error (.other "message size exceeds maximum")), ct.map Sum.inl ++ rest) :
      Res (Except Err ProcessResponse) × List (Byte ⊕ Err)) by
      rw [map_inl_append, map_inl_append, parseProcessResponse,
        runI_readField _ _ _ _ _ (beEnc_length _ _), runI_readField _ _ _ _ _ (beEnc_length _ _)]
      simp only [hm, maxMessageSize]
      rw [if_pos (by omega)]
      rfl)
  obtain ⟨s1, s2⟩ := s
  refine ⟨({ s1 with net := _ }, s2), runNet_rest h2, ?_⟩
  show (c.read n).run (cexec env) (s1, s2) = _
  rw [Client.read, run_readDeadline, hd, ite_self]
  dsimp only
  rw [if_neg (by simpa using hb), run_parse_eq _ _ h1]
  dsimp only
  rw [if_neg (by decide), run_parse_eq _ _ h2]
  rfl

/-- Delivery with the handler's answer in view. -/
theorem delivered_answer (hC : C.Lawful) (timeout : Nat) (ans : Nat → Answer C) (host : Bytes)
    (s : Seq) (hs : Reachable C s.world) (id : ID) (counter : BitVec 64) (ciphertext : Bytes)
    (rest : List (Byte ⊕ Err)) (hl : ciphertext.length ≤ 2 ^ 30)
    (h : Delivers s.conn.input (Wire.processRequest true id.val counter.toNat ciphertext) rest)
    (r : Ref) (t : Nat) (secret key message : Bytes) (window : ReplayWindow)
    (ht : s.world.table (sessionKey C host id) = some (r, t))
    (hh : s.world.heap[r]? = some (secret, window))
    (hfresh : Fresh (acceptedOf r s.world.log) counter.toNat)
    (hk : deriveKey C secret kdfInfo aesKeySize = .ok key)
    (hopen : C.aeadOpen key (Wire.nonce12 0 counter.toNat) ciphertext = some message) :
    (serveOne timeout ans host s).world.log.drop s.world.log.length =
        [.accepted r counter, .invoked r counter host id.val message (ans (s.pos + 5)).handle] ++
          replyEvents r key counter true (ans (s.pos + 5)).handle ∧
      ∀ written, (ans (s.pos + 5)).handle = .reply written →
        ∃ n e, (serveOne timeout ans host s).conn.writes[s.conn.writes.length]? =
          some (Wire.processResponse counter.toNat
            (C.aeadSeal key (Wire.nonce12 1 counter.toNat) written), n, e) := by
  obtain ⟨evs, h1⟩ := serveOne_process hC timeout ans host s true id counter ciphertext rest hl h
  have hc : (window.checkAndUpdate counter).1 = true :=
    (checkAndUpdate_spec window _ (hs.windows.1 r _ hh) counter).1.mpr hfresh
  obtain ⟨now, -, h2⟩ := run_process_known hC timeout ans host
    (parsedProcess true id counter ciphertext)
    { s with conn := { s.conn with input := evs } } r t secret key window ht hh hc hk
  rw [show (parsedProcess true id counter ciphertext).message = ciphertext from rfl,
    show (parsedProcess true id counter ciphertext).counter = counter from rfl, hopen] at h2
  rw [h1, h2]
  obtain ⟨h3, h4⟩ := run_runHandler timeout ans r host (parsedProcess true id counter ciphertext)
    key message ⟨{ s.conn with input := evs },
      s.world.acceptedBy (sessionKey C host id) r now secret window counter, s.pos + 5⟩
  refine ⟨?_, fun written hw => ?_⟩
  · refine (congrArg (List.drop _) h3.log).trans ?_
    simp [World.logged, World.acceptedBy, callEvents, parsedProcess]
  · obtain ⟨n, e, ws, h5⟩ := h4 written hw rfl
    refine ⟨n, e, ?_⟩
    refine (congrArg (fun ws => ws[s.conn.writes.length]?) h5).trans ?_
    simp [parsedProcess]

/-- What the server answered when the handler replied `written`. -/
theorem answered_with (hC : C.Lawful) (timeout : Nat) (ans : Nat → Answer C) (host : Bytes)
    (server : Seq) (hs : Reachable C server.world) (id : ID) (counter : BitVec 64) (message written : Bytes)
    (rest : List (Byte ⊕ Err)) (hl : message.length + 16 ≤ 2 ^ 30) (r : Ref) (t : Nat) (secret key : Bytes)
    (window : ReplayWindow) (response : Bytes) (m : Nat) (e : Option Err)
    (hk : deriveKey C secret kdfInfo aesKeySize = .ok key)
    (ht : server.world.table (sessionKey C host id) = some (r, t))
    (hh : server.world.heap[r]? = some (secret, window))
    (h : Delivers server.conn.input (Wire.processRequest true id.val counter.toNat
      (C.aeadSeal key (Wire.nonce12 0 counter.toNat) message)) rest)
    (hfresh : Fresh (acceptedOf r server.world.log) counter.toNat)
    (hin : .invoked r counter host id.val message (.reply written) ∈
      (serveOne timeout ans host server).world.log.drop server.world.log.length)
    (hresp : (serveOne timeout ans host server).conn.writes[server.conn.writes.length]? = some (response, m, e)) :
    response = Wire.processResponse counter.toNat (C.aeadSeal key (Wire.nonce12 1 counter.toNat) written) := by
  obtain ⟨h1, h2⟩ := delivered_answer hC timeout ans host server hs id counter _ rest
    (by rw [hC.seal_length]; omega) h r t secret key message window ht hh hfresh hk (hC.open_seal _ _ _)
  rw [h1] at hin
  have hw : (ans (server.pos + 5)).handle = .reply written := by
    rcases List.mem_append.mp hin with hin | hin
    · simp at hin
      exact hin.symm
    · revert hin
      cases (ans (server.pos + 5)).handle <;> simp [replyEvents]
  obtain ⟨n, e', h3⟩ := h2 written hw
  rw [hresp] at h3
  exact (Prod.mk.inj (Option.some.inj h3)).1

/-- **C173**, what holds of replies: the claim for every reply of at most 2^30 - 16 octets. -/
theorem C173_short_reply_partial (hC : C.Lawful) (timeout : Nat) (ans : Nat → Answer C) (host : Bytes) (env : CEnv C)
    (c c' : Client) (s s' : CConn × CShared) (message written bs : Bytes) (size : Nat) (err : Option Err)
    (session : ClientSession) (key : Bytes) (server : Seq) (r : Ref) (t : Nat) (window : ReplayWindow)
    (rest more : List (Byte ⊕ Err)) (response : Bytes) (m : Nat) (e : Option Err)
    (hr : Reachable C server.world) (hm : message.length + 16 ≤ 2 ^ 30)
    (hl : written.length + 16 ≤ 2 ^ 30) (hne : written ≠ [])
    (hs : c.session = some session) (hk : deriveKey C session.secret kdfInfo aesKeySize = .ok key)
    (ht : server.world.table (sessionKey C host session.id) = some (r, t))
    (hh : server.world.heap[r]? = some (session.secret, window))
    (h : Delivers server.conn.input (Wire.processRequest true session.id.val c.lastSentCounter.toNat
      (C.aeadSeal key (Wire.nonce12 0 c.lastSentCounter.toNat) message)) rest)
    (hf : Fresh (acceptedOf r server.world.log) c.lastSentCounter.toNat)
    (hin : .invoked r c.lastSentCounter host session.id.val message (.reply written) ∈
      (serveOne timeout ans host server).world.log.drop server.world.log.length)
    (hresp : (serveOne timeout ans host server).conn.writes[server.conn.writes.length]? = some (response, m, e))
    (hstream : s.1.net.stream = response.map Sum.inl ++ more) (hb : c.buffer = []) (hd : env.readDeadline = none)
    (hread : runClient env (c.read size) s = (.val ((bs, err), c'), s')) :
    bs = written.take size := by
  rw [answered_with hC timeout ans host server hr session.id c.lastSentCounter message written rest hm r t _ key window
    response m e hk ht hh h hf hin hresp] at hstream
  obtain ⟨net, -, h2⟩ := read_accepts (n := size) (s := s.1) (w := s.2) hC hd hb hs hk
    (by rw [hC.seal_length]; omega) hstream (hC.open_seal _ _ _)
  have h3 := congrArg Prod.fst (h2.symm.trans hread)
  have h4 := congrArg (fun x => x.1.1) (Res.val.inj h3)
  rw [← show _ = bs from h4, readBuffer, if_neg (fun h => hne h.1)]

/-- **C173**, what happens to every longer reply: `Read` fails and returns nothing, with any buffer; the
ciphertext is left on the connection, where the next response is expected. -/
theorem C173_long_reply_partial (hC : C.Lawful) (timeout : Nat) (ans : Nat → Answer C) (host : Bytes) (env : CEnv C)
    (c : Client) (s : CConn × CShared) (message written : Bytes) (size : Nat)
    (session : ClientSession) (key : Bytes) (server : Seq) (r : Ref) (t : Nat) (window : ReplayWindow)
    (rest more : List (Byte ⊕ Err)) (response : Bytes) (m : Nat) (e : Option Err)
    (hr : Reachable C server.world) (hm : message.length + 16 ≤ 2 ^ 30)
    (hl : 2 ^ 30 < written.length + 16) (hl2 : written.length < 2 ^ 63)
    (hk : deriveKey C session.secret kdfInfo aesKeySize = .ok key)
    (ht : server.world.table (sessionKey C host session.id) = some (r, t))
    (hh : server.world.heap[r]? = some (session.secret, window))
    (h : Delivers server.conn.input (Wire.processRequest true session.id.val c.lastSentCounter.toNat
      (C.aeadSeal key (Wire.nonce12 0 c.lastSentCounter.toNat) message)) rest)
    (hf : Fresh (acceptedOf r server.world.log) c.lastSentCounter.toNat)
    (hin : .invoked r c.lastSentCounter host session.id.val message (.reply written) ∈
      (serveOne timeout ans host server).world.log.drop server.world.log.length)
    (hresp : (serveOne timeout ans host server).conn.writes[server.conn.writes.length]? = some (response, m, e))
    (hstream : s.1.net.stream = response.map Sum.inl ++ more) (hb : c.buffer = []) (hd : env.readDeadline = none) :
    ∃ ct s', response = Wire.processResponse c.lastSentCounter.toNat ct ∧
      s'.1.net.stream = ct.map Sum.inl ++ more ∧ runClient env (c.read size) s =
      (.val (([], some (.wrap "failed to parse success response" (.other "message size exceeds maximum"))), c),
        s') := by
  have hresp := answered_with hC timeout ans host server hr session.id c.lastSentCounter message written rest hm r t _ key
    window response m e hk ht hh h hf hin hresp
  rw [hresp] at hstream
  obtain ⟨s', h1, h2⟩ := read_oversize (n := size) hd hb (by rw [hC.seal_length]; omega)
    (by rw [hC.seal_length]; omega) hstream
  exact ⟨_, s', hresp, h1, h2⟩

end

namespace TooLongExample

/-- A message, or a reply, of 1 GiB. -/
def long : Bytes := List.replicate (2 ^ 30) 0

theorem long_length : long.length = 2 ^ 30 := List.length_replicate

/-- The server that receives these octets. -/
def receives (bs : Bytes) : Seq := SessionExample.start CutWriteExample.world bs

/-- A handler that replies with 1 GiB. -/
def env : Nat → Answer Toy.crypto := fun n => { SessionExample.env n with handle := .reply long }

end TooLongExample

/-- **C173 is refuted**: the first message of a client, of 1 GiB, is sent with success, and no handler is called. -/
theorem C173_refuted : ¬ C173_claim := by
  intro h
  obtain ⟨c, s, hu, hP⟩ := ClientExample.used_dial (env := HandshakeExample.env) (udp := false)
    (P := CutWriteExample.linked)
    (s := HandshakeExample.start (.tcp [.data (HandshakeExample.answer 4)])) (calls := []) (by decide +kernel)
  rw [CutWriteExample.linked] at hP
  split at hP
  · rename_i session hs
    simp only [Bool.and_eq_true, beq_iff_eq] at hP
    obtain ⟨⟨hsec, hcnt⟩, hid⟩ := hP
    have hid : session.id = uuidOf ⟨List.replicate 16 1, rfl⟩ := Subtype.ext hid
    have hcnt : s.2.counters.getD session.sendCounter 0 = 0 := by
      rw [List.getD_eq_getElem?_getD, hcnt]; rfl
    obtain ⟨c', s', hw, hl, -⟩ := C173_long_partial Toy.lawful 5000 SessionExample.env (str "10.0.0.1")
      HandshakeExample.env c s TooLongExample.long session (TooLongExample.receives []) []
      (by rw [TooLongExample.long_length]; decide) (by rw [TooLongExample.long_length]; decide) hs rfl rfl
      (by rw [hcnt]; decide)
    obtain ⟨c₁, s₁, hw₁, -, hrefused⟩ := C173_long_partial Toy.lawful 5000 SessionExample.env (str "10.0.0.1")
      HandshakeExample.env c s TooLongExample.long session
      (TooLongExample.receives (taken (s'.1.writes.drop s.1.writes.length))) []
      (by rw [TooLongExample.long_length]; decide) (by rw [TooLongExample.long_length]; decide) hs rfl rfl
      (by rw [hcnt]; decide)
    have hss : s₁ = s' := congrArg Prod.snd (hw₁.symm.trans hw)
    subst hss
    have hin : Delivers (TooLongExample.receives (taken (s₁.1.writes.drop s.1.writes.length))).conn.input
        (taken (s₁.1.writes.drop s.1.writes.length)) [] := by
      simp [Delivers, TooLongExample.receives, SessionExample.start, flatten]
    rw [hcnt] at hl
    obtain ⟨result, hm⟩ := h Toy.crypto 5000 SessionExample.env (str "10.0.0.1") HandshakeExample.env c c' s s₁
      TooLongExample.long _ session _ 0 2 .fresh [] Toy.lawful hu CutWriteExample.reachable
      (by rw [TooLongExample.long_length]; decide) hs
      (by rw [hid, TooLongExample.receives, SessionExample.start_world]; decide +kernel)
      (by rw [hsec, TooLongExample.receives, SessionExample.start_world]; decide +kernel) rfl hw
      (by rw [hl, TooLongExample.receives, SessionExample.start_world]; decide +kernel) hin
    rw [(hrefused hin).2, TooLongExample.receives, SessionExample.start_world] at hm
    refine absurd hm (not_handled ?_)
    decide +kernel
  · cases hP

/-- **C173 is refuted** also for replies: the handler answers the client's "ping" with 1 GiB, and the client's
`Read` returns nothing. -/
theorem C173_reply_refuted : ¬ C173_reply_claim := by
  intro h
  obtain ⟨c, s, hu, hP⟩ := ClientExample.used_dial (env := HandshakeExample.env) (udp := false)
    (P := fun c _ => c.buffer.isEmpty && (c.lastSentCounter == 1) && (c.session.map (·.secret) == some (beEnc 32 14)) &&
      (c.session.map (·.id.val) == some (uuidOf ⟨List.replicate 16 1, rfl⟩).val))
    (s := HandshakeExample.start (.tcp [.data (HandshakeExample.answer 4)])) (calls := [.write (str "ping")])
    (by decide +kernel)
  simp only [Bool.and_eq_true, beq_iff_eq, List.isEmpty_iff, Option.map_eq_some_iff] at hP
  obtain ⟨⟨⟨hb, hcnt⟩, session, hs, hsec⟩, session', hs', hid⟩ := hP
  rw [hs] at hs'
  cases hs'
  have hid : session.id = uuidOf ⟨List.replicate 16 1, rfl⟩ := Subtype.ext hid
  have hk : deriveKey Toy.crypto session.secret kdfInfo aesKeySize = .ok OnceExample.key := by
    rw [hsec]; exact SessionExample.key_ok
  let server := TooLongExample.receives (Wire.processRequest true session.id.val c.lastSentCounter.toNat
    (Toy.crypto.aeadSeal OnceExample.key (Wire.nonce12 0 c.lastSentCounter.toNat) (str "ping")))
  have hworld : server.world = CutWriteExample.world := rfl
  have hin : Delivers server.conn.input (Wire.processRequest true session.id.val c.lastSentCounter.toNat
    (Toy.crypto.aeadSeal OnceExample.key (Wire.nonce12 0 c.lastSentCounter.toNat) (str "ping"))) [] := by
    simp [Delivers, server, TooLongExample.receives, SessionExample.start, flatten]
  have ht : server.world.table (sessionKey Toy.crypto (str "10.0.0.1") session.id) = some (0, 2) := by
    rw [hid, hworld]; decide +kernel
  have hh : server.world.heap[0]? = some (session.secret, .fresh) := by
    rw [hsec, hworld]; decide +kernel
  have hf : Fresh (acceptedOf 0 server.world.log) c.lastSentCounter.toNat := by
    rw [hcnt, hworld]; decide +kernel
  obtain ⟨h1, h2⟩ := delivered_answer Toy.lawful 5000 TooLongExample.env (str "10.0.0.1") server
    CutWriteExample.reachable session.id c.lastSentCounter _ [] (by rw [Toy.lawful.seal_length]; decide +kernel) hin
    0 2 session.secret OnceExample.key (str "ping") .fresh ht hh hf hk (Toy.lawful.open_seal _ _ _)
  obtain ⟨n, e, hresp⟩ := h2 TooLongExample.long rfl
  have hinv : .invoked 0 c.lastSentCounter (str "10.0.0.1") session.id.val (str "ping") (.reply TooLongExample.long) ∈
      (serveOne 5000 TooLongExample.env (str "10.0.0.1") server).world.log.drop server.world.log.length := by
    rw [h1]
    exact List.mem_append_left _ (List.mem_cons_of_mem _ List.mem_cons_self)
  have hstream : (Transport.tcp [.data (Wire.processResponse c.lastSentCounter.toNat (Toy.crypto.aeadSeal OnceExample.key
      (Wire.nonce12 1 c.lastSentCounter.toNat) TooLongExample.long))]).stream =
      (Wire.processResponse c.lastSentCounter.toNat (Toy.crypto.aeadSeal OnceExample.key
        (Wire.nonce12 1 c.lastSentCounter.toNat) TooLongExample.long)).map Sum.inl ++ [] := by
    simp [Transport.stream, flatten]
  obtain ⟨ct, s', -, -, hread⟩ := C173_long_reply_partial Toy.lawful 5000 TooLongExample.env (str "10.0.0.1")
    HandshakeExample.env c ({ s.1 with net := .tcp [.data _] }, s.2) (str "ping") TooLongExample.long 10 session
    OnceExample.key server 0 2 .fresh [] [] _ n e CutWriteExample.reachable (by decide +kernel)
    (by rw [TooLongExample.long_length]; decide) (by rw [TooLongExample.long_length]; decide) hk ht hh hin hf hinv
    hresp hstream hb rfl
  have := h Toy.crypto 5000 TooLongExample.env (str "10.0.0.1") HandshakeExample.env c c s s' _ (str "ping")
    TooLongExample.long [] 10 _ session OnceExample.key server 0 2 .fresh [] [] _ n e Toy.lawful hu
    CutWriteExample.reachable (by decide +kernel) (by rw [TooLongExample.long_length]; decide)
    (fun h => by have := congrArg List.length h; rw [TooLongExample.long_length] at this; cases this)
    hs hk ht hh hin hf hinv hresp hstream hb rfl (by decide) hread
  have := congrArg List.length this
  rw [List.length_take, TooLongExample.long_length] at this
  revert this
  decide

/-- The hypotheses can be met: of a short message and a short reply, both are delivered. -/
example : ClientExample.afterDial HandshakeExample.env (fun c s => CutWriteExample.linked c s &&
    match runClient HandshakeExample.env (c.write (str "ping")) s with
    | (.val ((54, none), c'), s') =>
      let once := CutWriteExample.once (CutWriteExample.receives s s')
      (handledFor 0 once.world.log).map (·.1) == [str "ping"] &&
      match once.conn.writes, runClient HandshakeExample.env (c'.read 10)
        ({ s'.1 with net := .tcp [.data once.conn.output] }, s'.2) with
      | [_], (.val ((bs, some .eof), _), _) => bs == str "pong"
      | _, _ => false
    | _ => false)
    (HandshakeExample.start (.tcp [.data (HandshakeExample.answer 4)])) [] = true := by decide +kernel

end Goe2ee
