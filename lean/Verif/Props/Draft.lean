import Verif.Props.Replay
import Verif.Props.Session
import Verif.Proofs.Persist

/-!
# C79, C80, C81: the server against the Internet-Draft (docs/draft-justo-goe2ee-latest.md)
-/

set_option autoImplicit false

namespace Goe2ee

variable {C : Crypto}

/-! ## C79 -/

/-- The claim: a process request is refused with the error codes of the draft (lines 529-533): 3 for an
unknown identifier, 5 for a replay, 1 if it does not decrypt. -/
def C79_claim : Prop :=
  ∀ (C : Crypto) (timeout : Nat) (ans : Nat → Answer C) (host : Bytes) (s : Seq) (expectReply : Bool)
    (id : ID) (counter : BitVec 64) (ciphertext : Bytes) (rest : List (Byte ⊕ Err)),
    C.Lawful → Reachable C s.world → ciphertext.length ≤ 2 ^ 30 →
    Delivers s.conn.input (Wire.processRequest expectReply id.val counter.toNat ciphertext) rest →
    (s.world.table (sessionKey C host id) = none → RefusedWith s (serveOne timeout ans host s) 3) ∧
    ∀ r t secret window, s.world.table (sessionKey C host id) = some (r, t) →
      s.world.heap[r]? = some (secret, window) →
      (¬ Fresh (acceptedOf r s.world.log) counter.toNat →
        RefusedWith s (serveOne timeout ans host s) 5) ∧
      ∀ key, deriveKey C secret kdfInfo aesKeySize = .ok key →
        Fresh (acceptedOf r s.world.log) counter.toNat →
        C.aeadOpen key (Wire.nonce12 0 counter.toNat) ciphertext = none →
        RefusedWith s (serveOne timeout ans host s) 1

theorem errorResponse_inj {a b : Nat} {t u : Bytes} (h : Wire.errorResponse a t = Wire.errorResponse b u)
    (ha : a < 2 ^ 32) (hb : b < 2 ^ 32) : a = b := by
  have h1 : ([0x00#8] ++ Wire.be32 a) = ([0x00#8] ++ Wire.be32 b) := by
    have := congrArg (fun l => l.take 5) h
    simpa [Wire.errorResponse, Wire.be32] using this
  have h2 : Wire.be32 a = Wire.be32 b := by simpa using h1
  rw [← beEnc_four, ← beEnc_four] at h2
  have h3 := congrArg beDec h2
  rw [beDec_beEnc, beDec_beEnc, Nat.mod_eq_of_lt (by omega), Nat.mod_eq_of_lt (by omega)] at h3
  exact h3

/-- **C79** is false of the code: a request that does not decrypt is answered with a server error
(code 2), not with code 1. -/
theorem C79_refuted : ¬ C79_claim := by
  intro h
  obtain ⟨text, n, e, hw⟩ := ((h Toy.crypto 5000 SessionExample.env (str "10.0.0.1")
    (SessionExample.start SessionExample.world SessionExample.forgery) true OnceExample.id (-1) [1, 2, 3] []
    Toy.lawful SessionExample.reachable (by decide +kernel)
    (by unfold Delivers SessionExample.start; decide +kernel)).2 0 2 (beEnc 32 14) .fresh
    (by decide +kernel) (by decide +kernel)).2 OnceExample.key SessionExample.key_ok (by decide +kernel)
    (by decide +kernel)
  have h2 : (serveOne 5000 SessionExample.env (str "10.0.0.1")
      (SessionExample.start SessionExample.world SessionExample.forgery)).conn.writes =
      [(Wire.errorResponse 2 (str "failed to decrypt message"),
        (Wire.errorResponse 2 (str "failed to decrypt message")).length, none)] := by decide +kernel
  rw [h2] at hw
  have h3 : Wire.errorResponse 2 (str "failed to decrypt message") = Wire.errorResponse 1 text := by
    have := List.singleton_inj.mp (hw.trans (List.nil_append _))
    exact congrArg Prod.fst this
  exact absurd (errorResponse_inj h3 (by decide) (by decide)) (by decide)

theorem errorBytes_wire (code : ErrorCode) (text : String) :
    errorBytes code text = Wire.errorResponse code.toNat (str text) := by
  simp [errorBytes, ErrorResponse.bytes, newErrorResponse, ResponseCommon.bytes, Wire.errorResponse,
    beEnc_eight, beEnc_four]

theorem failWith_refuses (code : ErrorCode) (text : String) (timeout : Nat) (ans : Nat → Answer C)
    (s s₁ : Seq) (hs : s₁.conn.writes = s.conn.writes) :
    RefusedWith s ((failWith code text).run (seqI C timeout ans) s₁).2 code.toNat := by
  obtain ⟨n, e, hw⟩ := run_failWith_writes code text timeout ans s₁
  exact ⟨str text, n, e, by rw [hw, hs, errorBytes_wire]⟩

/-- **C79** as far as it is true of the code: an unknown identifier is refused with code 3 and a replay
with code 5, with or without the expect-reply flag.  A request that does not decrypt is refused, with
code 2.  Missing: code 1 for the latter (`C79_refuted`). -/
theorem C79_process_partial (hC : C.Lawful) (timeout : Nat) (ans : Nat → Answer C) (host : Bytes)
    (s : Seq) (hs : Reachable C s.world) (expectReply : Bool) (id : ID) (counter : BitVec 64)
    (ciphertext : Bytes) (rest : List (Byte ⊕ Err)) (hl : ciphertext.length ≤ 2 ^ 30)
    (h : Delivers s.conn.input (Wire.processRequest expectReply id.val counter.toNat ciphertext) rest) :
    (s.world.table (sessionKey C host id) = none → RefusedWith s (serveOne timeout ans host s) 3) ∧
    ∀ r t secret window, s.world.table (sessionKey C host id) = some (r, t) →
      s.world.heap[r]? = some (secret, window) →
      (¬ Fresh (acceptedOf r s.world.log) counter.toNat →
        RefusedWith s (serveOne timeout ans host s) 5) ∧
      ∀ key, deriveKey C secret kdfInfo aesKeySize = .ok key →
        Fresh (acceptedOf r s.world.log) counter.toNat →
        C.aeadOpen key (Wire.nonce12 0 counter.toNat) ciphertext = none →
        RefusedWith s (serveOne timeout ans host s) 2 := by
  obtain ⟨evs, h1⟩ := serveOne_process hC timeout ans host s expectReply id counter ciphertext rest hl h
  constructor
  · intro ht
    rw [h1, run_process_unknown timeout ans host (parsedProcess expectReply id counter ciphertext)
      { s with conn := { s.conn with input := evs } } ht]
    exact failWith_refuses codeUnknownClient _ timeout ans s _ rfl
  · intro r t secret window ht hh
    have hspec := checkAndUpdate_spec window _ (hs.windows.1 r _ hh) counter
    constructor
    · intro hf
      have hc : (window.checkAndUpdate counter).1 = false := by
        rcases hb : (window.checkAndUpdate counter).1 with _ | _
        · rfl
        · exact absurd (hspec.1.mp hb) hf
      obtain ⟨now, pos, h2⟩ := run_process_replay timeout ans host
        (parsedProcess expectReply id counter ciphertext)
        { s with conn := { s.conn with input := evs } } r t secret window ht hh hc
      rw [h1, h2]
      exact failWith_refuses codeReplayDetected _ timeout ans s _ rfl
    · intro key hk hf hopen
      obtain ⟨now, -, h2⟩ := run_process_known hC timeout ans host
        (parsedProcess expectReply id counter ciphertext)
        { s with conn := { s.conn with input := evs } } r t secret key window ht hh (hspec.1.mpr hf) hk
      rw [show (parsedProcess expectReply id counter ciphertext).message = ciphertext from rfl,
        show (parsedProcess expectReply id counter ciphertext).counter = counter from rfl, hopen] at h2
      rw [h1, h2]
      exact failWith_refuses codeServerError _ timeout ans s _ rfl

/-- A request whose body cannot be parsed. -/
theorem malformed_refused (M : Manager C) (timeout : Nat) (ans : Nat → Answer C) (host : Except Err Bytes)
    (s : Seq) (header : Byte) (common : RequestCommon) (tail rest : List (Byte ⊕ Err)) (e : Err)
    {α : Type} (parse : RProg (Except Err α)) (go : α → SProg C (Option Err))
    (hcommon : runI parseRequestCommon (.inl header :: tail) = (.val (.ok common), tail))
    (hversion : common.version = version1)
    (hhandle : handle M host common = (onConn parse).bind fun parsed => match parsed with
      | .error _ => failWith codeMalformedRequest "failed to parse data of the request"
      | .ok request => go request)
    (h : flatten s.conn.input = .inl header :: tail)
    (hbad : runI parse tail = (.val (.error e), rest)) :
    RefusedWith s ((serveRequest M host).run (seqI C timeout ans) s).2 1 := by
  obtain ⟨evs1, h1, h2⟩ := run_onConn_of_runI (C := C) timeout ans (s := s) (rest := tail)
    (p := parseRequestCommon) (by rw [h]; exact hcommon)
  obtain ⟨evs2, h3, h4⟩ := run_onConn_of_runI (C := C) timeout ans
    (s := { s with conn := { s.conn with input := evs1 } }) (rest := rest)
    (p := parse) (by rw [← hbad]; exact congrArg _ h1)
  have hrun : (serveRequest M host).run (seqI C timeout ans) s =
      ((failWith codeMalformedRequest "failed to parse data of the request").bind goOn).run
        (seqI C timeout ans) { s with conn := { s.conn with input := evs2 } } := by
    rw [serveRequest_eq, Prog.run_bind, h2]
    dsimp only
    rw [if_neg (fun h => h hversion), hhandle, Prog.bind_assoc, Prog.run_bind, h4]
  rw [hrun, Prog.run_bind]
  have := failWith_refuses codeMalformedRequest "failed to parse data of the request" timeout ans s
    { s with conn := { s.conn with input := evs2 } } rfl
  split
  · rename_i err s' hr
    rw [hr] at this
    cases err <;> exact this
  · rename_i hr
    rw [hr] at this
    exact this

/-- **C79**: a process request that declares more than 1 GiB is refused as malformed, with code 1 (draft
lines 299 and 733-736). -/
theorem C79_oversize_process_partial (timeout : Nat) (ans : Nat → Answer C) (host : Bytes) (s : Seq)
    (flags : Byte) (id : ID) (counter size : Nat) (hs : 1073741824 < size) (hs2 : size < 2 ^ 64)
    (rest : List (Byte ⊕ Err))
    (h : Delivers s.conn.input ([0x13, flags] ++ id.val ++ Wire.be64 counter ++ Wire.be64 size) rest) :
    RefusedWith s (serveOne timeout ans host s) 1 := by
  have hb : flatten s.conn.input = .inl 0x13 :: (.inl flags :: (id.val.map Sum.inl ++
      ((beEnc 8 counter).map Sum.inl ++ ((beEnc 8 size).map Sum.inl ++ rest)))) := by
    rw [h, beEnc_eight, beEnc_eight]; simp
  have hm : (BitVec.ofNat 64 (beDec (beEnc 8 size))).toNat = size := by
    rw [beDec_beEnc, Nat.mod_eq_of_lt (by omega), BitVec.toNat_ofNat, Nat.mod_eq_of_lt hs2]
  refine malformed_refused (inMemory C) timeout ans (.ok host) s 0x13 { version := 1, action := 3 } _ rest
    (.other "message size exceeds maximum") (parseProcessRequest { version := 1, action := 3 })
    (processParsed (inMemory C) (.ok host)) (runI_parseRequestCommon 0x13 _) rfl
    (by
      rw [handle, if_neg (by decide), if_neg (by decide), if_pos (by decide)]
      exact (processHandler_eq _ _ _).trans (congrArg _ (funext fun p => by cases p <;> rfl))) hb ?_
  rw [parseProcessRequest, runI_readOctet, runI_readField _ _ _ _ _ id.property,
    runI_readField _ _ _ _ _ (beEnc_length _ _), runI_readField _ _ _ _ _ (beEnc_length _ _)]
  simp only [hm, maxMessageSize]
  rw [if_pos (by omega)]
  rfl

/-- **C79**: a setup request that declares a key of more than 64 KiB is refused as malformed. -/
theorem C79_oversize_setup_partial (timeout : Nat) (ans : Nat → Answer C) (host : Bytes) (s : Seq)
    (id : ID) (size : Nat) (hs : 65536 < size) (hs2 : size < 2 ^ 32) (rest : List (Byte ⊕ Err))
    (h : Delivers s.conn.input ([0x12] ++ id.val ++ Wire.be32 size) rest) :
    RefusedWith s (serveOne timeout ans host s) 1 := by
  have hb : flatten s.conn.input = .inl 0x12 :: (id.val.map Sum.inl ++
      ((beEnc 4 size).map Sum.inl ++ rest)) := by
    rw [h, beEnc_four]; simp
  have hm : (BitVec.ofNat 32 (beDec (beEnc 4 size))).toNat = size := by
    rw [beDec_beEnc, Nat.mod_eq_of_lt (by omega), BitVec.toNat_ofNat, Nat.mod_eq_of_lt hs2]
  refine malformed_refused (inMemory C) timeout ans (.ok host) s 0x12 { version := 1, action := 2 } _ rest
    (.other "public key size exceeds maximum") (parseSetupRequest C { version := 1, action := 2 })
    (setupParsed (inMemory C) (.ok host)) (runI_parseRequestCommon 0x12 _) rfl
    (by
      rw [handle, if_neg (by decide), if_pos (by decide)]
      exact (setupHandler_eq _ _ _).trans (congrArg _ (funext fun p => by cases p <;> rfl))) hb ?_
  rw [parseSetupRequest, runI_readField _ _ _ _ _ id.property,
    runI_readField _ _ _ _ _ (beEnc_length _ _)]
  simp only [hm, maxKeySize]
  rw [if_pos (by omega)]
  rfl

/-- The client's first message, sent twice, is served and then refused with code 5. -/
example :
    let s := SessionExample.start SessionExample.world SessionExample.genuine
    let s' := SessionExample.start (serveOne 5000 SessionExample.env (str "10.0.0.1") s).world
      SessionExample.genuine
    ¬ Fresh (acceptedOf 0 s'.world.log) 1 ∧
    (serveOne 5000 SessionExample.env (str "10.0.0.1") s').conn.output =
      Wire.errorResponse 5 (str "message counter was already seen or is too old") := by decide +kernel

/-- A request that declares 2 GiB. -/
example : (serveOne 5000 SessionExample.env (str "10.0.0.1") (SessionExample.start SessionExample.world
    ([0x13, 0x80] ++ OnceExample.id.val ++ Wire.be64 1 ++ Wire.be64 (2 ^ 31)))).conn.output =
    Wire.errorResponse 1 (str "failed to parse data of the request") := by decide +kernel

/-! ## C80 -/

/-- The claim: the replay filter is the one of the draft. -/
def C80_claim : Prop :=
  ∀ cs : List (BitVec 64), filterAnswers .fresh cs = draftAnswers [] (cs.map BitVec.toNat)

/-- **C80** is false of the code: a message exactly 64 behind the highest is refused; the window covers
the highest counter and only the 63 below it. -/
theorem C80_refuted : ¬ C80_claim := by
  intro h
  exact absurd (h [65, 1]) (by decide)

theorem filterAnswers_next (cs : List (BitVec 64)) (c : BitVec 64) (w : ReplayWindow) (acc : List Nat)
    (h : Represents w acc) :
    filterAnswers w (cs ++ [c]) = filterAnswers w cs ++
      [decide (Fresh (acceptedBy (cs.map BitVec.toNat) (filterAnswers w cs) ++ acc) c.toNat)] := by
  induction cs generalizing w acc with
  | nil =>
    obtain ⟨h1, -, -⟩ := checkAndUpdate_spec w acc h c
    simp only [List.nil_append, filterAnswers, acceptedBy, List.map_nil]
    congr 1
    rcases hb : (w.checkAndUpdate c).1 with _ | _
    · exact (decide_eq_false fun hf => by rw [h1.mpr hf] at hb; cases hb).symm
    · exact (decide_eq_true (h1.mp hb)).symm
  | cons d cs ih =>
    obtain ⟨h1, h2, h3⟩ := checkAndUpdate_spec w acc h d
    simp only [List.cons_append, filterAnswers, List.map_cons, acceptedBy]
    rcases hb : (w.checkAndUpdate d).1 with _ | _
    · rw [h3 hb, ih w acc h]
      simp
    · rw [ih _ _ (h2 hb)]
      simp

/-- **C80** as far as it is true of the code: after any sequence of counters, the filter accepts only
counters that the draft accepts, and it accepts all of those that are not exactly 64 behind the
highest accepted one.  Missing: that one counter (`C80_refuted`). -/
theorem C80_window_partial (cs : List (BitVec 64)) (c : BitVec 64) :
    ∃ answer, filterAnswers .fresh (cs ++ [c]) = filterAnswers .fresh cs ++ [answer] ∧
      (answer = true →
        DraftFresh (acceptedBy (cs.map BitVec.toNat) (filterAnswers .fresh cs)) c.toNat) ∧
      (DraftFresh (acceptedBy (cs.map BitVec.toNat) (filterAnswers .fresh cs)) c.toNat →
        largest (acceptedBy (cs.map BitVec.toNat) (filterAnswers .fresh cs)) ≠ c.toNat + 64 →
        answer = true) := by
  refine ⟨_, filterAnswers_next cs c .fresh [] represents_fresh, ?_, ?_⟩
  · intro ha
    obtain ⟨h1, h2, h3⟩ := of_decide_eq_true ha
    rw [List.append_nil] at h2 h3
    exact ⟨h1, h2, by omega⟩
  · rintro ⟨h1, h2, h3⟩ hne
    refine decide_eq_true ⟨h1, ?_, ?_⟩
    · rw [List.append_nil]; exact h2
    · rw [List.append_nil]; omega

example : filterAnswers .fresh [65, 2, 1] = [true, true, false] ∧
    draftAnswers [] [65, 2, 1] = [true, true, true] := by decide

/-! ## C81 -/

/-- **C81.** Take a moment when no request is in progress and a session is stored for (host, id).  After
any further traffic on any connections — new ones, old ones, closed ones — in which no new session was
set up for (host, id), and while the TTL (if there is one) has not passed since the session was last
used before that moment, the same session is stored for (host, id), with the same secret. -/
theorem C81_session_stays (timeout ttl closers : Nat) (acts₀ acts : List (Nat × Answer C))
    (s₀ s : Sys C) (hs₀ : s₀ = Sys.run (inMemory C) timeout (Sys.start ttl closers) acts₀)
    (hs : s = Sys.run (inMemory C) timeout s₀ acts) (host : Bytes) (id : ID) (r : Ref) (t₀ : Nat)
    (hidle : ∀ t ∈ s₀.threads, t.idle)
    (ht : s₀.world.table (sessionKey C host id) = some (r, t₀))
    (hnew : ∀ r' host' id', .established r' host' id' ∈ s.world.log →
      .established r' host' id' ∉ s₀.world.log → C.sha256 (host' ++ id') ≠ C.sha256 (host ++ id.val))
    (httl : 0 < ttl → s.world.now ≤ t₀ + ttl) :
    ∃ t secret window window', s.world.table (sessionKey C host id) = some (r, t) ∧ t₀ ≤ t ∧
      s₀.world.heap[r]? = some (secret, window) ∧ s.world.heap[r]? = some (secret, window') := by
  have htame : ∀ t ∈ s₀.threads, t.tame ttl := by
    rw [hs₀]
    exact tame_run timeout ttl acts₀ _ fun t hm => (keep_start ttl closers t hm).1
  obtain ⟨gs, hf⟩ := file_run (C := C) timeout ttl closers acts₀
  rw [← hs₀] at hf
  obtain ⟨host', id', he, hk⟩ := hf.table _ r t₀ ht
  have hr := (hf.born r host' id' he).1
  have hnow : t₀ ≤ s₀.world.now := by
    rw [hs₀] at ht ⊢
    exact past_run timeout ttl closers acts₀ _ r t₀ ht
  have hsp : s₀.world.spawned = [] := by
    obtain ⟨gs', hh⟩ := (file_keeps (C := C) timeout).run acts₀ (fun _ _ => trivial) (Sys.start ttl closers)
      (List.replicate (Sys.start (C := C) ttl closers).threads.length []) (by
      refine ⟨by simp, ?_, ?_, rfl⟩
      · intro i t g ht hg
        exact file_start ttl closers g t (List.mem_of_getElem? ht)
      · refine ⟨?_, ?_, ?_, ?_, ?_⟩
        · intro k r t hk; simp [Sys.start] at hk
        · intro g hg x hx
          rw [(List.mem_replicate.mp hg).2] at hx; cases hx
        · intro r c host id m res hm; simp [Sys.start] at hm
        · intro r host id hm; simp [Sys.start] at hm
        · intro r host id host' id' hm; simp [Sys.start] at hm)
    rw [hs₀]
    exact hh.spawned
  obtain ⟨gs', hh⟩ := (stay_keeps (C := C) ttl (sessionKey C host id) r (s₀.world.heap[r]).1 t₀
    s₀.world.log timeout).run acts (fun _ _ => trivial) s₀
    (List.replicate s₀.threads.length ⟨[], [], []⟩) (by
    refine ⟨by simp, ?_, ?_, hsp⟩
    · intro i t g hti hg
      have hm := List.mem_of_getElem? hti
      obtain ⟨hl, hd⟩ := htame t hm
      rw [(List.mem_replicate.mp (List.mem_of_getElem? hg)).2]
      rcases hidle t hm with hp | ⟨host, hp⟩ | ⟨b, hp⟩
      · exact ThreadOK.always (by rw [hp]; exact hl) hl hd _
      · exact ThreadOK.always (by rw [hp]; exact keep_serveRequest ttl host) hl hd _
      · exact ThreadOK.always (by rw [hp]; exact fun _ => trivial) hl hd _
    · refine ⟨hnow, fun r host id hm => (hf.born r host id hm).1,
        ⟨(s₀.world.heap[r]).2, List.getElem?_eq_getElem hr⟩, fun _ _ => ⟨⟨t₀, ht, Nat.le_refl _⟩, ?_⟩⟩
      intro g hg
      rw [(List.mem_replicate.mp hg).2]
      exact ⟨(fun _ h => by cases h), (fun _ h => by cases h), (fun _ h => by cases h)⟩)
  rw [← hs] at hh
  obtain ⟨⟨t, h1, h2⟩, -⟩ := hh.world.stays (by
    intro r' host' id' hm hk'
    by_cases hold : .established r' host' id' ∈ s₀.world.log
    · exact hold
    · exact absurd (b64Encode_inj _ _ hk') (hnew r' host' id' hm hold)) httl
  obtain ⟨window', h3⟩ := hh.world.secret
  exact ⟨t, _, _, window', h1, h2, List.getElem?_eq_getElem hr, h3⟩

/-- **C81.** In that state a process message that decrypts under the session's key, arriving on a
connection from the same host — any connection, in particular one on which no setup request was ever
made — with a counter that is fresh, is handed to the application. -/
theorem C81_reuse (hC : C.Lawful) (timeout ttl closers : Nat) (acts₀ acts : List (Nat × Answer C))
    (s₀ s : Sys C) (hs₀ : s₀ = Sys.run (inMemory C) timeout (Sys.start ttl closers) acts₀)
    (hs : s = Sys.run (inMemory C) timeout s₀ acts) (host : Bytes) (id : ID) (r : Ref) (t₀ : Nat)
    (hidle : ∀ t ∈ s₀.threads, t.idle)
    (ht : s₀.world.table (sessionKey C host id) = some (r, t₀))
    (hnew : ∀ r' host' id', .established r' host' id' ∈ s.world.log →
      .established r' host' id' ∉ s₀.world.log → C.sha256 (host' ++ id') ≠ C.sha256 (host ++ id.val))
    (httl : 0 < ttl → s.world.now ≤ t₀ + ttl)
    (conn : Conn) (pos : Nat) (ans : Nat → Answer C) (expectReply : Bool) (counter : BitVec 64)
    (ciphertext : Bytes) (rest : List (Byte ⊕ Err)) (hl : ciphertext.length ≤ 2 ^ 30)
    (h : Delivers conn.input (Wire.processRequest expectReply id.val counter.toNat ciphertext) rest)
    (secret key message : Bytes) (window : ReplayWindow)
    (hh : s₀.world.heap[r]? = some (secret, window))
    (hfresh : Fresh (acceptedOf r s.world.log) counter.toNat)
    (hk : deriveKey C secret kdfInfo aesKeySize = .ok key)
    (hopen : C.aeadOpen key (Wire.nonce12 0 counter.toNat) ciphertext = some message) :
    ∃ result, .invoked r counter host id.val message result ∈
      (serveOne timeout ans host ⟨conn, s.world, pos⟩).world.log := by
  obtain ⟨t, secret', window', window'', h1, -, h2, h3⟩ := C81_session_stays timeout ttl closers acts₀
    acts s₀ s hs₀ hs host id r t₀ hidle ht hnew httl
  rw [hh] at h2
  cases h2
  have hreach : Reachable C s.world :=
    ⟨timeout, ttl, closers, acts₀ ++ acts, by rw [hs, hs₀, Sys.run, Sys.run, Sys.run, List.foldl_append]⟩
  obtain ⟨result, hlog, -⟩ := C19_fresh_messages_are_delivered hC timeout ans host ⟨conn, s.world, pos⟩
    hreach expectReply id counter ciphertext rest hl h r t secret key message window'' h1 h3 hfresh hk
    hopen
  exact ⟨result, by rw [hlog]; simp⟩

namespace ReuseExample
open OnceExample

/-- A client sets up a session on a connection and closes it. -/
def before : Sys Toy.crypto :=
  Sys.run (inMemory Toy.crypto) 5000 (Sys.start 100 0)
    (List.replicate 5 (0, answer (.ok (.tcp (.ok [49]) [.data setup]))) ++
      List.replicate 30 (3, answer (.error .eof)))

/-- A client of another host sets up a session too, and the collector visits. -/
def after : Sys Toy.crypto :=
  Sys.run (inMemory Toy.crypto) 5000 before
    (List.replicate 5 (0, answer (.ok (.tcp (.ok [50]) [.data setup]))) ++
      List.replicate 30 (4, answer (.error .eof)) ++
      List.replicate 4 (2, { answer (.error .eof) with key := sessionKey Toy.crypto [49] OnceExample.id }))

end ReuseExample

theorem ReuseExample.progs : ReuseExample.before.threads.map (fun t => t.prog) =
    [acceptPass, packetPass, gcVisit 100, .ret false] := rfl

theorem ReuseExample.loops : ReuseExample.before.threads.map (fun t => t.loop) =
    [acceptPass, packetPass, gcVisit 100, .ret false] := rfl

/-- The hypotheses of C81 hold, and a message that arrives on a third connection is answered. -/
example :
    (∀ t ∈ ReuseExample.before.threads, t.idle) ∧
    ReuseExample.before.world.table (sessionKey Toy.crypto [49] OnceExample.id) = some (0, 2) ∧
    (∀ r host id, .established r host id ∈ ReuseExample.after.world.log →
      .established r host id ∉ ReuseExample.before.world.log →
      Toy.crypto.sha256 (host ++ id) ≠ Toy.crypto.sha256 ([49] ++ OnceExample.id.val)) ∧
    ReuseExample.after.world.now ≤ 2 + 100 ∧
    (serveOne 5000 SessionExample.env [49]
      (SessionExample.start ReuseExample.after.world SessionExample.genuine)).conn.output =
      Wire.processResponse 1 (Toy.crypto.aeadSeal OnceExample.key (Wire.nonce12 1 1) (str "pong")) := by
  refine ⟨?_, by decide +kernel, ?_, by decide +kernel, by decide +kernel⟩
  · intro t ht
    left
    have h : ReuseExample.before.threads.map (fun t => t.prog) =
      ReuseExample.before.threads.map (fun t => t.loop) := ReuseExample.progs.trans ReuseExample.loops.symm
    exact List.map_inj_left.mp h t ht
  · intro r host id hm hn
    have h1 : ReuseExample.after.world.log = [.established 0 [49] OnceExample.id.val,
      .established 1 [50] OnceExample.id.val] := by decide +kernel
    have h2 : ReuseExample.before.world.log = [.established 0 [49] OnceExample.id.val] := by decide +kernel
    rw [h1] at hm
    rw [h2] at hn
    rcases List.mem_cons.mp hm with he | hm
    · rw [he] at hn; simp at hn
    · cases List.mem_singleton.mp hm
      decide +kernel

end Goe2ee
