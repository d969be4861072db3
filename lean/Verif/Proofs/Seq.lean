import Verif.Proofs.Writes

/-!
# Running one goroutine alone
-/

set_option autoImplicit false

namespace Goe2ee

section
variable {C : Crypto}

/-- Reads on the connection. -/
theorem run_onConn {α : Type} (timeout : Nat) (ans : Nat → Answer C) (p : RProg α) (s : Seq) :
    (onConn p).run (seqI C timeout ans) s =
      ((runEv p s.conn.input).1,
        { s with conn := { s.conn with input := (runEv p s.conn.input).2 } }) := by
  induction p generalizing s with
  | ret a => rfl
  | panic m => rfl
  | op o k ih =>
    exact ih _ (seqI C timeout ans (.read o) s).2

/-- Reads on the connection, result known for the flat input. -/
theorem run_onConn_of_runI {α : Type} (timeout : Nat) (ans : Nat → Answer C) {p : RProg α} {s : Seq}
    {r : Res α} {rest : List Item} (h : runI p (flatten s.conn.input) = (r, rest)) :
    ∃ evs, flatten evs = rest ∧ (onConn p).run (seqI C timeout ans) s =
      (r, { s with conn := { s.conn with input := evs } }) := by
  obtain ⟨evs, h1, h2⟩ := runEv_of_runI h
  exact ⟨evs, h2, by rw [run_onConn, h1]⟩

/-- An effect other than a read. -/
theorem seqI_other (timeout : Nat) (ans : Nat → Answer C) (o : SOp) (ho : ¬ o.isRead) (s : Seq) :
    seqI C timeout ans o s =
      ((exec C timeout (ans s.pos) o (s.conn, s.world)).1,
        { conn := (exec C timeout (ans s.pos) o (s.conn, s.world)).2.1,
          world := (exec C timeout (ans s.pos) o (s.conn, s.world)).2.2, pos := s.pos + 1 }) := by
  cases o <;> first | rfl | exact absurd trivial ho

theorem seqI_read (timeout : Nat) (ans : Nat → Answer C) (o : ROp) (s : Seq) :
    seqI C timeout ans (.read o) s =
      ((readInterp readEv o s.conn.input).1,
        { s with conn := { s.conn with input := (readInterp readEv o s.conn.input).2 } }) := rfl

/-- The recorded writes follow the connection. -/
theorem writes_follow (timeout : Nat) (ans : Nat → Answer C) (W : List WRec) (O : Bytes) (o : SOp)
    (g : List WRec) (s : Seq) (hpre : (writesA C).pre o g)
    (h : s.conn.writes = W ++ g ∧ s.conn.output = O ++ accepted g) :
    (seqI C timeout ans o s).2.conn.writes = W ++ (writesA C).next o (seqI C timeout ans o s).1 g ∧
    (seqI C timeout ans o s).2.conn.output =
      O ++ accepted ((writesA C).next o (seqI C timeout ans o s).1 g) := by
  cases o with
  | write bs =>
    rw [seqI_other _ _ _ id]
    constructor
    · show s.conn.writes ++ _ = W ++ (g ++ _)
      rw [h.1, List.append_assoc]
    · show s.conn.output ++ _ = O ++ accepted (g ++ _)
      rw [h.2, accepted_append, List.append_assoc]
      simp [accepted]
  | flush => exact hpre.elim
  | check r c =>
    rw [seqI_other _ _ _ id]
    simp only [exec]
    split
    · exact h
    · exact h
  | _ => exact h

/-- Effects that leave the input alone. -/
def SOp.keepsInput : SOp → Prop
  | .read _ => False
  | _ => True

theorem exec_input (timeout : Nat) (a : Answer C) (o : SOp) (ho : o.keepsInput) (c : Conn) (w : World) :
    (exec C timeout a o (c, w)).2.1.input = c.input := by
  cases o with
  | read o => exact ho.elim
  | check r c =>
    simp only [exec]
    split <;> rfl
  | flush =>
    simp only [exec]
    split <;> rfl
  | _ => rfl

theorem seqI_input (timeout : Nat) (ans : Nat → Answer C) (o : SOp) (ho : o.keepsInput) (s : Seq) :
    (seqI C timeout ans o s).2.conn.input = s.conn.input := by
  rw [seqI_other _ _ _ (by cases o <;> first | exact id | exact ho.elim)]
  exact exec_input timeout _ o ho _ _

theorem run_input {α : Type} {p : SProg C α} (hp : Uses (S := SSig C) SOp.keepsInput p)
    (timeout : Nat) (ans : Nat → Answer C) (s : Seq) :
    (p.run (seqI C timeout ans) s).2.conn.input = s.conn.input :=
  hp.run (seqI C timeout ans) (fun s' => s'.conn.input = s.conn.input)
    (fun o s' ho h => (seqI_input timeout ans o ho s').trans h) s rfl

/-- Effects that do not close the server. -/
def SOp.keepsOpen : SOp → Prop
  | .closeQuit => False
  | _ => True

theorem exec_quit (timeout : Nat) (a : Answer C) (o : SOp) (ho : o.keepsOpen) (c : Conn) (w : World) :
    (exec C timeout a o (c, w)).2.2.quit = w.quit := by
  cases o with
  | closeQuit => exact ho.elim
  | check r c =>
    simp only [exec]
    split <;> rfl
  | flush =>
    simp only [exec]
    split <;> rfl
  | write bs =>
    simp only [exec, execWrite]
    split
    · rfl
    · split
      · split <;> rfl
      · rfl
  | _ => rfl

theorem run_quit {α : Type} {p : SProg C α} (hp : Uses (S := SSig C) SOp.keepsOpen p)
    (timeout : Nat) (ans : Nat → Answer C) (s : Seq) :
    (p.run (seqI C timeout ans) s).2.world.quit = s.world.quit := by
  refine hp.run (seqI C timeout ans) (fun s' => s'.world.quit = s.world.quit) (fun o s' ho h => ?_) s rfl
  by_cases hr : o.isRead
  · cases o with
    | read o => exact h
    | _ => exact hr.elim
  · rw [seqI_other _ _ _ hr]
    exact (exec_quit timeout _ o ho _ _).trans h

/-! ## Effects the handlers use after parsing -/

/-- Everything but reading, closing and the listeners' effects. -/
def SOp.isHandler : SOp → Prop
  | .write _ | .genKey | .sign _ _ | .fetchKey | .now | .mapLoad _ | .mapStore _ _ | .mapDelete _
  | .newSession _ _ _ | .secretOf _ | .check _ _ | .invoke _ _ _ _ _ | .aead _ _ _ _ | .choose => True
  | _ => False

theorem isWrite_handler (o : SOp) (h : o.isWrite) : o.isHandler := by
  cases o <;> first | trivial | exact h.elim
theorem isTable_handler (o : SOp) (h : o.isTable) : o.isHandler := by
  cases o <;> first | trivial | exact h.elim
theorem isHandler_keepsInput (o : SOp) (h : o.isHandler) : o.keepsInput := by
  cases o <;> first | trivial | exact h.elim
theorem isHandler_keepsOpen (o : SOp) (h : o.isHandler) : o.keepsOpen := by
  cases o <;> first | trivial | exact h.elim

theorem handler_failWith (code : ErrorCode) (text : String) :
    Uses (S := SSig C) SOp.isHandler (failWith code text) := (uses_failWith code text).mono isWrite_handler

theorem handler_respondWith (bs : Bytes) : Uses (S := SSig C) SOp.isHandler (respondWith bs) :=
  (uses_respondWith bs).mono isWrite_handler

theorem handler_setupParsed {M : Manager C} (hM : M.Passive) (host : Except Err Bytes)
    (request : SetupRequest C) : Uses (S := SSig C) SOp.isHandler (setupParsed M host request) := by
  unfold setupParsed
  refine ⟨trivial, fun (generated : Except Err C.EPriv) => ?_⟩
  rcases generated with _ | serverPrivateKey
  · exact handler_failWith _ _
  dsimp only
  split
  · exact handler_failWith _ _
  split
  · exact handler_failWith _ _
  refine ⟨trivial, fun session => ?_⟩
  refine Uses.bind ((hM.store _ _).mono isTable_handler) fun stored => ?_
  split
  · exact handler_failWith _ _
  refine ⟨trivial, fun (signed : Except Err Bytes) => ?_⟩
  rcases signed with _ | signature
  · exact handler_failWith _ _
  exact handler_respondWith _

theorem handler_processParsed {M : Manager C} (hM : M.Passive) (host : Except Err Bytes)
    (request : ProcessRequest) : Uses (S := SSig C) SOp.isHandler (processParsed M host request) := by
  unfold processParsed
  split
  · exact handler_failWith _ _
  refine Uses.bind ((hM.load _).mono isTable_handler) fun loaded => ?_
  split
  · exact handler_failWith _ _
  refine ⟨trivial, fun fresh => ?_⟩
  cases fresh with
  | false => exact handler_failWith _ _
  | true =>
    refine ⟨trivial, fun (secret : Bytes) => ?_⟩
    dsimp only
    split
    · exact handler_failWith _ _
    split
    · exact handler_failWith _ _
    split
    · exact handler_failWith _ _
    rw [show gcmNonceSize = 12 from rfl, C12_nonce_layout]
    dsimp only [ofRes, Prog.ret_bind]
    split
    · exact handler_failWith _ _
    unfold runHandler
    refine ⟨trivial, fun (handled : HRes) => ?_⟩
    rcases handled with written | e | m
    rotate_left
    · exact handler_failWith _ _
    · trivial
    dsimp only
    split
    · rw [show gcmNonceSize = 12 from rfl, C12_nonce_layout]
      refine ⟨trivial, fun sealed => ?_⟩
      exact handler_respondWith _
    · trivial

theorem handler_fetchKey : Uses (S := SSig C) SOp.isHandler fetchKeyHandler := by
  unfold fetchKeyHandler
  refine ⟨trivial, fun (fetched : Except Err (KeyAlgorithm × PublicKey)) => ?_⟩
  rcases fetched with _ | ⟨alg, pk⟩
  · exact handler_failWith _ _
  dsimp only
  split
  · exact handler_failWith _ _
  · exact handler_respondWith _

/-! ## Serving a well-formed request -/

/-- The request as the parsers return it. -/
def parsedSetup (C : Crypto) (id : ID) (clientKey : C.EPub) : SetupRequest C :=
  { common := { version := 1, action := 2 }, id, publicKey := clientKey }

def parsedProcess (expectReply : Bool) (id : ID) (counter : BitVec 64) (ciphertext : Bytes) :
    ProcessRequest :=
  { common := { version := 1, action := 3 }, expectReply, reserved := 0, id, counter,
    messageSize := BitVec.ofNat 64 ciphertext.length, message := ciphertext }

/-- What the server does after parsing a well-formed request. -/
def afterParse (M : Manager C) (host : Except Err Bytes) : Req C → SProg C (Option Err)
  | .hello => respondWith Goe2ee.helloResponse.bytes
  | .setup id clientKey => setupParsed M host (parsedSetup C id clientKey)
  | .process expectReply id counter ciphertext =>
    processParsed M host (parsedProcess expectReply id counter ciphertext)
  | .fetchKey => fetchKeyHandler

/-- Whether to go on after a handler. -/
def goOn : Option Err → SProg C Bool
  | some _ => .ret false
  | none => .ret true

theorem serveRequest_eq (M : Manager C) (host : Except Err Bytes) :
    serveRequest M host = (onConn parseRequestCommon).bind fun parsed =>
      match parsed with
      | .error _ => .ret false
      | .ok common =>
        if common.version ≠ version1 then .ret false else (handle M host common).bind goOn := by
  rfl

theorem header_of_octet : ∀ b : Byte, b = 0x11#8 ∨ b = 0x12#8 ∨ b = 0x13#8 ∨ b = 0x14#8 →
    (b &&& 0xF0#8) >>> 4 = 1#8 ∧ b &&& 0x0F#8 = b - 0x10#8 := by decide

theorem run_handle_setup (hC : C.Lawful) (timeout : Nat) (ans : Nat → Answer C) (M : Manager C)
    (host : Except Err Bytes) (id : ID) (pk : C.EPub) (s : Seq) (rest : List Item)
    (h : flatten s.conn.input =
      (id.val ++ beEnc 4 (C.marshalEPub pk).length ++ C.marshalEPub pk).map Sum.inl ++ rest) :
    ∃ evs, flatten evs = rest ∧
      ((handle M host { version := 1, action := 2 }).bind goOn).run (seqI C timeout ans) s =
        ((setupParsed M host (parsedSetup C id pk)).bind goOn).run (seqI C timeout ans)
          { s with conn := { s.conn with input := evs } } := by
  obtain ⟨evs, h1, h2⟩ := run_onConn_of_runI timeout ans (s := s) (rest := rest)
    (p := parseSetupRequest C { version := 1, action := 2 })
    (by rw [h]; exact runI_parseSetupRequest C hC.parse_marshalEPub _ id pk
          (by rw [hC.marshalEPub_length]; decide) rest)
  refine ⟨evs, h1, ?_⟩
  rw [show handle M host { version := 1, action := 2 } =
    setupHandler M host { version := 1, action := 2 } from rfl, setupHandler_eq, Prog.bind_assoc, Prog.run_bind, h2]
  rfl

theorem run_handle_process (timeout : Nat) (ans : Nat → Answer C) (M : Manager C)
    (host : Except Err Bytes) (er : Bool) (id : ID) (counter : BitVec 64) (ct : Bytes)
    (hl : ct.length ≤ 2 ^ 30) (s : Seq) (rest : List Item)
    (h : flatten s.conn.input = Sum.inl (if er then 0x80#8 else 0x00#8) ::
      ((id.val ++ (beEnc 8 counter.toNat ++ (beEnc 8 ct.length ++ ct))).map Sum.inl ++ rest)) :
    ∃ evs, flatten evs = rest ∧
      ((handle M host { version := 1, action := 3 }).bind goOn).run (seqI C timeout ans) s =
        ((processParsed M host (parsedProcess er id counter ct)).bind goOn).run (seqI C timeout ans)
          { s with conn := { s.conn with input := evs } } := by
  obtain ⟨evs, h1, h2⟩ := run_onConn_of_runI timeout ans (s := s) (rest := rest)
    (p := parseProcessRequest { version := 1, action := 3 })
    (by rw [h]; exact runI_parseProcessRequest _ _ id counter ct hl rest)
  refine ⟨evs, h1, ?_⟩
  rw [show handle M host { version := 1, action := 3 } =
    processHandler M host { version := 1, action := 3 } from rfl, processHandler_eq, Prog.bind_assoc, Prog.run_bind, h2]
  cases er <;> rfl

/-- A well-formed request is parsed as such, and what follows it stays unread. -/
theorem run_serveRequest (hC : C.Lawful) (timeout : Nat) (ans : Nat → Answer C) (M : Manager C)
    (host : Except Err Bytes) (q : Req C) (hq : q.fits) (s : Seq) (rest : List Item)
    (h : flatten s.conn.input = q.wire.map Sum.inl ++ rest) :
    ∃ evs, flatten evs = rest ∧
      (serveRequest M host).run (seqI C timeout ans) s =
        ((afterParse M host q).bind goOn).run (seqI C timeout ans)
          { s with conn := { s.conn with input := evs } } := by
  have hcons : ∃ b tail, q.wire = b :: tail ∧ (b = 0x11#8 ∨ b = 0x12#8 ∨ b = 0x13#8 ∨ b = 0x14#8) := by
    cases q <;> exact ⟨_, _, rfl, by simp⟩
  obtain ⟨b, tail, hw, hb⟩ := hcons
  have hh := header_of_octet b hb
  rw [hw] at h
  obtain ⟨evs1, h1, h2⟩ := run_onConn_of_runI timeout ans (s := s) (rest := tail.map Sum.inl ++ rest)
    (p := parseRequestCommon)
    (by rw [h]; exact runI_parseRequestCommon b _)
  rw [hh.1, hh.2] at h2
  rw [serveRequest_eq, Prog.run_bind, h2]
  dsimp only
  rw [if_neg (by decide)]
  cases q with
  | hello =>
    obtain ⟨rfl, rfl⟩ : b = 0x11#8 ∧ tail = [] := by
      simpa [Req.wire, Wire.helloRequest, eq_comm] using hw
    exact ⟨evs1, h1, rfl⟩
  | fetchKey =>
    obtain ⟨rfl, rfl⟩ : b = 0x14#8 ∧ tail = [] := by
      simpa [Req.wire, Wire.fetchKeyRequest, eq_comm] using hw
    exact ⟨evs1, h1, rfl⟩
  | setup id pk =>
    simp only [Req.wire, Wire.setupRequest, List.cons_append, List.nil_append, List.cons.injEq] at hw
    obtain ⟨rfl, rfl⟩ := hw
    obtain ⟨evs2, h3, h4⟩ := run_handle_setup hC timeout ans M host id pk
      { s with conn := { s.conn with input := evs1 } } rest (by rw [beEnc_four]; exact h1)
    refine ⟨evs2, h3, ?_⟩
    exact h4
  | process er id counter ct =>
    simp only [Req.wire, Wire.processRequest, List.cons_append, List.nil_append, List.cons.injEq] at hw
    obtain ⟨rfl, rfl⟩ := hw
    obtain ⟨evs2, h3, h4⟩ := run_handle_process timeout ans M host er id counter ct hq
      { s with conn := { s.conn with input := evs1 } } rest (by
        rw [beEnc_eight, beEnc_eight, h1]; simp)
    refine ⟨evs2, h3, ?_⟩
    exact h4

/-- The state after the quit check and setting the deadlines. -/
def Seq.ready (timeout : Nat) (ans : Nat → Answer C) (s : Seq) : Seq :=
  { conn := { s.conn with
      deadline := if timeout > 0 then some (s.world.now + (ans (s.pos + 1)).tick + timeout)
        else s.conn.deadline },
    world := { s.world with
      now := s.world.now + (ans (s.pos + 1)).tick,
      packetBy := if timeout > 0 ∧ s.conn.buffered then
          some (s.world.now + (ans (s.pos + 1)).tick + timeout)
        else s.world.packetBy },
    pos := s.pos + 2 }

theorem run_connPass (timeout : Nat) (ans : Nat → Answer C) (M : Manager C)
    (host : Except Err Bytes) (s : Seq) (hq : s.world.quit = false) :
    (connPass M host).run (seqI C timeout ans) s =
      (serveRequest M host).run (seqI C timeout ans) (s.ready timeout ans) := by
  show Prog.run _ (if s.world.quit then _ else _) _ = _
  rw [hq]
  rfl

theorem handler_afterParse {M : Manager C} (hM : M.Passive) (host : Except Err Bytes) (q : Req C) :
    Uses (S := SSig C) SOp.isHandler (afterParse M host q) := by
  cases q with
  | hello => exact handler_respondWith _
  | setup id pk => exact handler_setupParsed hM _ _
  | process er id c ct => exact handler_processParsed hM _ _
  | fetchKey => exact handler_fetchKey

theorem outcome_afterParse {M : Manager C} (hM : M.Passive) (host : Except Err Bytes) (q : Req C) :
    SafeE (writesA C) (afterParse M host q) [] (Outcome (q.answered = false) (IsResponse q))
      NothingWritten := by
  cases q with
  | hello => exact outcome_hello _
  | setup id pk => exact outcome_setupParsed hM _ _ _ _ _
  | process er id c ct => exact outcome_processParsed hM host (parsedProcess er id c ct)
  | fetchKey => exact outcome_fetchKeyHandler _

/-- A response the transport accepts. -/
theorem run_respondWith (timeout : Nat) (ans : Nat → Answer C) (bs : Bytes) (s s' : Seq)
    (h : seqI C timeout ans (.write bs) s = ((bs.length, none), s')) :
    (respondWith bs).run (seqI C timeout ans) s = (.val none, s') := by
  simp only [respondWith, writeResponse, Prog.bind, Prog.run, h]
  rw [if_neg (by simp)]
  rfl

theorem run_failWith (timeout : Nat) (ans : Nat → Answer C) (code : ErrorCode) (text : String)
    (s s' : Seq)
    (h : seqI C timeout ans (.write (errorBytes code text)) s =
      (((errorBytes code text).length, none), s')) :
    (failWith code text).run (seqI C timeout ans) s = (.val none, s') := by
  simp only [failWith, writeErrorResponse, Prog.bind, Prog.run, h]
  rw [if_neg (by simp)]
  rfl

/-- A write on a transport that accepts everything, before the deadline. -/
theorem run_write_ok (timeout : Nat) (ans : Nat → Answer C) (bs : Bytes) (s : Seq)
    (hw : (ans s.pos).write = (0, none))
    (hd : ∀ d, s.conn.deadline = some d → s.world.now + (ans s.pos).tick ≤ d) :
    seqI C timeout ans (.write bs) s = ((bs.length, none),
      { conn := { s.conn with output := s.conn.output ++ bs,
                              writes := s.conn.writes ++ [(bs, bs.length, none)] },
        world := if s.conn.buffered then s.world
          else { s.world with now := s.world.now + (ans s.pos).tick },
        pos := s.pos + 1 }) := by
  rw [seqI_other _ _ _ id]
  simp only [exec, execWrite, hw]
  cases hb : s.conn.buffered with
  | true => simp; rfl
  | false =>
    cases hdl : s.conn.deadline with
    | none => simp; rfl
    | some d =>
      have := hd d hdl
      simp only [Bool.false_eq_true, if_false]
      rw [if_neg (by omega)]
      simp
      rfl

/-- Everything about serving one well-formed request: what is read, what is written, when the loop
goes on. -/
theorem pass_wellformed (hC : C.Lawful) {M : Manager C} (hM : M.Passive) (timeout : Nat)
    (ans : Nat → Answer C) (host : Except Err Bytes) (q : Req C) (hq : q.fits) (s : Seq)
    (hquit : s.world.quit = false) (rest : List Item)
    (h : flatten s.conn.input = q.wire.map Sum.inl ++ rest) :
    ∃ s' ws res, (connPass M host).run (seqI C timeout ans) s = (res, s') ∧
      flatten s'.conn.input = rest ∧ s'.world.quit = false ∧
      s'.conn.writes = s.conn.writes ++ ws ∧ s'.conn.output = s.conn.output ++ accepted ws ∧
      match res with
      | .val true => Outcome (q.answered = false) (IsResponse q) none ws
      | .val false => (∃ r, IsResponse q r ∧ accepted ws <+: r) ∧ ∃ w ∈ ws, ¬ WRec.Complete w
      | .panic _ => ws = [] := by
  rw [run_connPass timeout ans M host s hquit]
  obtain ⟨evs, h1, h2⟩ := run_serveRequest hC timeout ans M host q hq (s.ready timeout ans) rest h
  rw [h2]
  generalize hs1 : ({ (s.ready timeout ans) with
    conn := { (s.ready timeout ans).conn with input := evs } } : Seq) = s1
  have e1 : s1.conn.input = evs := by rw [← hs1]
  have e2 : s1.world.quit = false := by rw [← hs1]; exact hquit
  have e3 : s1.conn.writes = s.conn.writes ++ [] := by rw [← hs1]; simp [Seq.ready]
  have e4 : s1.conn.output = s.conn.output ++ accepted [] := by
    rw [← hs1]; simp [Seq.ready, accepted]
  have hin := run_input ((handler_afterParse hM host q).mono isHandler_keepsInput) timeout ans s1
  have hqu := run_quit ((handler_afterParse hM host q).mono isHandler_keepsOpen) timeout ans s1
  obtain ⟨ws, ⟨hw1, hw2⟩, hres⟩ := (outcome_afterParse hM host q).run (seqI C timeout ans)
    (fun g s' => s'.conn.writes = s.conn.writes ++ g ∧ s'.conn.output = s.conn.output ++ accepted g)
    (fun o g s' => writes_follow timeout ans _ _ o g s') s1 ⟨e3, e4⟩
  rw [Prog.run_bind]
  rcases hr : (afterParse M host q).run (seqI C timeout ans) s1 with ⟨res, s'⟩
  rw [hr] at hin hqu hw1 hw2 hres
  dsimp only at hin hqu hw1 hw2 hres
  rw [e1] at hin
  rw [e2] at hqu
  rcases res with err | m
  · rcases err with _ | e
    · exact ⟨s', ws, .val true, rfl, by rw [hin, h1], hqu, hw1, hw2, hres⟩
    · exact ⟨s', ws, .val false, rfl, by rw [hin, h1], hqu, hw1, hw2, hres⟩
  · exact ⟨s', ws, .panic m, rfl, by rw [hin, h1], hqu, hw1, hw2, hres⟩

end

end Goe2ee
