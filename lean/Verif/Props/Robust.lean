import Verif.Proofs.Robust
import Verif.Props.Serve

/-!
# C27, C29, C30, C54, C57: the server and unusual requests
-/

set_option autoImplicit false

namespace Goe2ee

variable {C : Crypto}

/-! ## C30 -/

/-- **C30.** Whatever arrives on a connection, in whatever segmentation and with whatever read
errors: once the stream has ended, the goroutine has ended and closed the connection, after at most
one pass per octet and one more.  If it ended with a panic, the application handler panicked. -/
theorem C30_server_survives {M : Manager C} (hM : M.Passive) (hQ : M.Quiet) (timeout : Nat)
    (ans : Nat → Answer C) (host : Except Err Bytes) (s : Seq) (fuel : Nat)
    (hfuel : (flatten s.conn.input).length < fuel) :
    ∃ ended s' l, serveConn C M timeout ans host fuel s = (ended, s') ∧ ended ≠ .running ∧
      s'.conn.closed = true ∧ s'.world.log = s.world.log ++ l ∧
      ∀ m, ended = .panicked m → ∃ r cnt h id msg, .invoked r cnt h id msg (.panic m) ∈ l := by
  induction fuel generalizing s with
  | zero => omega
  | succ fuel ih =>
    obtain ⟨l, h1, h2⟩ := run_panic (panic_connPass hM hQ host) timeout ans s
    have h3 := pass_progress M timeout ans host s
    simp only [serveConn]
    rcases hr : (connPass M host).run (seqI C timeout ans) s with ⟨res, s1⟩
    rw [hr] at h1 h2 h3
    dsimp only at h1 h2 h3
    match res, h2, h3 with
    | .val true, _, h3 =>
      obtain ⟨ended, s', l', i1, i2, i3, i4, i5⟩ := ih s1 (by have := h3 rfl; omega)
      refine ⟨ended, s', l ++ l', i1, i2, i3, by rw [i4, h1, List.append_assoc], fun m hm => ?_⟩
      obtain ⟨r, cnt, h, id, msg, hmem⟩ := i5 m hm
      exact ⟨r, cnt, h, id, msg, List.mem_append_right _ hmem⟩
    | .val false, _, _ => exact ⟨.returned, _, l, rfl, by simp, rfl, h1, by simp⟩
    | .panic m, h2, _ =>
      refine ⟨.panicked m, _, l, rfl, by simp, rfl, h1, fun m' hm' => ?_⟩
      cases hm'
      exact h2 m rfl

/-- **C30**, UDP: the goroutine that handles a datagram panics only if the application handler
does. -/
theorem C30_datagram_survives {M : Manager C} (hM : M.Passive) (hQ : M.Quiet) (timeout : Nat)
    (ans : Nat → Answer C) (host : Except Err Bytes) (s : Seq) :
    ∃ l, ((packetBody M host).run (seqI C timeout ans) s).2.world.log = s.world.log ++ l ∧
      ∀ m, ((packetBody M host).run (seqI C timeout ans) s).1 = .panic m →
        ∃ r cnt h id msg, Event.invoked r cnt h id msg (.panic m) ∈ l :=
  run_panic (p := packetBody M host)
    ⟨trivial, fun _ =>
      SafeE.bind ((panic_serveRequest hM hQ host).mono (fun _ _ _ => True.intro) fun _ _ h => h)⟩
    timeout ans s

example : (inMemory Toy.crypto).Quiet := inMemory_quiet _

/-- Garbage, a read timeout in the middle of a request, and the end of the stream. -/
example : (serveConn Toy.crypto (inMemory _) 5000 (fun _ => ServeExample.answer) (.ok (str "10.0.0.1"))
    100 { ServeExample.start [] with
      conn := { Conn.none with input := [.data [0x12, 1, 2, 3], .fail .timeout, .data [0x11, 0x15]] } }).1
    = .returned := by decide +kernel

/-- A handler that panics. -/
example : (serveConn Toy.crypto (inMemory _) 5000
    (fun _ => { ServeExample.answer with handle := .panic "oops" }) (.ok (str "10.0.0.1")) 5
    (ServeExample.start (ServeExample.requests.flatMap Req.wire))).1 = .panicked "oops" := by
  decide +kernel

/-! ## C29 -/

/-- What an unsupported version must lead to: the connection ends, nothing in the server changes,
and the peer receives an Unsupported-version error (code 4). -/
def C29_claim : Prop :=
  ∀ (C : Crypto) (M : Manager C) (timeout : Nat) (ans : Nat → Answer C) (host : Except Err Bytes)
    (fuel : Nat) (s : Seq) (b : Byte) (rest : List (Byte ⊕ Err)),
    M.Passive → s.world.quit = false → b >>> 4 ≠ 1 → Delivers s.conn.input [b] rest →
    ∃ s', serveConn C M timeout ans host (fuel + 1) s = (.returned, s') ∧
      s'.world.heap = s.world.heap ∧ s'.world.table = s.world.table ∧ s'.world.log = s.world.log ∧
      s'.conn.closed = true ∧ ∃ text, s'.conn.output = s.conn.output ++ Wire.errorResponse 4 text

theorem nibbles : ∀ b : Byte, (b &&& 0xF0#8) >>> 4 = b >>> 4 := by decide

/-- **C29** except for the error response: a request whose version is not 1 ends the connection and
changes no session, reaches no handler and writes nothing. -/
theorem C29_unsupported_version_partial (M : Manager C) (timeout : Nat) (ans : Nat → Answer C)
    (host : Except Err Bytes) (fuel : Nat) (s : Seq) (b : Byte) (rest : List (Byte ⊕ Err))
    (hquit : s.world.quit = false) (hb : b >>> 4 ≠ 1) (h : Delivers s.conn.input [b] rest) :
    ∃ s', serveConn C M timeout ans host (fuel + 1) s = (.returned, s') ∧
      s'.world.heap = s.world.heap ∧ s'.world.table = s.world.table ∧ s'.world.log = s.world.log ∧
      s'.conn.closed = true ∧ flatten s'.conn.input = rest ∧ s'.conn.output = s.conn.output ∧
      s'.conn.writes = s.conn.writes := by
  obtain ⟨evs, h1, h2⟩ := run_onConn_of_runI (C := C) timeout ans (s := s.ready timeout ans)
    (p := parseRequestCommon) (rest := rest) (by
      rw [show (s.ready timeout ans).conn.input = s.conn.input from rfl, h]
      exact runI_parseRequestCommon b rest)
  simp only [serveConn]
  rw [run_connPass timeout ans M host s hquit, serveRequest_eq, Prog.run_bind, h2]
  dsimp only
  rw [if_pos (by rw [nibbles]; exact hb)]
  exact ⟨_, rfl, rfl, rfl, rfl, rfl, h1, rfl, rfl⟩

/-- **C29** is false of the code: no Unsupported-version error is sent. -/
theorem C29_no_error_response : ¬ C29_claim := by
  intro h
  obtain ⟨s', h1, -, -, -, -, text, h2⟩ := h Toy.crypto (inMemory _) 0 (fun _ => ServeExample.answer)
    (.ok []) 0 (ServeExample.start [0x21]) 0x21 [] (inMemory_passive _) rfl (by decide) rfl
  obtain ⟨s'', i1, -, -, -, -, -, i2, -⟩ := C29_unsupported_version_partial (inMemory Toy.crypto) 0
    (fun _ => ServeExample.answer) (.ok []) 0 (ServeExample.start [0x21]) 0x21 [] rfl (by decide) rfl
  rw [h1] at i1
  cases i1
  rw [i2] at h2
  have := congrArg List.length h2
  simp [Wire.errorResponse, ServeExample.start, ServeExample.conn, Conn.none] at this

example : (serveConn Toy.crypto (inMemory _) 5000 (fun _ => ServeExample.answer) (.ok (str "10.0.0.1"))
    3 (ServeExample.start [0x21, 0x11])).2.conn.writes = [] := by decide +kernel

/-! ## C27 -/

/-- The claim: a process request without the expect-reply flag is never answered. -/
def C27_claim : Prop :=
  ∀ (C : Crypto) (M : Manager C) (timeout : Nat) (ans : Nat → Answer C) (host : Except Err Bytes)
    (s : Seq) (id : ID) (counter : BitVec 64) (ciphertext : Bytes) (rest : List (Byte ⊕ Err)),
    C.Lawful → M.Passive → s.world.quit = false → ciphertext.length ≤ 2 ^ 30 →
    Delivers s.conn.input (Wire.processRequest false id.val counter.toNat ciphertext) rest →
    (serveConn C M timeout ans host 1 s).2.conn.output = s.conn.output

/-- **C27** is false of the code: a request for an unknown session is answered with an error. -/
theorem C27_error_responses_are_sent : ¬ C27_claim := by
  intro h
  have := h Toy.crypto (inMemory _) 0 (fun _ => ServeExample.answer) (.ok []) (ServeExample.start
    (Wire.processRequest false ServeExample.id.val 1 [])) ServeExample.id 1 [] [] Toy.lawful
    (inMemory_passive _) rfl (by decide) rfl
  revert this
  decide +kernel

/-- What has happened in a pass: nothing yet, something was written, or the handler returned nil. -/
inductive Stage where
  | nothing
  | written
  | handled

/-- Only error responses are written, and none after the handler returned nil. -/
def silentA (C : Crypto) : Auto (SSig C) Stage where
  pre
    | .write bs, g => g ≠ .handled ∧ IsError bs
    | .invoke _ _ _ _ _, g => g = .nothing
    | .flush, _ => False
    | _, _ => True
  next
    | .write _, _, _ => .written
    | .invoke _ _ _ _ _, .reply _, _ => .handled
    | _, _, g => g

/-- Effects `silentA` ignores. -/
def SOp.isIdle : SOp → Prop
  | .write _ | .invoke _ _ _ _ _ | .flush => False
  | _ => True

theorem silent_idle {α : Type} {p : SProg C α} (hp : Uses (S := SSig C) SOp.isIdle p) {g : Stage}
    {Q : α → Stage → Prop} (hQ : ∀ a, Q a g) : Safe (silentA C) p g Q :=
  Safe.of_uses hp (fun o _ h => by cases o <;> first | trivial | exact h.elim)
    (fun o _ _ h => by cases o <;> first | rfl | exact h.elim) hQ

theorem silent_failWith (code : ErrorCode) (text : String) :
    Safe (silentA C) (failWith code text) .nothing fun _ _ => True := by
  refine ⟨⟨by simp, isError_errorBytes code text⟩, fun (x : Nat × Option Err) => ?_⟩
  obtain ⟨n, _ | e⟩ := x
  · show Safe _ (Prog.bind (if _ then _ else _) _) _ _
    split <;> trivial
  · trivial

theorem silent_processParsed {M : Manager C} (hM : M.Passive) (host : Except Err Bytes)
    (request : ProcessRequest) (he : request.expectReply = false) :
    Safe (silentA C) (processParsed M host request) .nothing fun _ _ => True := by
  unfold processParsed
  split
  · exact silent_failWith _ _
  refine Safe.bind (silent_idle ((hM.load _).mono fun o h => by
    cases o <;> first | trivial | exact h.elim) fun loaded => ?_)
  split
  · exact silent_failWith _ _
  refine ⟨trivial, fun fresh => ?_⟩
  cases fresh with
  | false => exact silent_failWith _ _
  | true =>
    refine ⟨trivial, fun (secret : Bytes) => ?_⟩
    dsimp only
    split
    · exact silent_failWith _ _
    split
    · exact silent_failWith _ _
    split
    · exact silent_failWith _ _
    rw [show gcmNonceSize = 12 from rfl, C12_nonce_layout]
    dsimp only [ofRes, Prog.ret_bind]
    split
    · exact silent_failWith _ _
    unfold runHandler
    refine ⟨rfl, fun (handled : HRes) => ?_⟩
    rcases handled with written | e | m
    rotate_left
    · exact silent_failWith _ _
    · trivial
    dsimp only
    rw [if_neg (by simp [he])]
    trivial

/-- **C27** for requests that succeed: all that is ever written for a request without the
expect-reply flag is an error response; if the application handler was called and returned nil,
nothing is written at all. -/
theorem C27_fire_and_forget_partial (hC : C.Lawful) {M : Manager C} (hM : M.Passive) (timeout : Nat)
    (ans : Nat → Answer C) (host : Except Err Bytes) (s : Seq) (hquit : s.world.quit = false)
    (id : ID) (counter : BitVec 64) (ciphertext : Bytes) (hl : ciphertext.length ≤ 2 ^ 30)
    (rest : List (Byte ⊕ Err))
    (h : Delivers s.conn.input (Wire.processRequest false id.val counter.toNat ciphertext) rest) :
    ∃ ws l, (serveConn C M timeout ans host 1 s).2.conn.writes = s.conn.writes ++ ws ∧
      (serveConn C M timeout ans host 1 s).2.conn.output = s.conn.output ++ accepted ws ∧
      (serveConn C M timeout ans host 1 s).2.world.log = s.world.log ++ l ∧
      (∀ w ∈ ws, IsError w.1) ∧
      ((∃ r c hst i msg reply, .invoked r c hst i msg (.reply reply) ∈ l) → ws = []) := by
  obtain ⟨evs, -, h2⟩ := run_serveRequest hC timeout ans M host (.process false id counter ciphertext) hl
    (s.ready timeout ans) rest h
  rw [← run_connPass timeout ans M host s hquit] at h2
  have hconn : ∀ r : Res Bool × Seq, (connPass M host).run (seqI C timeout ans) s = r →
      (serveConn C M timeout ans host 1 s).2.conn.writes = r.2.conn.writes ∧
      (serveConn C M timeout ans host 1 s).2.conn.output = r.2.conn.output ∧
      (serveConn C M timeout ans host 1 s).2.world.log = r.2.world.log := by
    intro r hr
    simp only [serveConn, hr]
    rcases r with ⟨_ | _, s'⟩
    · rename_i b
      cases b <;> exact ⟨rfl, rfl, rfl⟩
    · exact ⟨rfl, rfl, rfl⟩
  obtain ⟨c1, c2, c3⟩ := hconn _ h2
  rw [c1, c2, c3]
  generalize hs1 : ({ (s.ready timeout ans) with
    conn := { (s.ready timeout ans).conn with input := evs } } : Seq) = s1
  have e1 : s1.conn.writes = s.conn.writes := by rw [← hs1]; rfl
  have e2 : s1.conn.output = s.conn.output := by rw [← hs1]; rfl
  have e3 : s1.world.log = s.world.log := by rw [← hs1]; rfl
  have hsafe : Safe (silentA C)
      ((afterParse M host (.process false id counter ciphertext)).bind goOn) .nothing
      (fun _ _ => True) := by
    refine Safe.bind ((silent_processParsed hM host _ rfl).mono fun err g _ => ?_)
    cases err <;> trivial
  obtain ⟨g, ⟨ws, l, w1, w2, w3, w4, w5⟩, -⟩ := hsafe.toE.run (seqI C timeout ans)
    (fun g s' => ∃ ws l, s'.conn.writes = s.conn.writes ++ ws ∧
      s'.conn.output = s.conn.output ++ accepted ws ∧ s'.world.log = s.world.log ++ l ∧
      (∀ w ∈ ws, IsError w.1) ∧
      match g with
      | .nothing => ws = [] ∧ ¬ ∃ r c hst i msg reply, Event.invoked r c hst i msg (.reply reply) ∈ l
      | .handled => ws = []
      | .written => ¬ ∃ r c hst i msg reply, Event.invoked r c hst i msg (.reply reply) ∈ l)
    (by
      rintro o g s' hpre ⟨ws, l, w1, w2, w3, w4, w5⟩
      obtain ⟨l', l1, l2, l3⟩ := seqI_log timeout ans o s'
      obtain ⟨ws', v1, v2, v3, v4⟩ := seqI_writes timeout ans o (by rintro rfl; exact hpre) s'
      refine ⟨ws ++ ws', l ++ l', by rw [v1, w1, List.append_assoc],
        by rw [v2, w2, accepted_append, List.append_assoc], by rw [l1, w3, List.append_assoc], ?_, ?_⟩
      · by_cases ho : ∃ bs, o = .write bs
        · obtain ⟨bs, rfl⟩ := ho
          obtain ⟨r, rfl⟩ := v3 bs rfl
          intro w hw
          rcases List.mem_append.mp hw with hw | hw
          · exact w4 w hw
          · rw [List.mem_singleton.mp hw]; exact hpre.2
        · rw [v4 fun bs h => ho ⟨bs, h⟩, List.append_nil]; exact w4
      · cases o with
        | invoke r c hst i msg =>
          have hg : g = .nothing := hpre
          subst hg
          rw [v4 (by simp), List.append_nil]
          obtain rfl := l2 r c hst i msg rfl
          show (match (silentA C).next (.invoke r c hst i msg) (ans s'.pos).handle .nothing with
            | .nothing => _ | .handled => _ | .written => _)
          rcases hh : (ans s'.pos).handle with w | e | m
          · exact w5.1
          · refine ⟨w5.1, ?_⟩
            rintro ⟨r', c', hst', i', msg', reply, hmem⟩
            rcases List.mem_append.mp hmem with hm | hm
            · exact w5.2 ⟨r', c', hst', i', msg', reply, hm⟩
            · simp at hm
          · refine ⟨w5.1, ?_⟩
            rintro ⟨r', c', hst', i', msg', reply, hmem⟩
            rcases List.mem_append.mp hmem with hm | hm
            · exact w5.2 ⟨r', c', hst', i', msg', reply, hm⟩
            · simp at hm
        | write bs =>
          rintro ⟨r', c', hst', i', msg', reply, hmem⟩
          rcases List.mem_append.mp hmem with hm | hm
          · cases g with
            | nothing => exact w5.2 ⟨r', c', hst', i', msg', reply, hm⟩
            | handled => exact hpre.1 rfl
            | written => exact w5 ⟨r', c', hst', i', msg', reply, hm⟩
          · exact l3 trivial _ _ _ _ _ _ hm
        | flush => exact hpre.elim
        | _ =>
          have hno : (¬ ∃ r c hst i msg reply, Event.invoked r c hst i msg (.reply reply) ∈ l) →
              ¬ ∃ r c hst i msg reply, Event.invoked r c hst i msg (.reply reply) ∈ l ++ l' := by
            rintro hn ⟨r', c', hst', i', msg', reply, hmem⟩
            rcases List.mem_append.mp hmem with hm | hm
            · exact hn ⟨r', c', hst', i', msg', reply, hm⟩
            · exact l3 trivial _ _ _ _ _ _ hm
          rw [v4 (by simp), List.append_nil]
          cases g with
          | nothing => exact ⟨w5.1, hno w5.2⟩
          | handled => exact w5
          | written => exact hno w5) s1 ⟨[], [], by simp [e1], by simp [e2, accepted], by simp [e3], by simp, by simp⟩
  refine ⟨ws, l, w1, w2, w3, w4, fun hex => ?_⟩
  cases g with
  | nothing => exact w5.1
  | handled => exact w5
  | written => exact absurd hex w5

/-- The fourth request of the example connection wants no reply: the handler is called and nothing
is written for it. -/
example :
    let s := ServeExample.start ((ServeExample.requests.take 4).flatMap Req.wire)
    let r3 := serveConn Toy.crypto (inMemory _) 5000 (fun _ => ServeExample.answer)
      (.ok (str "10.0.0.1")) 3 s
    let r4 := serveConn Toy.crypto (inMemory _) 5000 (fun _ => ServeExample.answer)
      (.ok (str "10.0.0.1")) 4 s
    r4.2.conn.writes = r3.2.conn.writes ∧
      r4.2.world.log = r3.2.world.log ++ [.accepted 0 2, .invoked 0 2 (str "10.0.0.1")
        ServeExample.id.val (str "ping") (.reply (str "pong"))] := by decide +kernel

/-! ## C54 -/

/-- The claim: when the server goes on after a setup or process request — whatever sizes the request
declares and whatever it was answered with — it goes on behind the body of that request. -/
def C54_claim : Prop :=
  ∀ (C : Crypto) (M : Manager C) (timeout : Nat) (ans : Nat → Answer C) (host : Except Err Bytes)
    (s s' : Seq) (id : ID) (flags : Byte) (counter : Nat) (body : Bytes) (rest : List (Byte ⊕ Err)),
    C.Lawful → M.Passive → s.world.quit = false → serveConn C M timeout ans host 1 s = (.running, s') →
    (body.length < 2 ^ 32 → Delivers s.conn.input ([0x12] ++ id.val ++ Wire.be32 body.length ++ body) rest →
      flatten s'.conn.input = rest) ∧
    (body.length < 2 ^ 64 → counter < 2 ^ 64 → Delivers s.conn.input
        ([0x13, flags] ++ id.val ++ Wire.be64 counter ++ Wire.be64 body.length ++ body) rest →
      flatten s'.conn.input = rest)

/-- **C54** is false of the code: the octets of an oversized key are taken for requests. -/
theorem C54_body_is_interpreted : ¬ C54_claim := by
  intro h
  obtain ⟨body, hb⟩ : ∃ body : Bytes, body.length = 65537 :=
    ⟨List.replicate 65537 0x11, List.length_replicate ..⟩
  let s : Seq := { ServeExample.start [] with
    conn := { Conn.none with
      input := [.data ([0x12] ++ ServeExample.id.val ++ Wire.be32 body.length ++ body)] } }
  have hin : flatten s.conn.input =
      ([0x12] ++ ServeExample.id.val ++ Wire.be32 body.length ++ body).map Sum.inl ++ [] := rfl
  have hparse : runI (parseSetupRequest Toy.crypto { version := 1, action := 2 })
      (ServeExample.id.val.map Sum.inl ++ ((beEnc 4 body.length).map Sum.inl ++ body.map Sum.inl)) =
      (.val (.error (.other "public key size exceeds maximum")), body.map Sum.inl) := by
    rw [parseSetupRequest, runI_readField _ _ _ _ _ ServeExample.id.property,
      runI_readField _ _ _ _ _ (beEnc_length _ _), hb]
    rfl
  obtain ⟨evs, i1, i2⟩ := run_onConn_of_runI (C := Toy.crypto) 0 (fun _ => ServeExample.answer)
    (s := s.ready 0 fun _ => ServeExample.answer) (p := parseRequestCommon)
    (rest := ServeExample.id.val.map Sum.inl ++ ((beEnc 4 body.length).map Sum.inl ++ body.map Sum.inl))
    (by
      rw [show (s.ready 0 fun _ => ServeExample.answer).conn.input = s.conn.input from rfl, hin, beEnc_four]
      simp only [List.map_append, List.append_nil, List.append_assoc]
      exact runI_parseRequestCommon 0x12 _)
  obtain ⟨evs', j1, j2⟩ := run_onConn_of_runI (C := Toy.crypto) 0 (fun _ => ServeExample.answer)
    (s := { s.ready 0 (fun _ => ServeExample.answer) with
      conn := { (s.ready 0 fun _ => ServeExample.answer).conn with input := evs } })
    (p := parseSetupRequest Toy.crypto { version := 1, action := 2 }) (by rw [← hparse, ← i1])
  obtain ⟨s', hs⟩ : ∃ s', serveConn Toy.crypto (inMemory _) 0 (fun _ => ServeExample.answer) (.ok []) 1 s =
      (.running, s') ∧ s'.conn.input = evs' := by
    simp only [serveConn]
    rw [run_connPass 0 _ _ _ s rfl, serveRequest_eq, Prog.run_bind, i2]
    dsimp only
    rw [if_neg (by decide), show handle (inMemory Toy.crypto) (.ok [])
      { version := ((0x12 : Byte) &&& 0xF0#8) >>> 4, action := (0x12 : Byte) &&& 0x0F#8 } =
      setupHandler (inMemory Toy.crypto) (.ok []) { version := 1, action := 2 } from rfl,
      setupHandler_eq, Prog.bind_assoc, Prog.run_bind, j2]
    dsimp only
    rw [Prog.run_bind, run_failWith 0 _ _ _ _ _ (run_write_ok 0 _ _ _ rfl (by simp [Seq.ready, s, Conn.none]))]
    exact ⟨_, rfl, rfl⟩
  have := (h Toy.crypto (inMemory _) 0 (fun _ => ServeExample.answer) (.ok []) s s' ServeExample.id 0 0
    body [] Toy.lawful (inMemory_passive _) rfl hs.1).1 (by rw [hb]; decide) hin
  rw [hs.2, j1] at this
  have := congrArg List.length this
  simp [hb] at this

/-- **C54** for requests within the size limits: a setup request that declares a key of at most
64 KiB, and a process request that declares a message of at most 1 GiB, once delivered completely,
are consumed completely, whatever they contain and however they are answered. -/
theorem C54_requests_are_consumed_partial {M : Manager C} (hM : M.Passive) (timeout : Nat)
    (ans : Nat → Answer C) (host : Except Err Bytes) (s : Seq) (hquit : s.world.quit = false)
    (id : ID) (flags : Byte) (counter : Nat) (body : Bytes) (rest : List (Byte ⊕ Err))
    (h : (body.length ≤ 65536 ∧
        Delivers s.conn.input ([0x12] ++ id.val ++ Wire.be32 body.length ++ body) rest) ∨
      (body.length ≤ 2 ^ 30 ∧ counter < 2 ^ 64 ∧ Delivers s.conn.input
        ([0x13, flags] ++ id.val ++ Wire.be64 counter ++ Wire.be64 body.length ++ body) rest)) :
    flatten (serveConn C M timeout ans host 1 s).2.conn.input = rest := by
  have hconn : (serveConn C M timeout ans host 1 s).2.conn.input =
      ((connPass M host).run (seqI C timeout ans) s).2.conn.input := by
    simp only [serveConn]
    rcases (connPass M host).run (seqI C timeout ans) s with ⟨_ | _, s'⟩
    · rename_i b
      cases b <;> rfl
    · rfl
  rw [hconn, run_connPass timeout ans M host s hquit, serveRequest_eq]
  have key : ∀ (b : Byte) (common : RequestCommon) (tail : List (Byte ⊕ Err)) (α : Type)
      (p : RProg (Except Err α)) (f : Except Err α → SProg C (Option Err)) (x : Res (Except Err α)),
      flatten s.conn.input = .inl b :: tail →
      common = { version := (b &&& 0xF0#8) >>> 4, action := b &&& 0x0F#8 } → common.version = version1 →
      handle M host common = (onConn p).bind f → runI p tail = (x, rest) →
      (∀ a, Uses (S := SSig C) SOp.isHandler (f a)) →
      flatten (((onConn parseRequestCommon).bind fun parsed =>
        match parsed with
        | .error _ => .ret false
        | .ok common =>
          if common.version ≠ version1 then .ret false else (handle M host common).bind goOn).run
            (seqI C timeout ans) (s.ready timeout ans)).2.conn.input = rest := by
    intro b common tail α p f x h1 h2 h3 h4 h5 h6
    obtain ⟨evs, i1, i2⟩ := run_onConn_of_runI (C := C) timeout ans (s := s.ready timeout ans)
      (p := parseRequestCommon) (rest := tail) (by
        rw [show (s.ready timeout ans).conn.input = s.conn.input from rfl, h1]
        exact runI_parseRequestCommon b tail)
    rw [Prog.run_bind, i2]
    dsimp only
    subst h2
    rw [if_neg (by simpa using h3), h4, Prog.bind_assoc, Prog.run_bind]
    obtain ⟨evs', j1, j2⟩ := run_onConn_of_runI (C := C) timeout ans
      (s := { s.ready timeout ans with conn := { (s.ready timeout ans).conn with input := evs } })
      (p := p) (rest := rest) (by rw [← h5, ← i1])
    rw [j2]
    rcases x with a | m
    · dsimp only
      rw [run_input (((h6 a).bind (f := goOn) fun err => by cases err <;> trivial).mono
        isHandler_keepsInput)]
      exact j1
    · exact j1
  rcases h with ⟨hl, h⟩ | ⟨hl, hc, h⟩
  · have hn := toNat_ofNat_beDec_beEnc4 body.length (by omega)
    have hparse : ∃ x, runI (parseSetupRequest C { version := 1, action := 2 })
        (id.val.map Sum.inl ++ ((beEnc 4 body.length).map Sum.inl ++ (body.map Sum.inl ++ rest))) =
        (x, rest) := by
      rw [parseSetupRequest, runI_readField _ _ _ _ _ id.property,
        runI_readField _ _ _ _ _ (beEnc_length _ _)]
      simp only [hn, maxKeySize]
      rw [if_neg (by omega), runI_alloc, runI_readField _ _ _ _ _ rfl]
      unfold parseEPub
      split <;> exact ⟨_, rfl⟩
    obtain ⟨x, hx⟩ := hparse
    refine key 0x12 { version := 1, action := 2 } _ _ _ _ x ?_ (by decide) rfl
      (setupHandler_eq M host { version := 1, action := 2 }) hx ?_
    · rw [h, beEnc_four]; simp
    · intro a
      rcases a with _ | request
      · exact handler_failWith _ _
      · exact handler_setupParsed hM host request
  · obtain ⟨cnt, rfl⟩ : ∃ cnt : BitVec 64, counter = cnt.toNat :=
      ⟨BitVec.ofNat 64 counter, by rw [BitVec.toNat_ofNat, Nat.mod_eq_of_lt hc]⟩
    refine key 0x13 { version := 1, action := 3 } _ _ _ _ _ ?_ (by decide) rfl
      (processHandler_eq M host { version := 1, action := 3 })
      (runI_parseProcessRequest _ flags id cnt body hl rest) ?_
    · rw [h, beEnc_eight, beEnc_eight]; simp
    · intro a
      rcases a with _ | request
      · exact handler_failWith _ _
      · exact handler_processParsed hM host request

/-- A setup request with a key that is not one, followed by a hello request: both are answered. -/
example : (serveConn Toy.crypto (inMemory _) 5000 (fun _ => ServeExample.answer)
    (.ok (str "10.0.0.1")) 2 (ServeExample.start
      ([0x12] ++ ServeExample.id.val ++ Wire.be32 3 ++ [0x11, 0x11, 0x11] ++ [0x11]))).2.conn.output =
    Wire.errorResponse 1 (str "failed to parse data of the request") ++ Wire.helloResponse := by
  decide +kernel

/-- A setup request that declares one octet too many: the first octet of its key is answered like a
hello request. -/
example : (serveConn Toy.crypto (inMemory _) 5000 (fun _ => ServeExample.answer)
    (.ok (str "10.0.0.1")) 2 (ServeExample.start
      ([0x12] ++ ServeExample.id.val ++ Wire.be32 65537 ++ [0x11]))).2.conn.output =
    Wire.errorResponse 1 (str "failed to parse data of the request") ++ Wire.helloResponse := by
  decide +kernel

/-! ## C57 -/

/-- Default read timeout in nanoseconds (server.go:109). -/
def readTimeout : Nat := 60000000000

/-- The claim: with the default timeouts, a hello request that arrives within the read timeout, on a
transport that accepts everything, is answered. -/
def C57_claim : Prop :=
  ∀ (C : Crypto) (M : Manager C) (ans : Nat → Answer C) (host : Except Err Bytes) (s : Seq)
    (rest : List (Byte ⊕ Err)), s.world.quit = false → s.conn.buffered = false →
    Delivers s.conn.input Wire.helloRequest rest →
    (∀ n, (ans n).write = (0, none)) → (ans (s.pos + 2)).tick < readTimeout →
    (serveConn C M defaultWriteTimeout ans host 1 s).2.conn.output =
      s.conn.output ++ Wire.helloResponse

/-- **C57** is false of the code: the write deadline is set before the request is awaited, so a
request that arrives more than five seconds later gets no answer. -/
theorem C57_late_request_unanswered : ¬ C57_claim := by
  intro h
  have := h Toy.crypto (inMemory _) (fun _ => { ServeExample.answer with tick := 6000000000 }) (.ok [])
    (ServeExample.start Wire.helloRequest) [] rfl rfl rfl (fun _ => rfl) (by decide)
  revert this
  decide +kernel

/-- **C57** within the write timeout: a hello request is answered if no more than the write timeout
passes between setting the deadlines and the response, the wait for the request included. -/
theorem C57_prompt_request_answered_partial (M : Manager C) (timeout : Nat) (ht : 0 < timeout)
    (ans : Nat → Answer C) (host : Except Err Bytes) (s : Seq) (rest : List (Byte ⊕ Err))
    (hquit : s.world.quit = false) (h : Delivers s.conn.input Wire.helloRequest rest)
    (hw : (ans (s.pos + 2)).write = (0, none)) (htick : (ans (s.pos + 2)).tick ≤ timeout) :
    ∃ s', serveConn C M timeout ans host 1 s = (.running, s') ∧
      s'.conn.output = s.conn.output ++ Wire.helloResponse ∧ flatten s'.conn.input = rest := by
  obtain ⟨evs, h1, h2⟩ := run_onConn_of_runI (C := C) timeout ans (s := s.ready timeout ans)
    (p := parseRequestCommon) (rest := rest) (by
      rw [show (s.ready timeout ans).conn.input = s.conn.input from rfl, h]
      exact runI_parseRequestCommon 0x11 rest)
  simp only [serveConn]
  rw [run_connPass timeout ans M host s hquit, serveRequest_eq, Prog.run_bind, h2]
  dsimp only
  rw [if_neg (by decide), show handle M host
      { version := ((0x11 : Byte) &&& 0xF0#8) >>> 4, action := (0x11 : Byte) &&& 0x0F#8 } =
      respondWith Wire.helloResponse from rfl, Prog.run_bind,
    run_respondWith timeout ans _ _ _ (run_write_ok timeout ans _ _ hw ?_)]
  · exact ⟨_, rfl, rfl, h1⟩
  · intro d hd
    simp only [Seq.ready, ht, if_true, Option.some.injEq] at hd
    subst hd
    exact Nat.add_le_add_left htick _

/-- A request four seconds after the deadlines were set is answered. -/
example : (serveConn Toy.crypto (inMemory _) defaultWriteTimeout
    (fun _ => { ServeExample.answer with tick := 4000000000 }) (.ok []) 1
    (ServeExample.start Wire.helloRequest)).2.conn.output = Wire.helloResponse := by decide +kernel

end Goe2ee
