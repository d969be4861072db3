import Verif.Props.Conversation
import Verif.Props.InStep
import Verif.Props.CutWrite

/-!
# C99: a session that the server has lost
-/

set_option autoImplicit false

namespace Goe2ee

section
variable {C : Crypto}

/-- **C99**: a client recovers when the server has dropped its session (because it was idle for too long).
The conditions are those of `C24_conversation`, except that the session was created at some time in the past,
and no other for the same host and id, instead of being stored now: the next message is handled and the reply
is read. -/
def C99_claim : Prop :=
  ∀ (C : Crypto) (env : CEnv C) (udp : Bool) (timeout : Nat) (ans : Nat → Answer C) (host : Bytes) (e : Ends)
    (session : ClientSession) (r : Ref) (window : ReplayWindow) (v : BitVec 64) (round : Round),
    C.Lawful → Used (C := C) e.client (e.conn, e.shared) → Reachable C e.server.world →
    -- the client
    env.writeDeadline = none → env.readDeadline = none → env.write = (0, none) →
    e.client.session = some session → e.client.buffer = [] → e.client.expectReply = true →
    e.shared.counters[session.sendCounter]? = some v → v.toNat + 1 < 2 ^ 64 →
    round.faithful → round.message.length + 16 ≤ 2 ^ 30 →
    -- the server
    .established r host session.id.val ∈ e.server.world.log →
    (∀ r', .established r' host session.id.val ∈ e.server.world.log → r' = r) →
    e.server.world.heap[r]? = some (session.secret, window) →
    (∀ c ∈ acceptedOf r e.server.world.log, c ≤ v.toNat) →
    e.server.world.quit = false → (timeout = 0 → e.server.conn.deadline = none) →
    (timeout = 0 → e.server.world.packetBy = none) → Healthy timeout ans [round] →
    ∃ written e', converse env udp timeout ans host [round] e = some ([(written, some .eof)], e') ∧
      handledFor r e'.server.world.log = handledFor r e.server.world.log ++ [(round.message, .reply written)]

/-- The server does not know the client's session (any more). -/
structure Lost (C : Crypto) (udp : Bool) (timeout : Nat) (host : Bytes)
    (session : ClientSession) (v : BitVec 64) (e : Ends) : Prop where
  has : e.client.session = some session
  buffer : e.client.buffer = []
  counter : e.shared.counters[session.sendCounter]? = some v
  gone : e.server.world.table (sessionKey C host session.id) = none
  open_ : udp = false → e.server.world.quit = false
  noDeadline : udp = false → timeout = 0 → e.server.conn.deadline = none
  noPacketDeadline : timeout = 0 → e.server.world.packetBy = none

/-- What the server answers. -/
def unknownClient : Bytes := Wire.errorResponse 3 (str "could not find a shared secret matching the given ID")

/-- The server refuses a message of an unknown client. -/
theorem serve_unknown (hC : C.Lawful) (timeout : Nat) (ans : Nat → Answer C) (host : Bytes)
    (s : Seq) (expectReply : Bool) (id : ID) (counter : BitVec 64) (ciphertext : Bytes)
    (hl : ciphertext.length ≤ 2 ^ 30)
    (h : flatten s.conn.input = (Wire.processRequest expectReply id.val counter.toNat ciphertext).map Sum.inl)
    (ht : s.world.table (sessionKey C host id) = none) (hw : (ans (s.pos + 1)).write = (0, none))
    (hd : ∀ d, s.conn.deadline = some d → s.world.now + (ans (s.pos + 1)).tick ≤ d) :
    ∃ evs now, (s.conn.buffered = true → now = s.world.now) ∧ (serveRequest (inMemory C) (.ok host)).run (seqI C timeout ans) s =
      (.val true, {
        conn := { s.conn with
          input := evs, output := s.conn.output ++ unknownClient,
          writes := s.conn.writes ++ [(unknownClient, unknownClient.length, none)] },
        world := { s.world with now := now },
        pos := s.pos + 2 }) := by
  obtain ⟨evs, -, h1⟩ := run_serveRequest hC timeout ans (inMemory C) (.ok host)
    (.process expectReply id counter ciphertext) hl s [] (by rw [List.append_nil]; exact h)
  refine ⟨evs, if s.conn.buffered then s.world.now else s.world.now + (ans (s.pos + 1)).tick,
    fun h => if_pos h, ?_⟩
  rw [h1, Prog.run_bind]
  dsimp only [afterParse]
  rw [run_process_unknown timeout ans host (parsedProcess expectReply id counter ciphertext)
    { s with conn := { s.conn with input := evs } } ht]
  have hwrite := run_write_ok timeout ans (errorBytes codeUnknownClient
    "could not find a shared secret matching the given ID")
    ⟨{ s.conn with input := evs }, s.world, s.pos + 1⟩ hw hd
  rw [run_failWith timeout ans _ _ _ _ hwrite, show errorBytes codeUnknownClient
    "could not find a shared secret matching the given ID" = unknownClient by decide +kernel]
  dsimp only
  cases s.conn.buffered <;> rfl

/-- What `Read` returns for such a response: the server's code and message. -/
def refusedError : Err :=
  .remote "failed to read data" 3 (str "could not find a shared secret matching the given ID")

/-- Reading the refusal. -/
theorem readAll_unknown {env : CEnv C} {c : Client} {ns : List Nat} {s : CConn} {w : CShared}
    (hd : env.readDeadline = none) (hb : c.buffer = []) (hns : ns ≠ [])
    (hstream : s.net.stream = unknownClient.map Sum.inl) :
    ∃ s', readAll env c (s, w) ns = some (([], some refusedError), c, (s', w)) := by
  cases ns with
  | nil => exact absurd rfl hns
  | cons n ns =>
    rw [← List.append_nil (List.map _ _), unknownClient, Wire.errorResponse] at hstream
    have h1 := (congrArg (runI parseResponseCommon) hstream).trans (runI_parseResponseCommon _ _)
    have h2 := congrArg (runI (parseErrorResponse ⟨((0x00#8 : Byte) >>> 7) == 1#8, ((0x00#8 : Byte) <<< 1) >>> 1⟩))
      (runNet_rest h1)
    have hrun : runClient env (c.read n) (s, w) = (.val (([], some refusedError), c),
        ({ s with net := (runNet (parseErrorResponse ⟨((0x00#8 : Byte) >>> 7) == 1#8, ((0x00#8 : Byte) <<< 1) >>> 1⟩)
          (runNet parseResponseCommon s.net).2).2 }, w)) := by
      rw [runClient, Client.read, run_readDeadline, hd, ite_self]
      dsimp only
      rw [if_neg (by simpa using hb), run_parse_eq _ _ h1]
      dsimp only
      rw [if_pos (by decide), run_parse_eq _ _ (h2.trans
        (runI_parseErrorResponse _ 3 (str "could not find a shared secret matching the given ID")
          (by decide +kernel) []))]
      rfl
    exact ⟨_, by rw [readAll, hrun]⟩

/-- One message to a server that has lost the session. -/
theorem exchange_lost (hC : C.Lawful) {env : CEnv C} {udp : Bool} {timeout : Nat}
    {ans : Nat → Answer C} {host : Bytes} {session : ClientSession} {v : BitVec 64} {e : Ends}
    (round : Round) (hl : Lost C udp timeout host session v e)
    (hwd : env.writeDeadline = none) (hrd : env.readDeadline = none) (hwr : env.write = (0, none))
    (hf : round.faithful) (hm : round.message.length + 16 ≤ 2 ^ 30) (hsizes : round.sizes ≠ [])
    (hans : ∀ p, (ans p).write = (0, none))
    (htime : 0 < timeout → ∀ i j, (ans i).tick + (ans j).tick ≤ timeout)
    (hv : v.toNat + 1 < 2 ^ 64) :
    ∃ e', exchange env udp timeout ans host round e =
        some (([], some refusedError), e') ∧
      Lost C udp timeout host session (v + 1) e' ∧ e'.server.world.log = e.server.world.log ∧
      e'.server.world.heap = e.server.world.heap ∧ e'.server.world.table = e.server.world.table := by
  obtain ⟨key, hk, -⟩ := newGCM_ok hC session.secret
  have hvn : (v + 1).toNat = v.toNat + 1 := by
    rw [BitVec.toNat_add]; exact Nat.mod_eq_of_lt (by simpa using hv)
  have hv0 : v + 1 ≠ 0 := by
    intro h
    rw [h] at hvn
    simp at hvn
  have hc : v + 1 = e.shared.counters.getD session.sendCounter 0 + 1 := by
    rw [List.getD_eq_getElem?_getD, hl.counter]; rfl
  have hcl : session.sendCounter < e.shared.counters.length :=
    (List.getElem?_eq_some_iff.mp hl.counter).1
  have hsl : (C.aeadSeal key (Wire.nonce12 0 (v + 1).toNat) round.message).length ≤ 2 ^ 30 := by
    rw [hC.seal_length]; exact hm
  have hreq : writeRequest C e.client session key (v + 1) round.message =
      Wire.processRequest e.client.expectReply session.id.val (v + 1).toNat
        (C.aeadSeal key (Wire.nonce12 0 (v + 1).toNat) round.message) := rfl
  generalize hQ : writeRequest C e.client session key (v + 1) round.message = request at hreq
  have hwrite := write_run (s := e.conn) (w := e.shared) (p := round.message) hC hwd hl.has hk (v + 1)
    hc hv0 (by omega)
  rw [hQ, hwr] at hwrite
  dsimp only at hwrite
  unfold exchange
  rw [runClient, hwrite]
  dsimp only
  rw [List.getLast?_concat]
  dsimp only
  rw [Nat.sub_zero, List.take_length]
  have hread := fun (conn : CConn) (shared : CShared) => readAll_unknown
    (c := { e.client with lastSentCounter := v + 1 }) (s := { conn with net := round.down unknownClient })
    (w := shared) hrd hl.buffer hsizes (hf.2 _)
  cases udp with
  | false =>
    obtain ⟨evs, now, hnow, hserve⟩ := serve_unknown hC timeout ans host
      (Seq.ready timeout ans { e.server with conn := { e.server.conn with input := round.up request } })
      e.client.expectReply session.id (v + 1) _ hsl (by rw [← hreq]; exact hf.1 request) hl.gone (hans _) (by
        intro d hd
        simp only [Seq.ready] at hd ⊢
        by_cases h0 : 0 < timeout
        · rw [if_pos h0] at hd
          cases hd
          have := htime h0 (e.server.pos + 2 + 1) (e.server.pos + 2 + 1)
          omega
        · rw [if_neg h0, hl.noDeadline rfl (by omega)] at hd
          cases hd)
    obtain ⟨s', hs'⟩ := hread { e.conn with
        net := e.conn.net.written, writes := e.conn.writes ++ [(request, request.length, none)] }
      { counters := e.shared.counters.set session.sendCounter (v + 1),
        sealed := e.shared.sealed ++ [(key, Wire.nonce12 0 (v + 1).toNat, round.message)] }
    rw [if_neg (by decide), answerTCP, run_connPass _ _ _ _ _ (show ({ e.server with conn :=
      { e.server.conn with input := round.up request } } : Seq).world.quit = false from hl.open_ rfl), hserve]
    dsimp only [Seq.ready]
    rw [List.drop_left, hs']
    refine ⟨_, rfl, ⟨hl.has, hl.buffer, ?_, ?_, ?_, ?_, ?_⟩, ?_, ?_, ?_⟩
    · exact List.getElem?_set_self hcl
    · exact hl.gone
    · intro _; exact hl.open_ rfl
    · intro _ h0
      dsimp only
      rw [if_neg (by omega)]
      exact hl.noDeadline rfl h0
    · intro h0
      refine Eq.trans (if_neg ?_) (hl.noPacketDeadline h0)
      omega
    all_goals rfl
  | true =>
    obtain ⟨evs, now, hnow, hserve⟩ := serve_unknown hC timeout ans host
      (Seq.packetReady timeout ans (.ok host) request e.server)
      e.client.expectReply session.id (v + 1) _ hsl
      (by rw [← hreq]; simp [Seq.packetReady, Conn.ofPeer, flatten]) hl.gone (hans _) (by
        intro d hd
        simp only [Seq.packetReady] at hd ⊢
        by_cases h0 : 0 < timeout
        · rw [if_pos h0] at hd
          cases hd
          have := htime h0 (e.server.pos + 1 + 1) (e.server.pos + 1 + 1)
          omega
        · rw [if_neg h0] at hd
          cases hd)
    obtain ⟨s', hs'⟩ := hread { e.conn with
        net := e.conn.net.written, writes := e.conn.writes ++ [(request, request.length, none)] }
      { counters := e.shared.counters.set session.sendCounter (v + 1),
        sealed := e.shared.sealed ++ [(key, Wire.nonce12 0 (v + 1).toNat, round.message)] }
    have hby : expired (Seq.packetReady timeout ans (.ok host) request e.server).world.packetBy
        ((Seq.packetReady timeout ans (.ok host) request e.server).world.now +
          (ans (e.server.pos + 1 + 2)).tick) = false := by
      simp only [Seq.packetReady, expired]
      by_cases h0 : 0 < timeout
      · rw [if_pos h0]
        have := htime h0 (e.server.pos + 1 + 2) (e.server.pos + 1 + 2)
        exact decide_eq_false (by omega)
      · rw [if_neg h0, hl.noPacketDeadline (by omega)]
    rw [if_pos rfl, answerUDP, run_packetBody, hserve]
    simp only [Prog.run, packetDeferred]
    rw [seqI_other _ _ _ id]
    simp only [exec, hans]
    rw [if_neg (by
      rintro (h | h | h)
      · simp [Seq.packetReady, Conn.ofPeer, Conn.none, unknownClient, Wire.errorResponse] at h
      · rw [hnow rfl] at h
        exact Bool.false_ne_true (hby.symm.trans h)
      · cases h)]
    simp only [Seq.packetReady, Conn.ofPeer, Conn.none, List.nil_append]
    rw [hs']
    refine ⟨_, rfl, ⟨hl.has, hl.buffer, ?_, ?_, ?_, ?_, ?_⟩, rfl, rfl, rfl⟩
    · exact List.getElem?_set_self hcl
    · exact hl.gone
    · intro h; cases h
    · intro h; cases h
    · intro h0
      refine Eq.trans (if_neg ?_) (hl.noPacketDeadline h0)
      omega

/-- **C99**, what is true instead: a client whose session the server has dropped never recovers.  However many
messages it writes, over TCP or UDP, every one is refused: the reads after it return only the error "failed to read
data", the handler is not called, and the server's sessions stay as they are (the client does not set up another
one). -/
theorem C99_dead (hC : C.Lawful) (env : CEnv C) (udp : Bool) (timeout : Nat)
    (ans : Nat → Answer C) (host : Bytes) (e : Ends) (session : ClientSession) (v : BitVec 64) (rounds : List Round)
    -- the client
    (hwd : env.writeDeadline = none) (hrd : env.readDeadline = none) (hwr : env.write = (0, none))
    (hsession : e.client.session = some session) (hbuf : e.client.buffer = [])
    (hcounter : e.shared.counters[session.sendCounter]? = some v)
    (hv : v.toNat + rounds.length < 2 ^ 64)
    (hf : ∀ round ∈ rounds, round.faithful ∧ round.message.length + 16 ≤ 2 ^ 30 ∧ round.sizes ≠ [])
    -- the server
    (ht : e.server.world.table (sessionKey C host session.id) = none)
    (hopen : udp = false → e.server.world.quit = false)
    (hdl : udp = false → timeout = 0 → e.server.conn.deadline = none)
    (hpdl : timeout = 0 → e.server.world.packetBy = none)
    (hans : ∀ p, (ans p).write = (0, none))
    (htime : 0 < timeout → ∀ i j, (ans i).tick + (ans j).tick ≤ timeout) :
    ∃ e', converse env udp timeout ans host rounds e =
        some (rounds.map fun _ => ([], some refusedError), e') ∧
      e'.server.world.log = e.server.world.log ∧ e'.server.world.heap = e.server.world.heap ∧
      e'.server.world.table = e.server.world.table ∧ e'.client.session = some session := by
  have hl : Lost C udp timeout host session v e := ⟨hsession, hbuf, hcounter, ht, hopen, hdl, hpdl⟩
  clear hsession hbuf hcounter ht hopen hdl hpdl
  induction rounds generalizing v e with
  | nil => exact ⟨e, rfl, rfl, rfl, rfl, hl.has⟩
  | cons round rounds ih =>
    obtain ⟨f1, f2, f3⟩ := hf round List.mem_cons_self
    simp only [List.length_cons] at hv
    obtain ⟨e₁, h1, h2, h3, h4, h5⟩ := exchange_lost hC round hl hwd hrd hwr f1 f2 f3 hans htime (by omega)
    obtain ⟨e', h6, h7, h8, h9, h10⟩ := ih e₁ (v + 1)
      (by rw [BitVec.toNat_add, show (1 : BitVec 64).toNat = 1 from rfl]; omega)
      (fun q hq => hf q (List.mem_cons_of_mem _ hq)) h2
    refine ⟨e', ?_, h7.trans h3, h8.trans h4, h9.trans h5, h10⟩
    rw [converse, h1]
    dsimp only
    rw [h6]
    rfl

/-- **C99** as far as it holds: a session that the server still stores, however long ago it was set up, works. -/
theorem C99_stored_partial (hC : C.Lawful) (env : CEnv C) (udp : Bool) (timeout : Nat)
    (ans : Nat → Answer C) (host : Bytes) (e : Ends) (hs : Reachable C e.server.world)
    (session : ClientSession) (r : Ref) (t : Nat) (window : ReplayWindow) (v : BitVec 64) (round : Round)
    (hwd : env.writeDeadline = none) (hrd : env.readDeadline = none) (hwr : env.write = (0, none))
    (hsession : e.client.session = some session) (hbuf : e.client.buffer = [])
    (hexpect : e.client.expectReply = true)
    (hcounter : e.shared.counters[session.sendCounter]? = some v)
    (hv : v.toNat + 1 < 2 ^ 64)
    (hf : round.faithful) (hm : round.message.length + 16 ≤ 2 ^ 30)
    (ht : e.server.world.table (sessionKey C host session.id) = some (r, t))
    (hh : e.server.world.heap[r]? = some (session.secret, window))
    (hacc : ∀ c ∈ acceptedOf r e.server.world.log, c ≤ v.toNat)
    (hopen : e.server.world.quit = false) (hdl : timeout = 0 → e.server.conn.deadline = none)
    (hpdl : timeout = 0 → e.server.world.packetBy = none)
    (hans : Healthy timeout ans [round]) :
    ∃ written e', converse env udp timeout ans host [round] e = some ([(written, some .eof)], e') ∧
      handledFor r e'.server.world.log = handledFor r e.server.world.log ++ [(round.message, .reply written)] := by
  obtain ⟨replies, e', h1, h2, h3⟩ := C24_conversation hC env udp timeout ans host e hs session r t window v [round]
    hwd hrd hwr hsession hbuf hexpect hcounter (by simpa using hv)
    (by intro q hq; rw [List.mem_singleton] at hq; subst hq; exact ⟨hf, hm⟩)
    ht hh hacc (fun _ => hopen) (fun _ => hdl) hpdl hans
  match replies, h2 with
  | [written], _ => exact ⟨written, e', h1, by simpa using h3⟩

end

namespace LostExample
open HandshakeExample

/-- A visit of the collector, `idle` units of time later. -/
def visit (idle : Nat) : Nat × Answer Toy.crypto :=
  (2, { OnceExample.answer (.error .eof) with
    key := sessionKey Toy.crypto (str "10.0.0.1") (uuidOf ⟨List.replicate 16 1, rfl⟩), tick := idle })

/-- A server that keeps idle sessions for 10 units of time, after the handshake with the client of
`HandshakeExample` and visits of the collector. -/
def world (idle : Nat) : World :=
  (Sys.run (inMemory Toy.crypto) 5000 (Sys.start 10 0)
    (List.replicate 4 (0, OnceExample.answer (.ok (.tcp (.ok (str "10.0.0.1"))
      [.data (Wire.setupRequest (uuidOf ⟨List.replicate 16 1, rfl⟩).val
        (Toy.crypto.marshalEPub (5 : BitVec 256)))]))) ++
     List.replicate 20 (3, OnceExample.answer (.error .eof)) ++ List.replicate 5 (visit idle))).world

theorem reachable (idle : Nat) : Reachable Toy.crypto (world idle) := ⟨_, _, _, _, rfl⟩

/-- The session is collected after 50 units of time, not after 1. -/
example : ([1, 50].map fun idle => (world idle).table
    (sessionKey Toy.crypto (str "10.0.0.1") (uuidOf ⟨List.replicate 16 1, rfl⟩))) = [some (0, 2), none] := by
  decide +kernel

def round : Round :=
  { message := str "ping", up := fun bs => [.data bs], down := fun bs => .tcp [.data bs], sizes := [10] }

def ends (idle : Nat) (c : Client) (s : CConn × CShared) : Ends :=
  { client := c, conn := s.1, shared := s.2, server := SessionExample.start (world idle) [] }

theorem ends_world (idle : Nat) (c : Client) (s : CConn × CShared) : (ends idle c s).server.world = world idle := rfl

/-- Client and server after the handshake, the client has sent nothing. -/
def linked (c : Client) (s : CConn × CShared) : Bool :=
  CutWriteExample.linked c s && c.buffer.isEmpty && c.expectReply

/-- What the client reads after its next two messages. -/
def reads (idle : Nat) (c : Client) (s : CConn × CShared) : Option (List (Bytes × Option Err)) :=
  (converse env false 5000 SessionExample.env (str "10.0.0.1") [round, round] (ends idle c s)).map (·.1)

end LostExample

/-- After a short pause the client gets its replies, after a long one only errors. -/
example : ClientExample.afterDial HandshakeExample.env (fun c s => LostExample.linked c s &&
    (LostExample.reads 1 c s == some [(str "pong", some .eof), (str "pong", some .eof)]) &&
    (LostExample.reads 50 c s ==
      some [([], some refusedError), ([], some refusedError)]))
    (HandshakeExample.start (.tcp [.data (HandshakeExample.answer 4)])) [] = true := by decide +kernel

/-- **C99 is refuted**: the session was idle for too long. -/
theorem C99_refuted : ¬ C99_claim := by
  intro h
  obtain ⟨c, s, hu, hP⟩ := ClientExample.used_dial (env := HandshakeExample.env) (udp := false)
    (P := LostExample.linked)
    (s := HandshakeExample.start (.tcp [.data (HandshakeExample.answer 4)])) (calls := []) (by decide +kernel)
  simp only [LostExample.linked, CutWriteExample.linked, Bool.and_eq_true, List.isEmpty_iff] at hP
  obtain ⟨⟨hl, hbuf⟩, hexpect⟩ := hP
  split at hl
  · rename_i session hs
    simp only [Bool.and_eq_true, beq_iff_eq] at hl
    obtain ⟨⟨hsec, hcnt⟩, hid⟩ := hl
    have hid : session.id = uuidOf ⟨List.replicate 16 1, rfl⟩ := Subtype.ext hid
    have hf : LostExample.round.faithful := by
      constructor
      · intro bs; simp [LostExample.round, flatten]
      · intro bs; simp [LostExample.round, Transport.stream, flatten]
    obtain ⟨written, e', h1, -⟩ := h Toy.crypto HandshakeExample.env false 5000 SessionExample.env (str "10.0.0.1")
      (LostExample.ends 50 c s) session 0 .fresh 0 LostExample.round Toy.lawful hu (LostExample.reachable 50)
      rfl rfl rfl hs hbuf hexpect hcnt (by decide) hf (by decide +kernel)
      (by rw [hid, LostExample.ends_world]; decide +kernel)
      (by
        intro r' hr'
        rw [hid, LostExample.ends_world] at hr'
        have : (LostExample.world 50).log = [.established 0 (str "10.0.0.1") (uuidOf ⟨List.replicate 16 1, rfl⟩).val] := by
          decide +kernel
        rw [this, List.mem_singleton] at hr'
        exact (Event.established.inj hr').1)
      (by rw [hsec, LostExample.ends_world]; decide +kernel)
      (by rw [LostExample.ends_world]; decide +kernel)
      (by rw [LostExample.ends_world]; decide +kernel) (fun h => absurd h (by decide))
      (fun h => absurd h (by decide))
      ⟨fun q hq p => by
        rw [List.mem_singleton] at hq
        subst hq
        exact ⟨rfl, str "pong", rfl, by decide +kernel, by decide +kernel, by decide +kernel⟩,
       fun _ _ _ => show 1 + 1 ≤ 5000 by decide⟩
    obtain ⟨e'', h2, -⟩ := C99_dead Toy.lawful HandshakeExample.env false 5000 SessionExample.env (str "10.0.0.1")
      (LostExample.ends 50 c s) session 0 [LostExample.round] rfl rfl rfl hs hbuf hcnt (by decide)
      (by
        intro q hq
        rw [List.mem_singleton] at hq
        subst hq
        exact ⟨hf, by decide +kernel, by decide⟩)
      (by rw [hid, LostExample.ends_world]; decide +kernel)
      (fun _ => by rw [LostExample.ends_world]; decide +kernel)
      (fun _ h => absurd h (by decide)) (fun h => absurd h (by decide)) (fun _ => rfl)
      (fun _ _ _ => show 1 + 1 ≤ 5000 by decide)
    rw [h1] at h2
    have := (Prod.mk.inj (Option.some.inj h2)).1
    simp [refusedError] at this
  · cases hl

end Goe2ee
