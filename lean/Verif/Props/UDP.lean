import Verif.Proofs.UDP
import Verif.Proofs.UDPClient
import Verif.Spec.UDP
import Verif.Props.Client
import Verif.Props.Once

/-!
# C48–C50, C60: datagrams and sockets
-/

set_option autoImplicit false

namespace Goe2ee

/-! ## C48 -/

section
variable {C : Crypto}

/-- **C48**, the server: under every schedule, whatever the clients send and the application does, a
goroutine that serves a datagram has one of the received datagrams; what it has not parsed yet is the
end of that datagram; and it has sent nothing, or one datagram with everything it wrote. -/
theorem C48_one_answer {M : Manager C} (hM : M.Passive) (timeout ttl closers : Nat)
    (acts : List (Nat × Answer C)) (t : Thread C)
    (ht : t ∈ (Sys.run M timeout (Sys.start ttl closers) acts).threads)
    (hudp : t.conn.buffered = true) :
    (∃ act ∈ acts, ∃ host datagram, act.2.peer = .ok (.udp host datagram) ∧
      flatten t.conn.input <:+ datagram.map Sum.inl) ∧
    (t.conn.sent = [] ∨
      t.conn.sent = [(t.conn.writes.map (·.1)).flatten] ∧ (t.conn.writes.map (·.1)).flatten ≠ []) := by
  have h := (udp_keeps hM (fun p => ∃ act ∈ acts, act.2.peer = .ok p) timeout).run acts
    (fun act hact p hp => ⟨act, hact, hp⟩) (Sys.start ttl closers) rfl (udp_start _ ttl closers) t ht
  obtain ⟨g, -, -, h⟩ := h
  obtain ⟨host, d, ⟨act, h1, h2⟩, h3, h4⟩ := h hudp
  exact ⟨⟨act, h1, host, d, h2, h3⟩, h4.imp (·.1) (·.2)⟩

end

theorem use_received (c : UDPConn) (preconnected : Bool) (queue : List (Except Err Datagram))
    (calls : List UCall) (hr : c.connRead = true) (hw : c.writeBuffered = true) :
    (∃ rest, c.readBuffer = ((c.use preconnected queue calls).reads.map (·.1)).flatten ++ rest ∧
      (c.use preconnected queue calls).conn = { c with
        readBuffer := rest, writeBuffer := c.writeBuffer ++ UCall.written calls }) ∧
    (c.use preconnected queue calls).queue = queue ∧ (c.use preconnected queue calls).sent = [] := by
  induction calls generalizing c with
  | nil => exact ⟨⟨c.readBuffer, by simp [UDPConn.use], by simp [UDPConn.use, UCall.written]⟩, rfl, rfl⟩
  | cons call calls ih =>
    cases call with
    | read k =>
      have hread : c.read queue k = ((bufferRead c.readBuffer k).1,
          { c with readBuffer := (bufferRead c.readBuffer k).2 }, queue) := by
        rw [UDPConn.read]; simp [hr]
      have hsplit : c.readBuffer = (bufferRead c.readBuffer k).1.1 ++ (bufferRead c.readBuffer k).2 := by
        rw [bufferRead]
        split
        · rename_i h; simp [h]
        · simp
      obtain ⟨⟨rest, h1, h2⟩, h3, h4⟩ := ih { c with readBuffer := (bufferRead c.readBuffer k).2 } hr hw
      simp only [UDPConn.use, hread, UCall.written]
      refine ⟨⟨rest, ?_, ?_⟩, h3, h4⟩
      · refine hsplit.trans ?_
        simp only [List.map_cons, List.flatten_cons, List.append_assoc]
        exact congrArg _ h1
      · rw [h2]
    | write p answer =>
      have hwrite : c.write preconnected answer p =
          ((p.length, none), [], { c with writeBuffer := c.writeBuffer ++ p }) := by
        rw [UDPConn.write, if_pos hw]
      obtain ⟨⟨rest, h1, h2⟩, h3, h4⟩ := ih { c with writeBuffer := c.writeBuffer ++ p } hr hw
      simp only [UDPConn.use, hwrite, UCall.written]
      exact ⟨⟨rest, h1, by rw [h2]; simp⟩, h3, h4⟩

theorem close_sent (c : UDPConn) (answer : Nat × Option Err) :
    (c.close answer).2.1 = if c.writeBuffer = [] then [] else [⟨c.writeBuffer, c.addr⟩] := by
  rw [UDPConn.close]
  split
  · rfl
  · rcases answer with ⟨n, _ | e⟩
    · dsimp only; split <;> rfl
    · rfl

/-- **C48**, the connection type: a `UDPConn` made by the server and holding a packet.  Whatever is
read and written, and whatever else arrives at the socket: the octets read are the packet's, in
order; no other packet is taken from the socket; nothing is sent before `Close`, and `Close` sends
what was written as one packet to the address the packet came from, or nothing if nothing was
written. -/
theorem C48_answers_sender (preconnected : Bool) (d : Datagram) (queue : List (Except Err Datagram))
    (calls : List UCall) (answer : Nat × Option Err) (c : UDPConn) (queue' : List (Except Err Datagram))
    (hc : (newUDPConn true).receive (.ok d :: queue) = (none, c, queue')) :
    let u := c.use preconnected queue' calls
    queue' = queue ∧ u.queue = queue ∧ (u.reads.map (·.1)).flatten <+: d.payload ∧ u.sent = [] ∧
    (u.conn.close answer).2.1 =
      if UCall.written calls = [] then [] else [⟨UCall.written calls, some d.source⟩] := by
  cases hc
  obtain ⟨⟨rest, h1, h2⟩, h3, h4⟩ := use_received
    { newUDPConn true with addr := some d.source, readBuffer := d.payload, connRead := true }
    preconnected queue calls rfl rfl
  refine ⟨rfl, h3, ⟨rest, h1.symm⟩, h4, ?_⟩
  rw [h2]
  exact close_sent _ answer

/-- **C48.** `Close` succeeds exactly when the socket accepted the whole packet (or there is nothing to
send), and after a successful `Close` another one sends nothing. -/
theorem C48_close_result (c : UDPConn) (answer answer' : Nat × Option Err) :
    ((c.close answer).1 = none ↔ c.writeBuffer = [] ∨ answer = (c.writeBuffer.length, none)) ∧
    ((c.close answer).1 = none → ((c.close answer).2.2.close answer').2.1 = []) := by
  by_cases hb : c.writeBuffer = []
  · have h : c.close answer = (none, [], c) := if_pos hb
    rw [h]
    exact ⟨⟨fun _ => .inl hb, fun _ => rfl⟩, fun _ => by rw [close_sent, if_pos hb]⟩
  rcases answer with ⟨n, _ | e⟩
  · by_cases hn : n = c.writeBuffer.length
    · have h : c.close (n, none) = (none, [⟨c.writeBuffer, c.addr⟩],
          { c with connRead := false, writeBuffer := [] }) := by
        rw [UDPConn.close, if_neg hb]; dsimp only; rw [if_neg (by simp [hn])]
      rw [h]
      exact ⟨⟨fun _ => .inr (by rw [hn]), fun _ => rfl⟩, fun _ => by rw [close_sent, if_pos rfl]⟩
    · have h : (c.close (n, none)).1 = some .shortWrite := by
        rw [UDPConn.close, if_neg hb]; dsimp only; rw [if_pos hn]
      rw [h]
      exact ⟨⟨(fun h => by cases h), fun h => by
        rcases h with h | h
        · exact absurd h hb
        · cases h; exact absurd rfl hn⟩, (fun h => by cases h)⟩
  · have h : (c.close (n, some e)).1 = some e := by rw [UDPConn.close, if_neg hb]
    rw [h]
    exact ⟨⟨(fun h => by cases h), fun h => by
      rcases h with h | h
      · exact absurd h hb
      · cases h⟩, (fun h => by cases h)⟩

/-- **C48.** Without buffering, every write after a packet was received is one packet at once: to the
address the packet came from, or over the socket's own connection if it has one. -/
theorem C48_unbuffered (preconnected : Bool) (d : Datagram) (queue queue' : List (Except Err Datagram))
    (c : UDPConn) (answer : Nat × Option Err) (p : Bytes)
    (hc : (newUDPConn false).receive (.ok d :: queue) = (none, c, queue')) :
    (c.write preconnected answer p).1 = answer ∧
    (c.write preconnected answer p).2.1 = [⟨p, if preconnected then none else some d.source⟩] := by
  cases hc
  cases preconnected <;> exact ⟨rfl, rfl⟩

/-- The second `Close` sends nothing; a short send is an error; an unbuffered answer goes to the sender. -/
example :
    let d : Datagram := ⟨str "ping", str "10.0.0.1:9"⟩
    let c := ((newUDPConn true).receive [.ok d]).2.1
    let w := (c.write false (0, none) (str "pong")).2.2
    (w.close (4, none)).2.1.length = 1 ∧ ((w.close (4, none)).2.2.close (4, none)).2.1 = [] ∧
    (w.close (3, none)).1 = some .shortWrite ∧
    (((newUDPConn false).receive [.ok d]).2.1.write false (4, none) (str "pong")).2.1 =
      [⟨str "pong", some (str "10.0.0.1:9")⟩] := by decide +kernel

/-- A packet of four octets is read in two steps, two replies are written and sent as one packet. -/
example :
    let d : Datagram := ⟨str "ping", str "10.0.0.1:9"⟩
    let r := (newUDPConn true).receive [.ok d, .ok ⟨str "other", str "10.0.0.2:9"⟩]
    let u := r.2.1.use false r.2.2 [.read 3, .write (str "po") (0, none), .read 9,
      .write (str "ng") (0, none), .read 9]
    r.1 = none ∧ u.reads = [(str "pin", none), (str "g", none), ([], some .eof)] ∧
    (u.conn.close (4, none)).1 = none ∧
    (u.conn.close (4, none)).2.1 = [⟨str "pong", some (str "10.0.0.1:9")⟩] := by decide +kernel

/-- In this schedule the goroutine for the datagram has sent one answer. -/
example : ((Sys.run (inMemory Toy.crypto) 5000 (Sys.start 0 0) OnceExample.schedule).threads.map
    fun t => (t.conn.buffered, t.conn.sent.length)) = [(false, 0), (false, 0), (false, 0), (true, 1)] := by
  decide +kernel

/-- The connection of the server's model is such a `UDPConn`. -/
def Conn.Is (c : Conn) (u : UDPConn) : Prop :=
  c.buffered = true ∧ u.connRead = true ∧ u.writeBuffered = true ∧ u.writeBuffer = c.output ∧
  (c.input = [.data u.readBuffer] ∨ c.input = [] ∧ u.readBuffer = [])

/-- The server's model of a datagram's connection reads, writes and closes like `UDPConn`. -/
theorem C48_model_is_udpconn {C : Crypto} (c : Conn) (u : UDPConn) (h : c.Is u)
    (queue : List (Except Err Datagram)) :
    (∀ k, 0 < k → (readEv c.input k).1 = (u.read queue k).1 ∧
      ({ c with input := (readEv c.input k).2 } : Conn).Is (u.read queue k).2.1) ∧
    (∀ (a : Answer C) (p : Bytes) (w : World) (preconnected : Bool),
      (execWrite C a p c w).1 = (u.write preconnected a.write p).1 ∧
      (execWrite C a p c w).2.1.Is (u.write preconnected a.write p).2.2) ∧
    (∀ (timeout : Nat) (a : Answer C) (w : World), a.write.2 = none →
      expired w.packetBy (w.now + a.tick) = false →
      (exec C timeout a .flush (c, w)).2.1.sent =
        c.sent ++ (u.close (c.output.length, a.write.2)).2.1.map (·.payload)) := by
  obtain ⟨hb, hr, hwb, ho, hi⟩ := h
  refine ⟨fun k hk => ?_, fun a p w pre => ?_, fun timeout a w ha he => ?_⟩
  · have hread : u.read queue k = ((bufferRead u.readBuffer k).1,
        { u with readBuffer := (bufferRead u.readBuffer k).2 }, queue) := by
      rw [UDPConn.read]; simp [hr]
    rw [hread]
    rcases hi with hi | ⟨hi, hnil⟩
    · rw [hi]
      cases hbuf : u.readBuffer with
      | nil =>
        rw [bufferRead, if_pos rfl]
        refine ⟨?_, hb, hr, hwb, ho, .inr ⟨rfl, rfl⟩⟩
        simp only [readEv]
        rw [if_neg (by omega)]
      | cons b bs =>
        rw [bufferRead, if_neg (by simp)]
        refine ⟨rfl, hb, hr, hwb, ho, ?_⟩
        simp only [readEv]
        split
        · rename_i hle
          exact .inr ⟨rfl, List.drop_eq_nil_iff.mpr hle⟩
        · exact .inl rfl
    · rw [hi, hnil, bufferRead, if_pos rfl]
      refine ⟨?_, hb, hr, hwb, ho, .inr ⟨rfl, rfl⟩⟩
      simp only [readEv]
      rw [if_neg (by omega)]
  · rw [UDPConn.write, if_pos hwb, execWrite]
    simp only [hb, if_true]
    exact ⟨trivial, rfl, hr, hwb, by simp [ho], hi⟩
  · simp only [exec, UDPConn.close, ho, ha]
    by_cases hc : c.output = []
    · rw [if_pos (.inl hc), if_pos hc]; simp
    · rw [if_neg (by simp [hc, he]), if_neg hc]; simp

/-! ## C49 -/

/-- The socket of a UDP client in terms of its `UDPConn`. -/
def UDPConn.transport (u : UDPConn) (queue : List (Except Err Datagram)) : Transport :=
  .udp u.connRead u.readBuffer (queue.map fun
    | .ok d => .ok d.payload
    | .error e => .error e)

/-- A client's `UDPConn`: writes are not buffered (client.go:216). -/
def UDPConn.IsClient (u : UDPConn) : Prop := u.writeBuffered = false ∧ u.writeBuffer = []

/-- The client's model of a UDP socket reads, writes and closes like `UDPConn`: a write sends its
octets as one packet and returns what the socket answers, and closing does nothing. -/
theorem C49_model_is_udpconn (u : UDPConn) (h : u.IsClient) (queue : List (Except Err Datagram)) :
    (newUDPConn false).IsClient ∧
    (∀ k, 0 < k → readNet (u.transport queue) k =
      ((u.read queue k).1, (u.read queue k).2.1.transport (u.read queue k).2.2) ∧
      (u.read queue k).2.1.IsClient) ∧
    (∀ answer p, u.write true answer p = (answer, [⟨p, none⟩], { u with connRead := false }) ∧
      ({ u with connRead := false } : UDPConn).transport queue = (u.transport queue).written) ∧
    (∀ answer, u.close answer = (none, [], u)) := by
  refine ⟨⟨rfl, rfl⟩, fun k hk => ?_, fun answer p => ⟨?_, rfl⟩, fun answer => ?_⟩
  · have hbuf : ∀ (b : Bytes) (q : List (Except Err Bytes)),
        readDatagram b q k = ((bufferRead b k).1, .udp true (bufferRead b k).2 q) := by
      intro b q
      rw [readDatagram, bufferRead]
      by_cases hb : b = []
      · rw [if_pos hb, if_pos hb, if_neg (by omega)]
      · rw [if_neg hb, if_neg hb]
    rw [UDPConn.read, UDPConn.transport]
    cases hr : u.connRead with
    | true => simp only [readNet, hbuf, UDPConn.transport]; simp [hr, h.1, h.2, UDPConn.IsClient]
    | false =>
      match queue with
      | [] => simp [readNet, UDPConn.receive, UDPConn.transport, UDPConn.IsClient, h.1, h.2, hr]
      | .error e :: q =>
        simp [readNet, UDPConn.receive, UDPConn.transport, UDPConn.IsClient, h.1, h.2, hr]
      | .ok d :: q =>
        simp [readNet, hbuf, UDPConn.receive, UDPConn.transport, UDPConn.IsClient, h.1, h.2]
  · rw [UDPConn.write, h.1]; rfl
  · rw [UDPConn.close, if_pos h.2]

section
variable {C : Crypto}

/-- A UDP client has sent a request, and the socket delivers the reply to another request and then
the genuine reply.  Then some sequence of reads gets data. -/
def C49_claim : Prop :=
  ∀ (C : Crypto) (c : Client) (s : CConn × CShared) (session : ClientSession)
    (key message ct rb : Bytes) (counter : BitVec 64),
    C.Lawful → Used (C := C) c s → c.buffer = [] → c.session = some session →
    deriveKey C session.secret kdfInfo aesKeySize = .ok key → message ≠ [] →
    message.length + 16 ≤ 2 ^ 30 → ct.length ≤ 2 ^ 30 → counter ≠ c.lastSentCounter →
    s.1.net = .udp false rb [.ok (Wire.processResponse counter.toNat ct),
      .ok (Wire.processResponse c.lastSentCounter.toNat
        (C.aeadSeal key (Wire.nonce12 1 c.lastSentCounter.toNat) message))] →
    ∃ ns rs c' s', Reads (C := C) c s ns rs c' s' ∧ ∃ r ∈ rs, r.1 ≠ []

theorem reads_drained {c c' : Client} {s s' : CConn × CShared} {ns : List Nat}
    {rs : List (Bytes × Option Err)} {queue : List (Except Err Bytes)}
    (h : Reads (C := C) c s ns rs c' s') (hb : c.buffer = []) (hnet : s.1.net = .udp true [] queue) :
    (∀ r ∈ rs, r.1 = [] ∧ ∃ e, r.2 = some e) ∧ c' = c ∧ s' = s := by
  induction h with
  | done c s => simp
  | @call env c c₁ c₂ s s₁ s₂ n ns r rs hd hr hrest ih =>
    obtain ⟨e, he⟩ := read_drained (n := n) (s := s.1) (w := s.2) hd hb hnet
    rw [runClient, he] at hr
    cases hr
    obtain ⟨h1, h2, h3⟩ := ih hb hnet
    refine ⟨?_, h2, h3⟩
    intro r hr
    rcases List.mem_cons.mp hr with rfl | hr
    · exact ⟨rfl, e, rfl⟩
    · exact h1 r hr

/-- **C49** is false: after the reply to another request (a duplicate or a late one), every `Read`
fails until the next `Write`, whatever else the socket holds, and however often it is called. -/
theorem C49_stale_blocks {c c' : Client} {s s' : CConn × CShared} {ns : List Nat}
    {rs : List (Bytes × Option Err)} {ct rb : Bytes} {queue : List (Except Err Bytes)}
    {counter : BitVec 64} (h : Reads (C := C) c s ns rs c' s') (hns : ns ≠ []) (hb : c.buffer = [])
    (hl : ct.length ≤ 2 ^ 30) (hne : counter ≠ c.lastSentCounter)
    (hnet : s.1.net = .udp false rb (.ok (Wire.processResponse counter.toNat ct) :: queue)) :
    (∀ r ∈ rs, r.1 = [] ∧ ∃ e, r.2 = some e) ∧ c' = c ∧
      s' = ({ s.1 with net := .udp true [] queue }, s.2) := by
  cases h with
  | done => exact absurd rfl hns
  | @call env _ c₁ _ _ s₁ _ n ns r rs hd hr hrest =>
    rw [runClient, read_stale (s := s.1) (w := s.2) hd hb hl hne hnet] at hr
    cases hr
    obtain ⟨h1, h2, h3⟩ := reads_drained hrest hb rfl
    refine ⟨?_, h2, h3⟩
    intro r hr
    rcases List.mem_cons.mp hr with rfl | hr
    · exact ⟨rfl, _, rfl⟩
    · exact h1 r hr

/-- **C49** is false for good: a UDP client that alone uses its session was sent one datagram too
many, so that the genuine reply to its latest request is still in the socket.  Then no reply is ever
read, although the server answers every request and no datagram is lost: in every later round of a
`Write` and any number of reads, all reads fail. -/
theorem C49_never_recovers (hC : C.Lawful) {c c' : Client} {s s' : CConn × CShared}
    {rss : List (List (Bytes × Option Err))} {session : ClientSession} {cts : List Bytes}
    (h : Rounds (C := C) c s rss c' s') (hb : c.buffer = []) (hs : c.session = some session)
    (hcounter : s.2.counters[session.sendCounter]? = some c.lastSentCounter)
    (hcts : ∀ ct ∈ cts, ct.length ≤ 2 ^ 30) (hlen : rss.length ≤ cts.length)
    (hnet : ∃ b rb, s.1.net = .udp b rb (cts.mapIdx fun i ct =>
      .ok (Wire.processResponse (c.lastSentCounter + BitVec.ofNat 64 i).toNat ct))) :
    ∀ rs ∈ rss, ∀ r ∈ rs, r.1 = [] ∧ ∃ e, r.2 = some e := by
  induction h generalizing cts with
  | done c s => simp
  | @round env c c₁ c₂ c₃ s s₁ s₂ s₃ p n ns rs rss hp hw hns hr hrest ih =>
    obtain ⟨session', key, counter, h1, h2, h3, h4, h5, h6, h7, h8, h9⟩ :=
      write_ok (s := s.1) (w := s.2) (s' := s₁.1) (w' := s₁.2) hC hp hw
    rw [hs] at h1
    cases h1
    have hcount : counter = c.lastSentCounter + 1 := by
      rw [h3, List.getD_eq_getElem?_getD, hcounter]; rfl
    obtain ⟨b, rb, hnet⟩ := hnet
    cases cts with
    | nil => simp at hlen
    | cons ct cts =>
      have hnet₁ : s₁.1.net = .udp false rb (.ok (Wire.processResponse c.lastSentCounter.toNat ct) ::
          (cts.mapIdx fun i ct => .ok (Wire.processResponse
            (c₁.lastSentCounter + BitVec.ofNat 64 i).toNat ct))) := by
        rw [h8, hnet, List.mapIdx_cons, h7, hcount]
        simp only [Transport.written, BitVec.ofNat_eq_ofNat, BitVec.add_zero]
        congr 2
        refine List.mapIdx_eq_mapIdx_iff.mpr fun i hi => ?_
        rw [BitVec.add_assoc]
        congr 4
        apply BitVec.eq_of_toNat_eq
        simp [Nat.add_comm]
      have hne : c.lastSentCounter ≠ c₁.lastSentCounter := by
        rw [h7, hcount]
        intro h
        have := congrArg BitVec.toNat h
        rw [BitVec.toNat_add] at this
        have := c.lastSentCounter.isLt
        simp at *
      have hb₁ : c₁.buffer = [] := by rw [h7]; exact hb
      obtain ⟨g1, rfl, rfl⟩ := C49_stale_blocks hr hns hb₁ (hcts ct (by simp)) hne hnet₁
      have := ih (cts := cts) hb₁ (by rw [h7]; exact hs) (by
          rw [h9, h7]
          simp only
          rw [List.getElem?_set_self (List.getElem?_eq_some_iff.mp hcounter).1])
        (fun ct hct => hcts ct (by simp [hct])) (by simpa using hlen) ⟨true, [], rfl⟩
      intro rs' hrs'
      rcases List.mem_cons.mp hrs' with rfl | hrs'
      · exact g1
      · exact this rs' hrs'

/-- **C49**, what holds: if the next datagram that is received is the genuine reply, it is read,
whatever follows it in the socket, and however many attempts to receive failed before (for instance
because the deadline expired).  Missing: any other datagram in between. -/
theorem C49_next_datagram_partial (hC : C.Lawful) (c : Client) (s : CConn × CShared)
    (session : ClientSession) (key message rb : Bytes) (errs : List Err)
    (queue : List (Except Err Bytes)) (ns : List Nat) (n : Nat) (hb : c.buffer = [])
    (hs : c.session = some session) (hk : deriveKey C session.secret kdfInfo aesKeySize = .ok key)
    (hl : message.length + 16 ≤ 2 ^ 30) (hns : ns.length = errs.length) (hm : message ≠ [])
    (hnet : s.1.net = .udp false rb (errs.map .error ++
      .ok (Wire.processResponse c.lastSentCounter.toNat
        (C.aeadSeal key (Wire.nonce12 1 c.lastSentCounter.toNat) message)) :: queue))
    (c' : Client) (s' : CConn × CShared) (rs : List (Bytes × Option Err))
    (h : Reads (C := C) c s (ns ++ [n]) rs c' s') :
    rs.map (·.1) = List.replicate errs.length [] ++ [message.take n] ∧ c'.buffer = message.drop n := by
  induction errs generalizing s ns rs with
  | nil =>
    cases ns with
    | cons => simp at hns
    | nil =>
    simp only [List.map_nil, List.nil_append] at hnet h
    cases h with
    | @call env _ c₁ _ _ s₁ _ n ns r rs hd hr hrest =>
    cases hrest
    obtain ⟨t, -, hrun⟩ := read_accepts (n := n) (s := s.1) (w := s.2) (rest := []) hC hd hb hs hk
      (by rw [hC.seal_length]; exact hl) (by rw [hnet, List.append_nil]; rfl) (hC.open_seal _ _ _)
    rw [runClient, hrun, readBuffer, if_neg (fun h => hm h.1)] at hr
    cases hr
    exact ⟨rfl, rfl⟩
  | cons e errs ih =>
    cases ns with
    | nil => simp at hns
    | cons m ns =>
    rw [List.cons_append] at h
    cases h with
    | @call env _ c₁ _ _ s₁ _ _ _ r rs hd hr hrest =>
    obtain ⟨e', he⟩ := read_unreceived (n := m) (s := s.1) (w := s.2) hd hb
      (by rw [hnet, List.map_cons, List.cons_append])
    rw [runClient, he] at hr
    cases hr
    obtain ⟨h1, h2⟩ := ih _ ns (by simpa using hns) rfl _ hrest
    refine ⟨?_, h2⟩
    rw [List.map_cons, h1, List.length_cons, List.replicate_succ, List.cons_append]

end

namespace UDPExample
open HandshakeExample ClientExample

/-- The socket: the handshake, the reply to the first request, a copy of it, the second reply. -/
def net : CConn × CShared :=
  start (.udp false [] [.ok (answer 4), .ok (reply 1 (str "pong")), .ok (reply 1 (str "pong")),
    .ok (reply 2 (str "pong"))])

/-- Two requests were sent, the first reply was read. -/
def calls : List CCall := [.write (str "ping"), .read 10, .write (str "ping")]

/-- A client waiting for the second reply, with the copy of the first before it. -/
def waiting (c : Client) (s : CConn × CShared) : Bool :=
  c.buffer.isEmpty && (c.session.map (·.secret) == some (beEnc 32 14)) && (c.lastSentCounter == 2) &&
  match s.1.net with
  | .udp false _ [.ok a, .ok b] => a == reply 1 (str "pong") && b == reply 2 (str "pong")
  | _ => false

end UDPExample

/-- **C49** is false: "ping" is sent twice and answered twice, the first answer arrives twice. -/
theorem C49_not_claim : ¬ C49_claim := by
  intro h
  obtain ⟨c, s, hu, hP⟩ := ClientExample.used_dial (env := HandshakeExample.env) (udp := true)
    (P := UDPExample.waiting) (s := UDPExample.net) (calls := UDPExample.calls) (by decide +kernel)
  rw [UDPExample.waiting] at hP
  simp only [Bool.and_eq_true, beq_iff_eq, List.isEmpty_iff, Option.map_eq_some_iff] at hP
  obtain ⟨⟨⟨hb, session, hs, hsec⟩, hlast⟩, hnet⟩ := hP
  split at hnet
  · rename_i rb a b heq
    simp only [Bool.and_eq_true, beq_iff_eq] at hnet
    obtain ⟨rfl, rfl⟩ := hnet
    have hk : deriveKey Toy.crypto session.secret kdfInfo aesKeySize = .ok OnceExample.key := by
      rw [hsec]; exact SessionExample.key_ok
    have hl : (Toy.crypto.aeadSeal OnceExample.key (Wire.nonce12 1 1) (str "pong")).length ≤ 2 ^ 30 := by
      rw [Toy.lawful.seal_length]; decide +kernel
    have hne : (1 : BitVec 64) ≠ c.lastSentCounter := by rw [hlast]; decide
    obtain ⟨ns, rs, c', s', hr, r, hrs, hdata⟩ := h Toy.crypto c s session OnceExample.key
      (str "pong") _ rb 1 Toy.lawful hu hb hs hk (by decide +kernel) (by decide +kernel) hl hne
      (by rw [heq, hlast]; rfl)
    have hns : ns ≠ [] := by
      rintro rfl
      cases hr
      cases hrs
    exact hdata ((C49_stale_blocks hr hns hb hl hne heq).1 r hrs).1
  · cases hnet

/-- The same socket without the copy: the second reply is read. -/
example : ClientExample.afterDial HandshakeExample.env (fun c s =>
    match runClient HandshakeExample.env (c.read 10) s with
    | (.val ((bs, some .eof), _), _) => bs == str "pong"
    | _ => false)
    (HandshakeExample.start (.udp false [] [.ok (HandshakeExample.answer 4),
      .ok (ClientExample.reply 1 (str "pong")), .ok (ClientExample.reply 2 (str "pong"))]))
    UDPExample.calls true = true := by decide +kernel

/-! ## C50 -/

/-- After `Close` of an established client returned nil, its socket is closed. -/
def C50_claim : Prop :=
  ∀ (C : Crypto) (env : CEnv C) (c c' : Client) (s s' : CConn × CShared),
    C.Lawful → Used (C := C) c s → runClient env c.close s = (.val (none, c'), s') →
    s'.1.isOpen = false

section
variable {C : Crypto}

/-- **C50** is false of every UDP client: `Close` returns nil and leaves the socket as it was. -/
theorem C50_udp_stays_open (env : CEnv C) (c : Client) (s : CConn × CShared) (b : Bool) (rb : Bytes)
    (queue : List (Except Err Bytes)) (hnet : s.1.net = .udp b rb queue) :
    runClient env c.close s = (.val (none, { c with buffer := [] }), s) := by
  rcases s with ⟨⟨net, writes, isOpen⟩, w⟩
  cases hnet
  rfl

/-- **C50**, what holds: over TCP the socket is closed, and an error is reported if it is not; data
already received is dropped.  Missing: UDP. -/
theorem C50_tcp_partial (env : CEnv C) (c : Client) (s : CConn × CShared) (input : List Ev)
    (hnet : s.1.net = .tcp input) :
    ∃ r c' s', runClient env c.close s = (.val (r, c'), s') ∧
      (r = none → s'.1.isOpen = false ∧ c'.buffer = []) ∧
      (r ≠ none → s'.1.isOpen = s.1.isOpen ∧ c' = c) := by
  rcases s with ⟨⟨net, writes, isOpen⟩, w⟩
  cases hnet
  rw [runClient, Client.close]
  simp only [Prog.run, cexec]
  cases hc : env.close with
  | none => exact ⟨none, _, _, rfl, by simp, by simp⟩
  | some e => exact ⟨_, _, _, rfl, by simp, by simp⟩

end

/-- A UDP client after the handshake: the socket is open, also after `Close`. -/
theorem C50_not_claim : ¬ C50_claim := by
  intro h
  obtain ⟨c, s, hu, hP⟩ := ClientExample.used_dial (env := HandshakeExample.env) (udp := true)
    (P := fun _ s => s.1.isOpen && match s.1.net with | .udp _ _ _ => true | _ => false)
    (s := UDPExample.net) (calls := []) (by decide +kernel)
  simp only [Bool.and_eq_true] at hP
  obtain ⟨hopen, hnet⟩ := hP
  split at hnet
  · rename_i b rb q heq
    have := h Toy.crypto HandshakeExample.env c _ s s Toy.lawful hu
      (C50_udp_stays_open HandshakeExample.env c s b rb q heq)
    rw [hopen] at this
    cases this
  · cases hnet

/-! ## C60 -/

/-- A dial that fails leaves no open socket. -/
def C60_claim : Prop :=
  ∀ (C : Crypto) (env : CEnv C) (udp : Bool) (host : Except Err Bytes) (options : ClientOptions)
    (s s' : CConn × CShared) (e : Err), C.Lawful → s.1.isOpen = false →
    runClient env (dial udp host options) s = (.val (.error e), s') → s'.1.isOpen = false

/-- **C60** is false over UDP: when the handshake fails, here because the answer is corrupted, the
socket stays open. -/
theorem C60_udp_handshake : ¬ C60_claim := by
  intro h
  have hrun : (match runClient HandshakeExample.env (dial true (.ok (str "example.com")) {})
      (HandshakeExample.start (.udp false [] [.ok ((HandshakeExample.answer 4).set 60 1)])) with
      | (.val (.error _), s') => s'.1.isOpen
      | _ => false) = true := by decide +kernel
  split at hrun
  · rename_i e s' heq
    rw [h Toy.crypto _ _ _ _ _ _ _ Toy.lawful (by rfl) heq] at hrun
    cases hrun
  · cases hrun

/-- **C60** is false over TCP: when the keep-alive option cannot be set, the connection stays open,
whatever the cryptography, the options and the server. -/
theorem C60_tcp_keep_alive {C : Crypto} (env : CEnv C) (host : Except Err Bytes)
    (options : ClientOptions) (s : CConn × CShared) (e : Err) (hc : env.connect = none)
    (hk : env.keepAlive = some e) :
    runClient env (dial false host options) s =
      (.val (.error (.wrap "failed to set keep-alive option" e)), ({ s.1 with isOpen := true }, s.2)) := by
  rcases s with ⟨⟨net, writes, isOpen⟩, w⟩
  simp only [runClient, dial, dialTCP, Bool.false_eq_true, if_false, Prog.run, cexec, hc, hk]
  simp

section
variable {C : Crypto}

/-- Effects that neither open nor close the socket. -/
def COp.keepsOpen : COp → Prop
  | .connect | .close | .closeSocket => False
  | _ => True

theorem reading_keepsOpen (o : COp) (h : o.isReading) : o.keepsOpen := by
  cases o <;> first | trivial | exact h.elim

theorem keepsOpen_res {α β : Type} (r : Res α) (f : α → CProg C β)
    (h : ∀ a, Uses (S := CSig C) COp.keepsOpen (f a)) :
    Uses (S := CSig C) COp.keepsOpen ((ofClientRes r).bind f) := by
  cases r with
  | val a => exact h a
  | panic m => trivial

theorem keepsOpen_handshake (host : Except Err Bytes) :
    Uses (S := CSig C) COp.keepsOpen (handshake host) := by
  unfold handshake
  split
  · trivial
  refine ⟨trivial, fun (fetched : Except Err PublicKey) => ?_⟩
  rcases fetched with _ | key
  · trivial
  refine ⟨trivial, fun (random : Except Err ID) => ?_⟩
  dsimp only
  split
  · trivial
  refine ⟨trivial, fun (generated : Except Err C.EPriv) => ?_⟩
  rcases generated with _ | priv
  · trivial
  refine ⟨trivial, fun (r : Nat × Option Err) => ?_⟩
  rcases r with ⟨n, _ | e⟩
  case some => trivial
  dsimp only
  split
  · trivial
  refine Uses.bind ((reading_onClientConn _).mono reading_keepsOpen) fun parsed => ?_
  rcases parsed with _ | common
  · trivial
  dsimp only
  split
  · refine Uses.bind ((reading_onClientConn _).mono reading_keepsOpen) fun parsed => ?_
    cases parsed <;> trivial
  refine Uses.bind ((reading_onClientConn _).mono reading_keepsOpen) fun parsed => ?_
  rcases parsed with _ | response
  · trivial
  refine keepsOpen_res _ _ fun hash => keepsOpen_res _ _ fun verified => ?_
  rcases verified with _ | _ | _
  · trivial
  · trivial
  dsimp only
  split
  · trivial
  exact ⟨trivial, fun _ => trivial⟩

/-- Effects other than these leave the kind of the socket and its state alone. -/
theorem handshake_open (env : CEnv C) (host : Except Err Bytes) (s : CConn × CShared)
    (hnet : ∃ input, s.1.net = .tcp input) :
    (∃ input, ((handshake host).run (cexec env) s).2.1.net = .tcp input) ∧
    ((handshake host).run (cexec env) s).2.1.isOpen = s.1.isOpen := by
  refine (keepsOpen_handshake host).run (cexec env)
    (fun s' => (∃ input, s'.1.net = .tcp input) ∧ s'.1.isOpen = s.1.isOpen) ?_ s ⟨hnet, rfl⟩
  rintro o ⟨c, w⟩ ho ⟨⟨input, h1⟩, h2⟩
  cases o with
  | connect => exact ho.elim
  | close => exact ho.elim
  | closeSocket => exact ho.elim
  | read o =>
    refine ⟨?_, h2⟩
    refine readInterp_keeps (P := fun t => ∃ input, t = .tcp input) ?_ o c.net ⟨input, h1⟩
    rintro _ k ⟨i, rfl⟩
    exact ⟨_, rfl⟩
  | write bs => exact ⟨⟨input, by simp only [cexec]; rw [show c.net = .tcp input from h1]; rfl⟩, h2⟩
  | _ => exact ⟨⟨input, h1⟩, h2⟩

/-- **C60**, what holds: over TCP, if the keep-alive option can be set and closing does not fail, a
dial that returns an error leaves no open socket.  Missing: UDP (`C60_udp_handshake`) and a failure to
set the option (`C60_tcp_keep_alive`). -/
theorem C60_tcp_partial (env : CEnv C) (host : Except Err Bytes) (options : ClientOptions)
    (s s' : CConn × CShared) (e : Err) (hnet : ∃ input, s.1.net = .tcp input)
    (hopen : s.1.isOpen = false) (hka : env.keepAlive = none) (hcl : env.close = none)
    (h : runClient env (dial false host options) s = (.val (.error e), s')) :
    s'.1.isOpen = false := by
  simp only [runClient, dial, dialTCP, Bool.false_eq_true, if_false, Prog.run, cexec] at h
  cases hc : env.connect with
  | some e' =>
    rw [hc] at h
    cases h
    simp [hopen]
  | none =>
    rw [hc] at h
    simp only [Prog.run, cexec, hka] at h
    rw [handshakeOrClose, Prog.run_bind] at h
    generalize hs₁ : (({ s.1 with isOpen := s.1.isOpen || (none : Option Err).isNone }, s.2) :
      CConn × CShared) = s₁ at h
    obtain ⟨⟨input, hin⟩, -⟩ := handshake_open env (newClient host options).host s₁
      (by rw [← hs₁]; exact hnet)
    cases hr : (handshake (newClient host options).host).run (cexec env) s₁ with
    | mk r s₂ =>
    rw [hr] at h hin
    cases r with
    | panic m => cases h
    | val r =>
      cases r with
      | ok session => cases h
      | error e' =>
        dsimp only at h hin
        rcases s₂ with ⟨⟨net, writes, isOpen⟩, w⟩
        cases hin
        simp only [Client.close, Prog.bind, Prog.run, cexec, hcl] at h
        cases h
        simp

end

/-- Over TCP, a dial that receives a corrupted answer fails and closes the connection. -/
example : (match runClient HandshakeExample.env (dial false (.ok (str "example.com")) {})
    (HandshakeExample.start (.tcp [.data ((HandshakeExample.answer 4).set 60 1)])) with
    | (.val (.error _), s') => !s'.1.isOpen
    | _ => false) = true := by decide +kernel

end Goe2ee
