import Verif.Proofs.Conversation
import Verif.Proofs.Shutdown
import Verif.Props.Handshake

/-!
# C24: a conversation delivers the messages and the replies

`converse` (`Verif.Spec.Conversation`) joins the two models: what the client's connection accepts is
what the server's connection delivers, in any segmentation, and the other way round; nothing else
runs on the server in between.  The application handler is any sequence of outcomes, so it may depend
on whatever it has seen before.
-/

set_option autoImplicit false

namespace Goe2ee

section
variable {C : Crypto}

/-- The handler's results are replies that can be sent and that the reader's buffers can take, and the
server's transport accepts what it is given in time. -/
def Healthy (timeout : Nat) (ans : Nat → Answer C) (rounds : List Round) : Prop :=
  (∀ round ∈ rounds, ∀ p, (ans p).write = (0, none) ∧ ∃ written,
      (ans p).handle = .reply written ∧ written ≠ [] ∧ written.length + 16 ≤ 2 ^ 30 ∧
      written.length ≤ round.sizes.sum) ∧
  (0 < timeout → ∀ i j, (ans i).tick + (ans j).tick ≤ timeout)

/-- **C24**, from any reachable state of the server and any client that shares a session with it, as
long as the server has accepted no counter that the client has not used yet: every message (at most
2^30 - 16 octets) written in a conversation is handed to the handler, in order and nothing else; and
the data read after each `Write`, with any buffers, is what the handler wrote for that message,
followed by `io.EOF`.  Over TCP (one connection) and over UDP. -/
theorem C24_conversation (hC : C.Lawful) (env : CEnv C) (udp : Bool) (timeout : Nat)
    (ans : Nat → Answer C) (host : Bytes) (e : Ends) (hs : Reachable C e.server.world)
    (session : ClientSession) (r : Ref) (t : Nat) (window : ReplayWindow) (v : BitVec 64)
    (rounds : List Round)
    -- the client
    (hwd : env.writeDeadline = none) (hrd : env.readDeadline = none) (hwr : env.write = (0, none))
    (hsession : e.client.session = some session) (hbuf : e.client.buffer = [])
    (hexpect : e.client.expectReply = true)
    (hcounter : e.shared.counters[session.sendCounter]? = some v)
    (hv : v.toNat + rounds.length < 2 ^ 64)
    (hf : ∀ round ∈ rounds, round.faithful ∧ round.message.length + 16 ≤ 2 ^ 30)
    -- the server
    (ht : e.server.world.table (sessionKey C host session.id) = some (r, t))
    (hh : e.server.world.heap[r]? = some (session.secret, window))
    (hacc : ∀ c ∈ acceptedOf r e.server.world.log, c ≤ v.toNat)
    (hopen : udp = false → e.server.world.quit = false)
    (hdl : udp = false → timeout = 0 → e.server.conn.deadline = none)
    (hpdl : timeout = 0 → e.server.world.packetBy = none)
    (hans : Healthy timeout ans rounds) :
    ∃ replies e', converse env udp timeout ans host rounds e =
        some (replies.map fun written => (written, some .eof), e') ∧
      replies.length = rounds.length ∧
      handledFor r e'.server.world.log = handledFor r e.server.world.log ++
        List.zipWith (fun round written => (round.message, .reply written)) rounds replies := by
  refine converse_linked (session := session) hC hwd hrd hwr hans.2 rounds v e ?_ hf hans.1 hv
  refine ⟨hsession, hbuf, hexpect, hcounter, ⟨t, ht⟩, ⟨window, _, hh, hs.windows.1 r _ hh, ?_⟩, hopen, hdl, hpdl⟩
  rcases Nat.eq_zero_or_pos (largest (acceptedOf r e.server.world.log)) with h | h
  · omega
  · exact hacc _ (largest_mem (by omega))

theorem exec_deadline (a : Answer C) (o : SOp) (c : Conn) (w : World) :
    (exec C 0 a o (c, w)).2.1.deadline = c.deadline ∧
    (exec C 0 a o (c, w)).2.2.packetBy = w.packetBy := by
  cases o with
  | check r c =>
    simp only [exec]
    split <;> exact ⟨rfl, rfl⟩
  | flush =>
    simp only [exec]
    split <;> exact ⟨rfl, rfl⟩
  | write bs =>
    refine ⟨rfl, ?_⟩
    simp only [exec, execWrite]
    split
    · rfl
    · split
      · split <;> rfl
      · rfl
  | setDeadlines => simp [exec]
  | _ => exact ⟨rfl, rfl⟩

/-- Without a timeout, no deadline is ever set. -/
theorem run_deadline {α : Type} (p : SProg C α) (ans : Nat → Answer C) (s : Seq) :
    (p.run (seqI C 0 ans) s).2.conn.deadline = s.conn.deadline ∧
    (p.run (seqI C 0 ans) s).2.world.packetBy = s.world.packetBy := by
  have hp : Uses (S := SSig C) (fun _ => True) p := by
    induction p with
    | ret a => trivial
    | panic m => trivial
    | op o k ih => exact ⟨trivial, ih⟩
  refine hp.run (seqI C 0 ans) (fun s' => s'.conn.deadline = s.conn.deadline ∧
    s'.world.packetBy = s.world.packetBy) (fun o s' ho h => ?_) s ⟨rfl, rfl⟩
  by_cases hr : o.isRead
  · cases o with
    | read o => exact h
    | _ => exact hr.elim
  · rw [seqI_other _ _ _ hr]
    exact ⟨(exec_deadline _ o _ _).1.trans h.1, (exec_deadline _ o _ _).2.trans h.2⟩

theorem serving_keepsOpen (o : SOp) (h : o.serving) : o.keepsOpen := by
  rcases h with (h | h | h | h) | h <;> cases o <;> first | trivial | exact h.elim

/-- **C24**, end to end: an honest handshake (the hypotheses of C15), then any conversation.  The dial
succeeds, the handler is called for exactly the messages written, in order, and the data read after
each `Write` is what the handler wrote for it. -/
theorem C24_end_to_end (hC : C.Lawful) (timeout : Nat) (ans : Nat → Answer C) (host : Bytes)
    (s : Seq) (hs : Reachable C s.world) (env : CEnv C) (udp : Bool) (hostname : Bytes)
    (options : ClientOptions) (privateKey : PrivateKey C) (random : Nat) (algorithm : KeyAlgorithm)
    (key : PublicKey) (idBytes : ID) (clientKey serverKey : C.EPriv) (secret signature : Bytes)
    (rest : List (Byte ⊕ Err)) (rounds : List Round)
    -- the client
    (hconnect : env.connect = none) (hkeep : env.keepAlive = none) (hwrite : env.write = (0, none))
    (hwd : env.writeDeadline = none) (hrd : env.readDeadline = none)
    (hexpect : options.expectReply = true)
    (hfetch : env.fetch hostname = .ok key) (hrandom : env.random = .ok idBytes)
    (hgen : env.genKey = .ok clientKey)
    (hf : ∀ round ∈ rounds, round.faithful ∧ round.message.length + 16 ≤ 2 ^ 30)
    (hn : rounds.length < 2 ^ 64)
    -- the server
    (hkey : fetchServerKey privateKey = .ok (algorithm, key))
    (h : Delivers s.conn.input (Wire.setupRequest (uuidOf idBytes).val
      (C.marshalEPub (C.epub clientKey))) rest)
    (hg : (ans s.pos).genKey = .ok serverKey)
    (he : C.ecdh serverKey (C.epub clientKey) = .ok secret)
    (hsigner : ∀ hash content, (ans (s.pos + 4)).sign hash content =
      signServer privateKey random hash content)
    (hsig : signServer privateKey random 7 (Wire.transcript (C.marshalEPub (C.epub clientKey))
      (C.marshalEPub (C.epub serverKey)) (uuidOf idBytes).val) = .ok signature)
    (hw : (ans (s.pos + 5)).write = (0, none))
    (hd : ∀ d, s.conn.deadline = some d →
      s.world.now + (ans (s.pos + 2)).tick + (ans (s.pos + 5)).tick ≤ d)
    (hopen : udp = false → s.world.quit = false)
    (hdl : udp = false → timeout = 0 → s.conn.deadline = none)
    (hpdl : timeout = 0 → s.world.packetBy = none)
    (hans : Healthy timeout ans rounds) :
    ∃ reply, (serveOne timeout ans host s).conn.output = s.conn.output ++ reply ∧
      ∀ (cs : CConn × CShared) (rest' : List (Byte ⊕ Err)),
        cs.1.net.written.stream = reply.map Sum.inl ++ rest' →
        ∃ c cs' r t replies e',
          runClient env (dial udp (.ok hostname) options) cs = (.val (.ok c), cs') ∧
          (serveOne timeout ans host s).world.table (sessionKey C host (uuidOf idBytes)) = some (r, t) ∧
          converse env udp timeout ans host rounds
              { client := c, conn := cs'.1, shared := cs'.2, server := serveOne timeout ans host s } =
            some (replies.map fun written => (written, some .eof), e') ∧
          replies.length = rounds.length ∧
          handledFor r e'.server.world.log =
            handledFor r (serveOne timeout ans host s).world.log ++
            List.zipWith (fun round written => (round.message, .reply written)) rounds replies := by
  obtain ⟨reply, h1, ⟨r, t, h2, h3, h4⟩, h5⟩ := C15_honest_handshake hC timeout ans host s hs env udp
    hostname options privateKey random algorithm key idBytes clientKey serverKey secret signature rest
    hconnect hkeep hwrite hfetch hrandom hgen hkey h hg he hsigner hsig hw hd
  refine ⟨reply, h1, fun cs rest' hstream => ?_⟩
  obtain ⟨c, session, cs', h6, h7, h8, h9, -⟩ := h5 cs rest' hstream
  obtain ⟨_, _, _, _, _, _, _, _, _, _, _, session', _, _, _, _, _, _, _, _, _, h10, _, _, h11, _⟩ :=
    C14_authenticated env udp (.ok hostname) options cs cs' c h6
  rw [h7] at h10
  cases h10
  obtain ⟨session'', -, hc⟩ := dial_ok h6
  have hquit : udp = false → (serveOne timeout ans host s).world.quit = false := fun hu =>
    (run_quit ((serving_serveRequest (inMemory_passive C) _).mono serving_keepsOpen) timeout ans s).trans
      (hopen hu)
  have hnone : udp = false → timeout = 0 → (serveOne timeout ans host s).conn.deadline = none := by
    intro hu h0
    subst h0
    exact (run_deadline _ ans s).1.trans (hdl hu rfl)
  have hnone' : timeout = 0 → (serveOne timeout ans host s).world.packetBy = none := by
    intro h0
    subst h0
    exact (run_deadline _ ans s).2.trans (hpdl rfl)
  obtain ⟨replies, e', h12, h13, h14⟩ := converse_linked (r := r) (session := session) hC hwd hrd hwrite
    hans.2 rounds 0
    { client := c, conn := cs'.1, shared := cs'.2, server := serveOne timeout ans host s }
    ⟨h7, by rw [hc]; rfl, by rw [hc]; exact hexpect, h11, ⟨t, by rw [h9]; exact h2⟩,
      ⟨_, [], by rw [h8]; exact h3, represents_fresh, Nat.zero_le _⟩, hquit, hnone, hnone'⟩ hf hans.1
    (by simpa using hn)
  exact ⟨c, cs', r, t, replies, e', h6, h2, h12, h13, h14⟩

end

namespace ConversationExample
open HandshakeExample

/-- Two rounds; the network delivers octet by octet in one direction, in one piece in the other. -/
def rounds (udp : Bool) : List Round :=
  [str "ping", str "and again"].map fun message =>
    { message, up := fun bs => bs.map fun b => .data [b],
      down := fun bs => if udp then .udp false [] [.ok bs] else .tcp [.data bs], sizes := [0, 1, 2, 3] }

/-- An honest server and the client of `HandshakeExample`: handshake and two rounds. -/
def talk (udp : Bool) : Option (List (Bytes × Option Err) × List (Bytes × HRes)) :=
  let ans : Nat → Answer Toy.crypto := fun _ => { OnceExample.answer (.error .eof) with
      sign := fun hash content => signServer (C := Toy.crypto) (.ed25519 (77 : BitVec 256)) 3 hash content }
  let s := serveOne 5000 ans (str "10.0.0.1")
    (SessionExample.start SessionExample.world (Wire.setupRequest (uuidOf ⟨List.replicate 16 1, rfl⟩).val
      (Toy.crypto.marshalEPub (5 : BitVec 256))))
  match runClient env (dial udp (.ok (str "example.com")) {})
      (start (if udp then .udp false [] [.ok s.conn.output] else .tcp [.data s.conn.output])) with
  | (.val (.ok c), cs) =>
    (converse env udp 5000 ans (str "10.0.0.1") (rounds udp)
      { client := c, conn := cs.1, shared := cs.2, server := s }).map fun q =>
        (q.1, handledFor 1 q.2.server.world.log)
  | _ => none

/-- The handler sees both messages, and both replies are read, over TCP and UDP. -/
example : ∀ udp ∈ [false, true], talk udp = some ([(str "pong", some .eof), (str "pong", some .eof)],
    [(str "ping", .reply (str "pong")), (str "and again", .reply (str "pong"))]) := by decide +kernel

/-- The network of the example is faithful. -/
example (udp : Bool) : ∀ round ∈ rounds udp, round.faithful := by
  intro round hr
  simp only [rounds, List.map_cons, List.map_nil, List.mem_cons, List.not_mem_nil, or_false] at hr
  have key : ∀ bs : Bytes, flatten (bs.map fun b => Ev.data [b]) = bs.map Sum.inl := by
    intro bs
    induction bs with
    | nil => rfl
    | cons b bs ih => simp [flatten, ih]
  rcases hr with rfl | rfl <;> refine ⟨key, fun bs => ?_⟩ <;>
    cases udp <;> simp [Transport.stream, Transport.stream.received, flatten]

end ConversationExample

end Goe2ee
