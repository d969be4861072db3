import Verif.Proofs.Borrow
import Verif.Props.Client

/-!
# C47, C56, C69: borrowing a connection

What previous borrowers left behind: data in the client's buffer, replies on the connection, deadlines.
-/

set_option autoImplicit false

namespace Goe2ee

section
variable {C : Crypto}

/-- C69: on a connection that delivers the server's answer next, the borrow test succeeds; it sends one
hello request and takes the answer from the connection. -/
theorem C69_test_passes (env : CEnv C) (s : CConn) (w : CShared) (rest : List (Byte ⊕ Err))
    (hwr : env.write = (0, none))
    (hstream : s.net.written.stream = Wire.helloResponse.map Sum.inl ++ rest) :
    ∃ s', runClient env testOnBorrow (s, w) = (.val true, (s', w)) ∧ s'.net.stream = rest ∧
      s'.writes = s.writes ++ [(Wire.helloRequest, 1, none)] ∧ s'.isOpen = s.isOpen := by
  have h1 := (congrArg (runI parseResponseCommon) hstream).trans (runI_parseResponseCommon _ _)
  unfold testOnBorrow
  simp only [runClient, Prog.run, cexec, hwr, Nat.sub_zero]
  rw [if_neg (by simp)]
  rw [run_parse_eq _ _ h1]
  exact ⟨_, rfl, runNet_rest h1, rfl, rfl⟩

/-- What a passed borrow test means: the hello request was accepted, and one octet with the success bit
was taken from the connection. -/
theorem C69_test_means (env : CEnv C) (s s' : CConn × CShared)
    (h : runClient env testOnBorrow s = (.val true, s')) :
    ∃ octet, octet.msb = true ∧ s.1.net.written.stream = .inl octet :: s'.1.net.stream ∧
      s'.1.writes = s.1.writes ++ [(Wire.helloRequest, 1, none)] ∧ s'.2 = s.2 := by
  obtain ⟨s, w⟩ := s
  unfold testOnBorrow at h
  simp only [runClient, Prog.run, cexec] at h
  rcases hw : env.write with ⟨lost, _ | e⟩
  · rw [hw] at h
    dsimp only at h
    split at h
    · cases h
    rename_i hn
    obtain ⟨a, t, h1, h2⟩ := run_parse_val h
    cases a with
    | error e => cases h2
    | ok common =>
      have hs : common.success = true := by
        have := congrArg Prod.fst h2
        simpa [Prog.run] using this
      have hs' : _ = s' := congrArg Prod.snd h2
      subst hs'
      have hb := parseResponseCommon_inv h1
      refine ⟨(1#8 <<< 7) ||| common.reserved, ?_, ?_, ?_, rfl⟩
      · generalize common.reserved = r
        revert r
        decide
      · have hb' : s.net.written.stream = .inl ((1#8 <<< 7) ||| common.reserved) :: t.stream := by
          simpa [ResponseCommon.bytes, hs] using hb
        exact hb'
      · have hn : helloRequest.bytes.length - lost = 1 := Decidable.not_not.mp hn
        show s.writes ++ [(_, helloRequest.bytes.length - lost, _)] = _
        rw [hn]
        rfl
  · rw [hw] at h
    cases h

/-! ## C47 -/

/-- Whatever previous borrowers did, data returned by the first `Read` after a passed borrow test and a
`Write` is an authentic reply to that `Write`. -/
def C47_claim : Prop :=
  ∀ (C : Crypto) (env env₁ env₂ : CEnv C) (c c₁ c₂ : Client) (s s₀ s₁ s₂ : CConn × CShared)
    (p bs : Bytes) (n m : Nat) (err : Option Err), C.Lawful → Used (C := C) c s → p.length < 2 ^ 63 →
    runClient env testOnBorrow s = (.val true, s₀) →
    runClient env₁ (c.write p) s₀ = (.val ((m, none), c₁), s₁) →
    runClient env₂ (c₁.read n) s₁ = (.val ((bs, err), c₂), s₂) → bs ≠ [] →
    ∃ session counter ct message, c.session = some session ∧
      s₁.1.writes = s₀.1.writes ++
        [(Wire.processRequest c.expectReply session.id.val counter.toNat ct, m, none)] ∧
      StartsWithReply C session counter s₁.1.net.stream message ∧ bs = message.take n

/-- **C47**, what holds: if the previous borrowers read every reply to its end (nothing is left in the
client's buffer; anything may be left on the connection), data returned after a `Write` is an authentic
reply to that `Write`. -/
theorem C47_empty_buffer_partial (hC : C.Lawful) (env env₁ env₂ : CEnv C) (c c₁ c₂ : Client)
    (s s₀ s₁ s₂ : CConn × CShared) (p bs : Bytes) (n m : Nat) (err : Option Err)
    (hp : p.length < 2 ^ 63) (hb : c.buffer = [])
    (ht : runClient env testOnBorrow s = (.val true, s₀))
    (hw : runClient env₁ (c.write p) s₀ = (.val ((m, none), c₁), s₁))
    (hr : runClient env₂ (c₁.read n) s₁ = (.val ((bs, err), c₂), s₂)) (hne : bs ≠ []) :
    (∃ session counter ct message, c.session = some session ∧
      s₁.1.writes = s.1.writes ++ [(Wire.helloRequest, 1, none),
        (Wire.processRequest c.expectReply session.id.val counter.toNat ct, m, none)] ∧
      StartsWithReply C session counter s₁.1.net.stream message ∧ bs = message.take n) := by
  obtain ⟨octet, -, -, hwr, -⟩ := C69_test_means env s s₀ ht
  obtain ⟨session, counter, ct, message, h1, h2, h3, h4⟩ :=
    C23_reply_authentic_partial hC env₁ env₂ c c₁ c₂ s₀ s₁ s₂ p bs n m err hp hb hw hr hne
  exact ⟨session, counter, ct, message, h1, by rw [h2, hwr]; simp, h3, h4⟩

/-! ## C69 -/

/-- Whatever previous borrowers left unread on the connection: if the server answers the hello request
and then the request sent by `Write`, a client that passes the borrow test can be used: `Write`
succeeds, and `Read` returns the reply. -/
def C69_claim : Prop :=
  ∀ (C : Crypto) (env : CEnv C) (c : Client) (s s₀ : CConn × CShared) (session : ClientSession)
    (key : Bytes) (p message : Bytes) (n : Nat) (counter : BitVec 64)
    (unread : Bytes) (input : List Ev), C.Lawful → Used (C := C) c s → s.1.net = .tcp input →
    p.length < 2 ^ 63 → message.length < 2 ^ 30 - 16 → message ≠ [] → c.buffer = [] →
    env.write = (0, none) → env.readDeadline = none → env.writeDeadline = none →
    c.session = some session → deriveKey C session.secret kdfInfo aesKeySize = .ok key →
    counter = s.2.counters.getD session.sendCounter 0 + 1 → counter ≠ 0 →
    flatten input = (unread ++ Wire.helloResponse ++ Wire.processResponse counter.toNat
      (C.aeadSeal key (Wire.nonce12 1 counter.toNat) message)).map Sum.inl →
    runClient env testOnBorrow s = (.val true, s₀) →
    ∃ c₁ s₁ c₂ s₂ err, runClient env (c.write p) s₀ = (.val ((p.length + 50, none), c₁), s₁) ∧
      runClient env (c₁.read n) s₁ = (.val ((message.take n, err), c₂), s₂)

/-- **C69**, what holds: if nothing was left unread, on a TCP connection, the borrow test passes,
`Write` sends its request and the next `Read` returns the reply. -/
theorem C69_clean_partial (hC : C.Lawful) (env : CEnv C) (c : Client) (input : List Ev)
    (writes : List (Bytes × Nat × Option Err)) (isOpen : Bool) (w : CShared) (session : ClientSession)
    (key : Bytes) (p message : Bytes) (n : Nat) (counter : BitVec 64)
    (hp : p.length < 2 ^ 63) (hl : message.length < 2 ^ 30 - 16) (hne : message ≠ [])
    (hb : c.buffer = []) (hwr : env.write = (0, none)) (hrd : env.readDeadline = none)
    (hwd : env.writeDeadline = none) (hs : c.session = some session)
    (hk : deriveKey C session.secret kdfInfo aesKeySize = .ok key)
    (hc : counter = w.counters.getD session.sendCounter 0 + 1) (h0 : counter ≠ 0)
    (hstream : flatten input = (Wire.helloResponse ++ Wire.processResponse counter.toNat
      (C.aeadSeal key (Wire.nonce12 1 counter.toNat) message)).map Sum.inl) :
    ∃ s₀ c₁ s₁ c₂ s₂ err, runClient env testOnBorrow (⟨.tcp input, writes, isOpen⟩, w) = (.val true, s₀) ∧
      runClient env (c.write p) s₀ = (.val ((p.length + 50, none), c₁), s₁) ∧
      runClient env (c₁.read n) s₁ = (.val ((message.take n, err), c₂), s₂) ∧
      err = (if message.length ≤ n then some .eof else none) ∧ s₂.1.net.stream = [] := by
  have hstream' : (Transport.tcp input).written.stream = Wire.helloResponse.map Sum.inl ++
      (Wire.processResponse counter.toNat
        (C.aeadSeal key (Wire.nonce12 1 counter.toNat) message)).map Sum.inl := by
    rw [← List.map_append]; exact hstream
  have h1 := (congrArg (runI parseResponseCommon) hstream').trans (runI_parseResponseCommon _ _)
  have hrest := runNet_rest h1
  obtain ⟨input', hnet⟩ := runNet_tcp parseResponseCommon input
  have htest : runClient env testOnBorrow (⟨.tcp input, writes, isOpen⟩, w) =
      (.val true, (⟨.tcp input', writes ++ [(Wire.helloRequest, 1, none)], isOpen⟩, w)) := by
    unfold testOnBorrow
    simp only [runClient, Prog.run, cexec, hwr, Nat.sub_zero]
    rw [if_neg (by simp), run_parse_eq _ _ h1]
    dsimp only [Transport.written]
    rw [hnet]
    rfl
  rw [show (Transport.tcp input).written = .tcp input from rfl, hnet] at hrest
  have hwrite := write_run (env := env) (c := c) (p := p)
    (s := ⟨.tcp input', writes ++ [(Wire.helloRequest, 1, none)], isOpen⟩) (w := w)
    hC hwd hs hk counter hc h0 hp
  rw [hwr, Nat.sub_zero] at hwrite
  have hlen : (writeRequest C c session key counter p).length = p.length + 50 := by
    simp [writeRequest, Wire.processRequest, Wire.be64, hC.seal_length, session.id.property]
    omega
  rw [hlen] at hwrite
  obtain ⟨t, ht, hread⟩ := read_accepts (env := env) (c := { c with lastSentCounter := counter }) (n := n)
    (s := ⟨.tcp input', writes ++ [(Wire.helloRequest, 1, none)] ++
      [(writeRequest C c session key counter p, p.length + 50, none)], isOpen⟩)
    (w := { counters := w.counters.set session.sendCounter counter,
            sealed := w.sealed ++ [(key, Wire.nonce12 0 counter.toNat, p)] })
    (rest := []) (message := message) hC hrd hb hs hk
    (by rw [hC.seal_length]; omega)
    (by rw [List.append_nil]; exact hrest) (hC.open_seal _ _ _)
  rw [readBuffer, if_neg (fun h => hne h.1)] at hread
  simp only [List.drop_eq_nil_iff] at hread
  exact ⟨_, _, _, _, _, _, htest, hwrite, hread, rfl, ht⟩

/-! ## C56 -/

/-- However long a client has been idle: if the socket accepts the hello request and the server's
answer is the next thing to arrive, the borrow test succeeds. -/
def C56_claim : Prop :=
  ∀ (C : Crypto) (env : CEnv C) (c : Client) (s : Timed) (rest : List (Byte ⊕ Err)), C.Lawful →
    UsedT (C := C) c s → env.write = (0, none) →
    s.conn.net.written.stream = Wire.helloResponse.map Sum.inl ++ rest →
    (testOnBorrow.run (texec c.readTimeout c.writeTimeout env) s).1 = .val true

/-- **C56**, what holds (1): the borrow test succeeds while the deadlines set by earlier calls have not
passed. -/
theorem C56_before_deadline_partial (env : CEnv C) (c : Client) (s : Timed)
    (rest : List (Byte ⊕ Err)) (hwr : env.write = (0, none))
    (hstream : s.conn.net.written.stream = Wire.helloResponse.map Sum.inl ++ rest)
    (hr : passed s.now s.readBy = false) (hw : passed s.now s.writeBy = false) :
    (testOnBorrow.run (texec c.readTimeout c.writeTimeout env) s).1 = .val true := by
  rw [run_texec (does_test (C := C) 0 0) hr hw]
  obtain ⟨s', h, -⟩ := C69_test_passes env s.conn s.shared rest hwr hstream
  exact congrArg Prod.fst h

/-- **C56**, what holds (2): without timeouts, the borrow test succeeds after any use and any time. -/
theorem C56_no_timeouts_partial (env : CEnv C) (c : Client) (s : Timed)
    (rest : List (Byte ⊕ Err)) (hu : UsedT (C := C) c s) (hrt : c.readTimeout ≤ 0)
    (hwt : c.writeTimeout ≤ 0) (hwr : env.write = (0, none))
    (hstream : s.conn.net.written.stream = Wire.helloResponse.map Sum.inl ++ rest) :
    (testOnBorrow.run (texec c.readTimeout c.writeTimeout env) s).1 = .val true := by
  obtain ⟨h1, h2⟩ := usedT_none hu hrt hwt
  exact C56_before_deadline_partial env c s rest hwr hstream (by rw [h1]; rfl) (by rw [h2]; rfl)

/-- After the write deadline the borrow test fails, whatever the network does. -/
theorem C56_expired_write (rt wt : Int) (env : CEnv C) (s : Timed)
    (hw : passed s.now s.writeBy = true) :
    (testOnBorrow.run (texec rt wt env) s).1 = .val false := by
  simp only [testOnBorrow, Prog.run, texec, hw, ↓reduceIte]

/-- After the read deadline the borrow test fails, whatever the network does. -/
theorem C56_expired_read (rt wt : Int) (env : CEnv C) (s : Timed)
    (hr : passed s.now s.readBy = true) :
    (testOnBorrow.run (texec rt wt env) s).1 = .val false := by
  unfold testOnBorrow
  simp only [Prog.run]
  obtain ⟨hnow, hread, -⟩ := texec_deadlines (rt := rt) (wt := wt) (env := env)
    (.write helloRequest.bytes) s
  have hread := hread (by simp)
  generalize texec rt wt env (.write helloRequest.bytes) s = r at hnow hread ⊢
  obtain ⟨⟨n, _ | e⟩, s'⟩ := r
  · dsimp only at hnow hread ⊢
    split
    · rfl
    · have hr' : passed s'.now s'.readBy = true := by rw [hnow, hread]; exact hr
      rw [Prog.run_bind, parseResponseCommon, readOctet,
        run_readOp (I := texec rt wt env) (o := .copyLimit 1) (s := s') (r := ([], some .timeout)) (s' := s')
          (by simp only [texec, hr', ↓reduceIte, expiredRead]; rfl)]
      rfl
  · rfl

/-- In particular: once a `Write` has set its deadline, the borrow test fails from the end of the
timeout on, on every network, until a call sets a new deadline. -/
theorem C56_write_then_idle (env env' : CEnv C) (c c' : Client) (s s' : Timed) (p : Bytes)
    (r : Nat × Option Err) (time : Nat) (ht : 0 < c.writeTimeout) (hd : env.writeDeadline = none)
    (h : (c.write p).run (texec c.readTimeout c.writeTimeout env) s = (.val (r, c'), s'))
    (hlong : c.writeTimeout ≤ time) :
    (testOnBorrow.run (texec c.readTimeout c.writeTimeout env')
      { s' with now := s'.now + time }).1 = .val false := by
  have hs' : s'.writeBy = some (s'.now + c.writeTimeout.toNat) := by
    obtain ⟨k, hk⟩ : ∃ k, c.write p = .op (S := CSig C) .setWriteDeadline k := by
      unfold Client.write
      rw [if_pos ht]
      exact ⟨_, rfl⟩
    have hdoes := does_write (C := C) c p
    rw [hk] at h hdoes
    have := (hdoes.2 env.writeDeadline).run_inv (I := texec c.readTimeout c.writeTimeout env)
      (s := { s with writeBy := some (s.now + c.writeTimeout.toNat) })
      (R := fun s => s.writeBy = some (s.now + c.writeTimeout.toNat)) (fun o s ho hs => by
        obtain ⟨h1, -, h2⟩ := texec_deadlines (rt := c.readTimeout) (wt := c.writeTimeout) (env := env) o s
        by_cases hw : o = .setWriteDeadline
        · subst hw; simp [texec, hd]
        · rw [h2 hw, h1]; exact hs) rfl
    simp only [Prog.run, texec, hd, Option.isSome_none, Bool.false_eq_true, ↓reduceIte] at h
    rw [hd, h] at this
    exact this
  refine C56_expired_write _ _ _ _ ?_
  rw [show ({ s' with now := s'.now + time } : Timed).writeBy = _ from hs']
  simp only [passed, decide_eq_true_eq]
  omega

end

namespace BorrowExample
open HandshakeExample ClientExample

/-- The handshake succeeds, "ping" is answered with "pong", and then a hello request is answered. -/
def net1 : CConn × CShared := start (.tcp [.data (answer 4 ++ reply 1 (str "pong") ++ Wire.helloResponse)])

/-- The borrow test passes; then `Write` returns 54 and no error, nothing more has been received, and
`Read` returns "ong". -/
def leaks (c : Client) (s : CConn × CShared) : Bool :=
  match runClient env testOnBorrow s with
  | (.val true, s₀) => stale c s₀
  | _ => false

/-- The previous borrower read one octet of its reply. -/
theorem used_leaks : ∃ c s, Used (C := Toy.crypto) c s ∧ leaks c s = true :=
  used_dial (env := env) (udp := false) (s := net1) (calls := [.write (str "ping"), .read 1])
    (by decide +kernel)

/-- The handshake succeeds, and then requests are answered in turn: "ping", a hello request, "ping". -/
def net2 : CConn × CShared := start (.tcp [.data (answer 4 ++ reply 1 (str "pong") ++ Wire.helloResponse ++
  reply 2 (str "pang"))])

/-- The borrow test passes, `Write` succeeds, and `Read` returns no data but an error. -/
def outOfStep (c : Client) (s : CConn × CShared) : Bool :=
  match runClient env testOnBorrow s with
  | (.val true, s₀) =>
    match runClient env (c.write (str "ping")) s₀ with
    | (.val (_, c₁), s₁) =>
      match runClient env (c₁.read 10) s₁ with
      | (.val ((bs, some _), _), _) => bs.isEmpty
      | _ => false
    | _ => false
  | _ => false

/-- What the connection will deliver, if it is a TCP connection. -/
def tcpInput : Transport → Option (List Ev)
  | .tcp input => some input
  | _ => none

theorem tcpInput_some {t : Transport} {input : List Ev} (h : tcpInput t = some input) : t = .tcp input := by
  cases t <;> cases h
  rfl

/-- The previous borrower sent "ping" and did not read the reply. -/
theorem used_outOfStep : ∃ c s, Used (C := Toy.crypto) c s ∧ (c.buffer.isEmpty &&
      (c.session.map fun x => (x.secret, x.sendCounter)) == some (beEnc 32 14, 0) &&
      s.2.counters == [1#64] &&
      tcpInput s.1.net == some [.data (reply 1 (str "pong") ++ Wire.helloResponse ++ reply 2 (str "pang"))] &&
      outOfStep c s) = true :=
  used_dial (env := env) (udp := false) (s := net2) (calls := [.write (str "ping")])
    (by decide +kernel)

/-- The client's `Write` sets a deadline; after some time the borrow test fails, although the
server has answered. -/
def tired (time : Nat) (c : Client) (s : Timed) : Bool :=
  match (c.call (.write (str "ping"))).run (texec c.readTimeout c.writeTimeout env) s with
  | (.val c', s') =>
    match (c'.call (.read 10)).run (texec c'.readTimeout c'.writeTimeout env) s' with
    | (.val c'', s'') =>
      tcpInput s''.conn.net == some [.data Wire.helloResponse] &&
      (match (testOnBorrow.run (texec c''.readTimeout c''.writeTimeout env) s'').1 with
        | .val true => true
        | _ => false) &&
      (match (testOnBorrow.run (texec c''.readTimeout c''.writeTimeout env)
          { s'' with now := s''.now + time }).1 with
        | .val false => true
        | _ => false)
    | _ => false
  | _ => false

/-- `P` holds after dialling. -/
def dialThen (start : Timed) (P : Client → Timed → Bool) : Bool :=
  match (dial false (.ok (str "example.com")) {}).run (texec 0 0 env) start with
  | (.val (.ok c), s') => P c s'
  | _ => false

theorem usedT_dial {conn : CConn} {shared : CShared} {now : Nat} {P : Client → Timed → Bool}
    (h : dialThen ⟨conn, shared, now, none, none⟩ P = true) :
    ∃ c s, UsedT (C := Toy.crypto) c s ∧ P c s = true := by
  rw [dialThen] at h
  split at h
  · rename_i c s heq; exact ⟨c, s, .dialled heq, h⟩
  · cases h

/-- Five seconds, the default timeout. -/
theorem used_tired : ∃ c s, UsedT (C := Toy.crypto) c s ∧ ∃ time, tired time c s = true := by
  obtain ⟨c, s, hu, h⟩ := usedT_dial (conn := net1.1) (shared := net1.2) (now := 17)
    (P := tired 5000000000) (by decide +kernel)
  exact ⟨c, s, hu, _, h⟩

theorem tired_spec {c : Client} {s : Timed} (hu : UsedT (C := Toy.crypto) c s)
    (h : ∃ time, tired time c s = true) :
    ∃ c' s', UsedT (C := Toy.crypto) c' s' ∧ s'.conn.net = .tcp [.data Wire.helloResponse] ∧
      ∃ time, (testOnBorrow.run (texec c'.readTimeout c'.writeTimeout env)
        { s' with now := s'.now + time }).1 ≠ .val true := by
  obtain ⟨time, h⟩ := h
  rw [tired] at h
  split at h
  · rename_i c₁ s₁ h1
    split at h
    · rename_i c₂ s₂ h2
      simp only [Bool.and_eq_true, beq_iff_eq] at h
      refine ⟨c₂, s₂, .called (.called hu h1) h2, tcpInput_some h.1.1, time, fun heq => ?_⟩
      have := h.2
      rw [heq] at this
      cases this
    · cases h
  · cases h

end BorrowExample

/-- **C47** is false: the previous borrower's data is returned.  Here the previous borrower read one
octet of "pong"; the next one borrows the client, sends "ping", and reads "ong" although nothing has
been received since. -/
theorem C47_refuted : ¬ C47_claim := by
  intro h
  obtain ⟨c, s, hu, hst⟩ := BorrowExample.used_leaks
  rw [BorrowExample.leaks] at hst
  split at hst
  · rename_i s₀ ht
    obtain ⟨c₁, s₁, err, c₂, s₂, hw, hempty, hr⟩ := ClientExample.stale_spec hst
    obtain ⟨session, counter, ct, message, -, -, ⟨key, header, ct', rest, -, hstream, -, -⟩, -⟩ :=
      h Toy.crypto _ _ _ c c₁ c₂ s s₀ s₁ s₂ (str "ping") _ 10 54 err Toy.lawful hu (by decide +kernel) ht
        hw hr (by decide +kernel)
    rw [hempty] at hstream
    simp at hstream
  · cases hst

/-- **C69** is false: a reply that nobody read makes the borrow test pass, because the test looks at the
first octet of that reply, and then every octet is read one position too late.  Here the previous
borrower sent "ping" and did not read the reply; the server answers everything, and `Read` fails. -/
theorem C69_refuted : ¬ C69_claim := by
  intro h
  obtain ⟨c, s, hu, hP⟩ := BorrowExample.used_outOfStep
  simp only [Bool.and_eq_true, beq_iff_eq, List.isEmpty_iff, Option.map_eq_some_iff, Prod.mk.injEq] at hP
  obtain ⟨⟨⟨⟨hb, session, hs, hsec, haddr⟩, hcount⟩, hnet⟩, hout⟩ := hP
  have hk : deriveKey Toy.crypto session.secret kdfInfo aesKeySize = .ok OnceExample.key := by
    rw [hsec]; exact SessionExample.key_ok
  rw [BorrowExample.outOfStep] at hout
  split at hout
  · rename_i s₀ ht
    obtain ⟨c₁, s₁, c₂, s₂, err, hw, hr⟩ := h Toy.crypto HandshakeExample.env c s s₀ session OnceExample.key
      (str "ping") (str "pang") 10 2 (ClientExample.reply 1 (str "pong")) _ Toy.lawful hu
      (BorrowExample.tcpInput_some hnet) (by decide +kernel) (by decide +kernel) (by decide +kernel) hb rfl rfl
      rfl hs hk (by rw [haddr, hcount]; rfl) (by decide) (by decide +kernel) ht
    rw [hw] at hout
    dsimp only at hout
    rw [hr] at hout
    split at hout
    · rename_i bs _ _ _ heq
      cases heq
      revert hout
      decide +kernel
    · cases hout
  · cases hout

/-- **C56** is false: with the default timeouts, a client that was used, returned to the pool with all
replies read and borrowed again five seconds later fails the borrow test, although the connection is
healthy and the server answers.  (`Get` then closes the client, which puts it back into the pool, and
tries again: see `C44_diverges`.) -/
theorem C56_refuted : ¬ C56_claim := by
  intro h
  obtain ⟨c, s, hu, ht⟩ := BorrowExample.used_tired
  obtain ⟨c', s', hu', hnet, time, hfail⟩ := BorrowExample.tired_spec hu ht
  refine hfail (h Toy.crypto HandshakeExample.env c' _ [] Toy.lawful (hu'.idle time) rfl ?_)
  rw [show ({ s' with now := s'.now + time } : Timed).conn = s'.conn from rfl, hnet]
  rfl

/-- The hypotheses of the partial theorems can be met: after a conversation the client is borrowed, and
then "pang" is read as the reply to "ping".  (For `C56_before_deadline_partial` see `tired`.) -/
example : ClientExample.afterDial HandshakeExample.env (fun c s =>
    match runClient HandshakeExample.env (c.call (.read 10)) s with
    | (.val c, s) =>
      match runClient HandshakeExample.env testOnBorrow s with
      | (.val true, s) =>
        match runClient HandshakeExample.env (c.write (str "ping")) s with
        | (.val ((54, none), c), s) =>
          match runClient HandshakeExample.env (c.read 10) s with
          | (.val ((bs, some .eof), _), _) => bs == str "pang"
          | _ => false
        | _ => false
      | _ => false
    | _ => false) BorrowExample.net2 [.write (str "ping")] = true := by decide +kernel

end Goe2ee
