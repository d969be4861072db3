import Verif.Props.Client

/-!
# C95, C96, C97: the client and the sequence of responses
-/

set_option autoImplicit false

namespace Goe2ee

/-- A complete response to a process request, as far as its layout goes (reserved bits are free): an error
response, or a success response with any counter and any ciphertext up to the limit. -/
inductive CompleteResponse : Bytes → Prop where
  | error (header : Byte) (code : BitVec 32) (text : Bytes) (hh : header.msb = false)
      (hl : text.length < 2 ^ 63) :
      CompleteResponse (header :: (Wire.be32 code.toNat ++ Wire.be64 text.length ++ text))
  | success (header : Byte) (counter : BitVec 64) (ct : Bytes) (hh : header.msb = true)
      (hl : ct.length ≤ 2 ^ 30) :
      CompleteResponse (header :: (Wire.be64 counter.toNat ++ Wire.be64 ct.length ++ ct))

/-- The reply that a response gives to the request with this counter, under this key. -/
def IsReply (C : Crypto) (key : Bytes) (counter : BitVec 64) (response message : Bytes) : Prop :=
  ∃ header ct, header.msb = true ∧ ct.length ≤ 2 ^ 30 ∧
    response = header :: (Wire.be64 counter.toNat ++ Wire.be64 ct.length ++ ct) ∧
    C.aeadOpen key (Wire.nonce12 1 counter.toNat) ct = some message

theorem success_msb (b : Byte) : ((b >>> 7) == 1#8) = b.msb := by
  revert b; decide

section
variable {C : Crypto}

/-- **C95**: a `Read` without buffered data takes exactly one response from the connection, whatever that
response says (an error, another counter, a ciphertext that does not open), however the octets are
segmented and whatever follows; the data returned is that of a genuine reply to the latest request, and
otherwise there is an error and the client is as before. -/
theorem C95_one_response (hC : C.Lawful) (env : CEnv C) (c : Client) (s : CConn × CShared) (n : Nat)
    (session : ClientSession) (key response : Bytes) (rest : List (Byte ⊕ Err))
    (hd : env.readDeadline = none) (hb : c.buffer = []) (hs : c.session = some session)
    (hk : deriveKey C session.secret kdfInfo aesKeySize = .ok key) (hr : CompleteResponse response)
    (hstream : s.1.net.stream = response.map Sum.inl ++ rest) :
    ∃ result c' s', runClient env (c.read n) s = (.val (result, c'), s') ∧ s'.1.net.stream = rest ∧
      ((∃ message, IsReply C key c.lastSentCounter response message ∧
          (result, c') = readBuffer { c with buffer := message } n) ∨
       ((¬ ∃ message, IsReply C key c.lastSentCounter response message) ∧
          c' = c ∧ result.1 = [] ∧ ∃ e, result.2 = some e)) := by
  obtain ⟨key', hk1, hk2⟩ := newGCM_ok hC session.secret
  rw [hk] at hk1
  cases hk1
  obtain ⟨conn, w⟩ := s
  cases hr with
  | error header code text hh hl =>
    rw [List.map_cons, List.cons_append] at hstream
    have h1 := (congrArg (runI parseResponseCommon) hstream).trans (runI_parseResponseCommon _ _)
    have h2 := congrArg (runI (parseErrorResponse ⟨(header >>> 7) == 1#8, (header <<< 1) >>> 1⟩))
      (runNet_rest h1)
    rw [show Wire.be32 code.toNat ++ Wire.be64 text.length ++ text =
      beEnc 4 code.toNat ++ (beEnc 8 text.length ++ text) by simp [beEnc_eight, beEnc_four],
      runI_parseErrorResponse _ code text hl rest] at h2
    have hrun : runClient env (c.read n) (conn, w) = (.val (([], some (.remote "failed to read data" code text)), c),
        ({ conn with net := (runNet (parseErrorResponse ⟨(header >>> 7) == 1#8, (header <<< 1) >>> 1⟩)
          (runNet parseResponseCommon conn.net).2).2 }, w)) := by
      rw [runClient, Client.read, run_readDeadline, hd, ite_self]
      dsimp only
      rw [if_neg (by simpa using hb), run_parse_eq _ _ h1]
      dsimp only
      rw [if_pos (by rw [success_msb, hh]; rfl), run_parse_eq _ _ h2]
      rfl
    refine ⟨_, _, _, hrun, runNet_rest h2, .inr ⟨?_, rfl, rfl, _, rfl⟩⟩
    rintro ⟨m, hd', ct, g1, -, g2, -⟩
    rw [← (List.cons.inj g2).1, hh] at g1
    cases g1
  | success header counter ct hh hl =>
    rw [List.map_cons, List.cons_append] at hstream
    have h1 := (congrArg (runI parseResponseCommon) hstream).trans (runI_parseResponseCommon _ _)
    have h2 := congrArg (runI (parseProcessResponse ⟨(header >>> 7) == 1#8, (header <<< 1) >>> 1⟩))
      (runNet_rest h1)
    rw [show Wire.be64 counter.toNat ++ Wire.be64 ct.length ++ ct =
      beEnc 8 counter.toNat ++ (beEnc 8 ct.length ++ ct) by simp [beEnc_eight],
      runI_parseProcessResponse _ counter ct hl rest] at h2
    have hrun : runClient env (c.read n) (conn, w) =
        (.val (if counter ≠ c.lastSentCounter then (([], some (.other "unexpected response counter")), c)
          else match C.aeadOpen key (Wire.nonce12 1 counter.toNat) ct with
            | none => (([], some (.wrap "failed to decrypt data from server" (.other "authentication"))), c)
            | some message => readBuffer { c with buffer := message } n),
        ({ conn with net := (runNet (parseProcessResponse ⟨(header >>> 7) == 1#8, (header <<< 1) >>> 1⟩)
          (runNet parseResponseCommon conn.net).2).2 }, w)) := by
      rw [runClient, Client.read, run_readDeadline, hd, ite_self]
      dsimp only
      rw [if_neg (by simpa using hb), run_parse_eq _ _ h1]
      dsimp only
      rw [if_neg (by rw [success_msb, hh]; decide), run_parse_eq _ _ h2]
      dsimp only
      by_cases hc : counter = c.lastSentCounter
      · rw [if_neg (by simpa using hc), if_neg (by simpa using hc), hs]
        dsimp only
        rw [hk2]
        dsimp only
        rw [show gcmNonceSize = 12 from rfl, C12_nonce_layout]
        dsimp only [ofClientRes, Prog.ret_bind]
        rw [show directionServerToClient = 1 from rfl]
        cases C.aeadOpen key (Wire.nonce12 1 counter.toNat) ct with
        | none => rw [← hs]; rfl
        | some m =>
          rw [← hs, hb]; rfl
      · rw [if_pos hc, if_pos hc]
        rfl
    have huniq : ∀ m, IsReply C key c.lastSentCounter
        (header :: (Wire.be64 counter.toNat ++ Wire.be64 ct.length ++ ct)) m →
        counter = c.lastSentCounter ∧ C.aeadOpen key (Wire.nonce12 1 counter.toNat) ct = some m := by
      rintro m ⟨header', ct', -, -, g2, g3⟩
      have g2 := (List.cons.inj g2).2
      rw [List.append_assoc, List.append_assoc] at g2
      obtain ⟨e1, g2⟩ := List.append_inj g2 rfl
      obtain ⟨-, e2⟩ := List.append_inj g2 rfl
      rw [← beEnc_eight, ← beEnc_eight] at e1
      have e1 : counter = c.lastSentCounter :=
        BitVec.eq_of_toNat_eq (beEnc_inj (by have := counter.isLt; omega)
          (by have := c.lastSentCounter.isLt; omega) e1)
      exact ⟨e1, by rw [e1, e2]; exact g3⟩
    by_cases hc : counter = c.lastSentCounter
    · rw [if_neg (by simpa using hc)] at hrun
      cases ho : C.aeadOpen key (Wire.nonce12 1 counter.toNat) ct with
      | none =>
        rw [ho] at hrun
        refine ⟨_, _, _, hrun, runNet_rest h2, .inr ⟨fun ⟨m, hm⟩ => ?_, rfl, rfl, _, rfl⟩⟩
        have := (huniq m hm).2
        rw [ho] at this
        cases this
      | some m =>
        rw [ho] at hrun
        subst hc
        exact ⟨_, _, _, hrun, runNet_rest h2, .inl ⟨m, ⟨header, ct, hh, hl, rfl, ho⟩, rfl⟩⟩
    · rw [if_pos hc] at hrun
      exact ⟨_, _, _, hrun, runNet_rest h2, .inr ⟨fun ⟨m, hm⟩ => hc (huniq m hm).1, rfl, rfl, _, rfl⟩⟩

/-- **C95**, staying in step: while complete responses arrive, every sequence of calls of `Read` stops at a
border between responses, also if some of the calls failed; nothing of a response is lost or left over. -/
theorem C95_in_step (hC : C.Lawful) (c c' : Client) (s s' : CConn × CShared) (session : ClientSession)
    (ns : List Nat) (rs : List (Bytes × Option Err)) (responses : List Bytes) (rest : List (Byte ⊕ Err))
    (hs : c.session = some session) (hr : ∀ r ∈ responses, CompleteResponse r)
    (hstream : s.1.net.stream = responses.flatten.map Sum.inl ++ rest) (hlen : ns.length ≤ responses.length)
    (h : Reads (C := C) c s ns rs c' s') :
    ∃ k ≤ ns.length, s'.1.net.stream = (responses.drop k).flatten.map Sum.inl ++ rest := by
  obtain ⟨key, hk, -⟩ := newGCM_ok hC session.secret
  induction h generalizing responses with
  | done => exact ⟨0, Nat.le_refl _, hstream⟩
  | @call env c c₁ c'' s s₁ s'' n ns r rs hd hrun hrest ih =>
    by_cases hb : c.buffer = []
    · cases responses with
      | nil => simp at hlen
      | cons response responses =>
        rw [List.flatten_cons, List.map_append, List.append_assoc] at hstream
        obtain ⟨result, c₂, s₂, g1, g2, g3⟩ := C95_one_response hC env c s n session key response _ hd hb hs hk
          (hr _ (List.mem_cons_self ..)) hstream
        rw [g1] at hrun
        cases hrun
        have hs' : c₁.session = some session := by
          rcases g3 with ⟨m, -, g3⟩ | ⟨-, rfl, -⟩
          · rw [readBuffer] at g3
            split at g3 <;> cases g3 <;> exact hs
          · exact hs
        obtain ⟨k, h1, h2⟩ := ih responses hs' (fun r hm => hr r (List.mem_cons_of_mem _ hm)) g2
          (by simpa using hlen)
        exact ⟨k + 1, by simpa using h1, h2⟩
    · rw [runClient, read_buffered hd hb, readBuffer, if_neg (fun h => hb h.1)] at hrun
      cases hrun
      obtain ⟨k, h1, h2⟩ := ih responses hs hr hstream
        (Nat.le_of_succ_le hlen)
      exact ⟨k, Nat.le_succ_of_le h1, h2⟩

/-! ## C96 -/

/-- **C96**, as the comment of `SetDeadline` promises ("after a deadline has been exceeded, the connection
can be refreshed"): a `Read` that ran into its deadline, wherever in the reply that was, can be repeated,
and returns the reply when the rest of it has arrived. -/
def C96_claim : Prop :=
  ∀ (C : Crypto) (env env' : CEnv C) (c c₁ c₂ : Client) (s s₁ s₂ : CConn × CShared) (n k : Nat)
    (session : ClientSession) (key message : Bytes) (rest : List (Byte ⊕ Err))
    (r₁ r₂ : Bytes × Option Err), C.Lawful → Used (C := C) c s → c.buffer = [] →
    c.session = some session → deriveKey C session.secret kdfInfo aesKeySize = .ok key →
    message.length + 16 ≤ 2 ^ 30 →
    let reply := Wire.processResponse c.lastSentCounter.toNat
      (C.aeadSeal key (Wire.nonce12 1 c.lastSentCounter.toNat) message)
    s.1.net.stream = (reply.take k).map Sum.inl ++ .inr .timeout :: ((reply.drop k).map Sum.inl ++ rest) →
    env.readDeadline = none → env'.readDeadline = none →
    runClient env (c.read n) s = (.val (r₁, c₁), s₁) → runClient env' (c₁.read n) s₁ = (.val (r₂, c₂), s₂) →
    r₂.1 = message.take n

/-- **C96**, what holds: if the deadline passed before the first octet of the reply, `Read` fails with an
error that says so, the client is as before, and the next `Read` returns the reply. -/
theorem C96_before_reply_partial (hC : C.Lawful) (env env' : CEnv C) (c : Client) (s : CConn × CShared)
    (n : Nat) (session : ClientSession) (key message : Bytes) (rest : List (Byte ⊕ Err))
    (hb : c.buffer = []) (hs : c.session = some session)
    (hk : deriveKey C session.secret kdfInfo aesKeySize = .ok key) (hl : message.length + 16 ≤ 2 ^ 30)
    (hd : env.readDeadline = none) (hd' : env'.readDeadline = none)
    (hstream : s.1.net.stream = .inr .timeout :: ((Wire.processResponse c.lastSentCounter.toNat
      (C.aeadSeal key (Wire.nonce12 1 c.lastSentCounter.toNat) message)).map Sum.inl ++ rest)) :
    ∃ e s₁ s₂, runClient env (c.read n) s = (.val (([], some e), c), s₁) ∧ e.isDeadline = true ∧
      runClient env' (c.read n) s₁ = (.val (readBuffer { c with buffer := message } n), s₂) ∧
      s₂.1.net.stream = rest := by
  obtain ⟨conn, w⟩ := s
  have h1 := (congrArg (runI parseResponseCommon) hstream).trans
    (runI_readOctet_fail "flags" _ .timeout _ (by decide))
  have hrun : runClient env (c.read n) (conn, w) =
      (.val (([], some (.wrap "failed to parse response" (.wrap ("failed to read " ++ "flags")
        .timeout))), c), ({ conn with net := (runNet parseResponseCommon conn.net).2 }, w)) := by
    rw [runClient, Client.read, run_readDeadline, hd, ite_self]
    dsimp only
    rw [if_neg (by simpa using hb), run_parse_eq _ _ h1]
    rfl
  obtain ⟨t, ht, hread⟩ := read_accepts (env := env') (n := n) (w := w)
    (s := { conn with net := (runNet parseResponseCommon conn.net).2 }) hC hd' hb hs hk
    (by rw [hC.seal_length]; exact hl) (runNet_rest h1) (hC.open_seal _ _ _)
  exact ⟨_, _, _, hrun, rfl, hread, ht⟩

/-- **C96**, over UDP: a deadline never passes in the middle of a reply, so the claim holds. -/
theorem C96_udp_partial (connRead : Bool) (buffer reply : Bytes) (queue : List (Except Err Bytes)) (k : Nat)
    (e : Err) (rest : List (Byte ⊕ Err)) (hk : k ≤ reply.length)
    (h : (Transport.udp connRead buffer queue).stream = (reply.take k).map Sum.inl ++ .inr e :: rest) :
    k = 0 := by
  have hno : ∀ d : Bytes, d.map Sum.inl ≠ (reply.take k).map Sum.inl ++ .inr e :: rest := by
    intro d hd
    have : Sum.inr e ∈ d.map (Sum.inl : Byte → Byte ⊕ Err) := by rw [hd]; simp
    obtain ⟨b, -, hb⟩ := List.mem_map.mp this
    cases hb
  cases connRead with
  | true => exact absurd h (hno _)
  | false =>
    cases queue with
    | nil => rw [Transport.stream, Transport.stream.received] at h; simp at h
    | cons x queue =>
      cases x with
      | ok d => exact absurd h (hno _)
      | error e' =>
        cases k with
        | zero => rfl
        | succ k =>
          cases reply with
          | nil => simp at hk
          | cons b reply =>
            rw [Transport.stream, Transport.stream.received] at h
            simp at h

end

namespace InStepExample
open HandshakeExample

/-- The handshake succeeds; one octet of the reply "pong", then the deadline passes, then the rest. -/
def slow : CConn × CShared :=
  start (.tcp [.data (answer 4 ++ [0x80#8]), .fail .timeout, .data ((ClientExample.reply 1 (str "pong")).drop 1)])

/-- The client has written "ping"; two calls of `Read` return nothing. -/
def fails (c : Client) (s : CConn × CShared) : Bool :=
  c.buffer.isEmpty && (c.session.map (·.secret) == some (beEnc 32 14)) &&
  decide (s.1.net.stream = ((ClientExample.reply 1 (str "pong")).take 1).map Sum.inl ++ .inr .timeout ::
    (((ClientExample.reply 1 (str "pong")).drop 1).map Sum.inl ++ [])) && (c.lastSentCounter == 1) &&
  match runClient env (c.read 10) s with
  | (.val (_, c₁), s₁) =>
    match runClient env (c₁.read 10) s₁ with
    | (.val (r, _), _) => r.1.isEmpty
    | _ => false
  | _ => false

end InStepExample

/-- **C96 is refuted**: what was read of the reply is lost, the next `Read` takes the octets after it for the
beginning of a response. -/
theorem C96_refuted : ¬ C96_claim := by
  intro h
  obtain ⟨c, s, hu, hP⟩ := ClientExample.used_dial (env := HandshakeExample.env) (udp := false)
    (P := InStepExample.fails) (s := InStepExample.slow) (calls := [.write (str "ping")]) (by decide +kernel)
  simp only [InStepExample.fails, Bool.and_eq_true, beq_iff_eq, List.isEmpty_iff, Option.map_eq_some_iff,
    decide_eq_true_eq] at hP
  obtain ⟨⟨⟨⟨hb, session, hs, hsec⟩, hstream⟩, hc⟩, hrun⟩ := hP
  have hk : deriveKey Toy.crypto session.secret kdfInfo aesKeySize = .ok OnceExample.key := by
    rw [hsec]; exact SessionExample.key_ok
  split at hrun
  · rename_i r₁ c₁ s₁ heq
    split at hrun
    · rename_i r₂ c₂ s₂ heq2
      have := h Toy.crypto _ _ c c₁ c₂ s s₁ s₂ 10 1 session OnceExample.key (str "pong") [] r₁ r₂ Toy.lawful hu
        hb hs hk (by decide +kernel) (by rw [hc]; exact hstream) rfl rfl heq heq2
      rw [List.isEmpty_iff.mp hrun] at this
      revert this
      decide +kernel
    · cases hrun
  · cases hrun

section
variable {C : Crypto}

/-! ## C97 -/

/-- **C97**, as for any connection: what is written before the first reply is read is answered in order.
Two messages are written, both genuine replies arrive: the first `Read` returns the first reply. -/
def C97_claim : Prop :=
  ∀ (C : Crypto) (env₁ env₂ env : CEnv C) (c c₁ c₂ c₃ : Client) (s s₁ s₂ s₃ : CConn × CShared) (n : Nat)
    (session : ClientSession) (key p₁ p₂ m₁ m₂ : Bytes) (w₁ w₂ : Nat) (rest : List (Byte ⊕ Err))
    (r : Bytes × Option Err), C.Lawful → Used (C := C) c s → c.buffer = [] →
    c.session = some session → deriveKey C session.secret kdfInfo aesKeySize = .ok key →
    p₁.length < 2 ^ 63 → p₂.length < 2 ^ 63 → m₁.length + 16 ≤ 2 ^ 30 → m₂.length + 16 ≤ 2 ^ 30 →
    runClient env₁ (c.write p₁) s = (.val ((w₁, none), c₁), s₁) →
    runClient env₂ (c₁.write p₂) s₁ = (.val ((w₂, none), c₂), s₂) →
    s₂.1.net.stream = (Wire.processResponse c₁.lastSentCounter.toNat
        (C.aeadSeal key (Wire.nonce12 1 c₁.lastSentCounter.toNat) m₁)).map Sum.inl ++
      ((Wire.processResponse c₂.lastSentCounter.toNat
        (C.aeadSeal key (Wire.nonce12 1 c₂.lastSentCounter.toNat) m₂)).map Sum.inl ++ rest) →
    env.readDeadline = none → runClient env (c₂.read n) s₂ = (.val (r, c₃), s₃) → r.1 = m₁.take n

/-- **C97**, what holds: of the replies to messages written one after the other, exactly the last is
returned.  While responses with other counters arrive (however many), each is taken by one call of `Read`,
which fails; then the reply to the latest message is read, and the octets after it are untouched. -/
theorem C97_last_reply_partial (hC : C.Lawful) (c c' : Client) (s s' : CConn × CShared)
    (session : ClientSession) (key message : Bytes) (others : List (BitVec 64 × Bytes)) (ns : List Nat)
    (rs : List (Bytes × Option Err)) (rest : List (Byte ⊕ Err)) (env : CEnv C) (n : Nat)
    (hb : c.buffer = []) (hs : c.session = some session)
    (hk : deriveKey C session.secret kdfInfo aesKeySize = .ok key) (hl : message.length + 16 ≤ 2 ^ 30)
    (hother : ∀ x ∈ others, x.1 ≠ c.lastSentCounter ∧ x.2.length ≤ 2 ^ 30)
    (hstream : s.1.net.stream = (others.map fun x => Wire.processResponse x.1.toNat x.2).flatten.map Sum.inl ++
      ((Wire.processResponse c.lastSentCounter.toNat
        (C.aeadSeal key (Wire.nonce12 1 c.lastSentCounter.toNat) message)).map Sum.inl ++ rest))
    (hlen : ns.length = others.length) (h : Reads (C := C) c s ns rs c' s')
    (hd : env.readDeadline = none) :
    c' = c ∧ (∀ r ∈ rs, r.1 = [] ∧ ∃ e, r.2 = some e) ∧
    ∃ s'', runClient env (c.read n) s' = (.val (readBuffer { c with buffer := message } n), s'') ∧
      s''.1.net.stream = rest := by
  induction h generalizing others with
  | done =>
    cases others with
    | cons => simp at hlen
    | nil =>
      refine ⟨rfl, fun _ h => absurd h List.not_mem_nil, ?_⟩
      rename_i c s
      obtain ⟨t, ht, hread⟩ := read_accepts (env := env) (n := n) (w := s.2) (s := s.1) hC hd hb hs hk
        (by rw [hC.seal_length]; exact hl) hstream (hC.open_seal _ _ _)
      exact ⟨_, hread, ht⟩
  | @call env' c c₁ c'' s s₁ s'' n' ns r rs hd' hrun hrest ih =>
    cases others with
    | nil => simp at hlen
    | cons x others =>
      obtain ⟨hx, hxl⟩ := hother x (List.mem_cons_self ..)
      rw [List.map_cons, List.flatten_cons, List.map_append, List.append_assoc] at hstream
      obtain ⟨result, c₂, s₂, g1, g2, g3⟩ := C95_one_response hC env' c s n' session key _ _ hd' hb hs hk
        (by
          have := CompleteResponse.success 0x80#8 x.1 x.2 (by decide) hxl
          simpa [Wire.processResponse] using this) hstream
      have hnot : ¬ ∃ m, IsReply C key c.lastSentCounter (Wire.processResponse x.1.toNat x.2) m := by
        rintro ⟨m, header', ct', -, -, g2, -⟩
        have g2 := (List.cons.inj g2).2
        simp only [List.nil_append, List.append_eq, List.append_assoc] at g2
        have e1 := (List.append_inj g2 rfl).1
        rw [← beEnc_eight, ← beEnc_eight] at e1
        exact hx (BitVec.eq_of_toNat_eq (beEnc_inj (by have := x.1.isLt; omega)
          (by have := c.lastSentCounter.isLt; omega) e1))
      rcases g3 with ⟨m, hm, -⟩ | ⟨-, rfl, g4, g5⟩
      · exact absurd ⟨m, hm⟩ hnot
      rw [g1] at hrun
      cases hrun
      obtain ⟨h1, h2, h3⟩ := ih others hb hs (fun y hy => hother y (List.mem_cons_of_mem _ hy)) g2
        (by simpa using hlen)
      refine ⟨h1, fun r' hr' => ?_, h3⟩
      rcases List.mem_cons.mp hr' with rfl | hr'
      · exact ⟨g4, g5⟩
      · exact h2 r' hr'

end

namespace InStepExample
open HandshakeExample

/-- The replies to the first and the second message arrive after the handshake. -/
def both : CConn × CShared :=
  start (.tcp [.data (answer 4 ++ ClientExample.reply 1 (str "one")), .data (ClientExample.reply 2 (str "two"))])

/-- "a" and "b" are written; then the two replies have arrived, but the first `Read` returns nothing; the
second returns the second reply. -/
def skips (c : Client) (s : CConn × CShared) : Bool :=
  c.buffer.isEmpty && (c.session.map (·.secret) == some (beEnc 32 14)) &&
  match runClient env (c.write (str "a")) s with
  | (.val ((_, none), c₁), s₁) =>
    match runClient env (c₁.write (str "b")) s₁ with
    | (.val ((_, none), c₂), s₂) =>
      (c₁.lastSentCounter == 1) && (c₂.lastSentCounter == 2) &&
      decide (s₂.1.net.stream = (ClientExample.reply 1 (str "one")).map Sum.inl ++
        ((ClientExample.reply 2 (str "two")).map Sum.inl ++ [])) &&
      match runClient env (c₂.read 10) s₂ with
      | (.val (r, c₃), s₃) => r.1.isEmpty &&
        match runClient env (c₃.read 10) s₃ with
        | (.val (r, _), _) => r.1 == str "two"
        | _ => false
      | _ => false
    | _ => false
  | _ => false

end InStepExample

/-- **C97 is refuted**: `Read` accepts only the counter of the latest message. -/
theorem C97_refuted : ¬ C97_claim := by
  intro h
  obtain ⟨c, s, hu, hP⟩ := ClientExample.used_dial (env := HandshakeExample.env) (udp := false)
    (P := InStepExample.skips) (s := InStepExample.both) (calls := []) (by decide +kernel)
  simp only [InStepExample.skips, Bool.and_eq_true, beq_iff_eq, List.isEmpty_iff, Option.map_eq_some_iff] at hP
  obtain ⟨⟨hb, session, hs, hsec⟩, hP⟩ := hP
  have hk : deriveKey Toy.crypto session.secret kdfInfo aesKeySize = .ok OnceExample.key := by
    rw [hsec]; exact SessionExample.key_ok
  split at hP
  · rename_i w₁ c₁ s₁ h1
    split at hP
    · rename_i w₂ c₂ s₂ h2
      simp only [Bool.and_eq_true, beq_iff_eq, decide_eq_true_eq] at hP
      obtain ⟨⟨⟨e1, e2⟩, hstream⟩, hP⟩ := hP
      split at hP
      · rename_i r c₃ s₃ h3
        simp only [Bool.and_eq_true, List.isEmpty_iff] at hP
        have := h Toy.crypto _ _ _ c c₁ c₂ c₃ s s₁ s₂ s₃ 10 session OnceExample.key (str "a") (str "b")
          (str "one") (str "two") _ _ [] r Toy.lawful hu hb hs hk (by decide +kernel) (by decide +kernel)
          (by decide +kernel) (by decide +kernel) h1 h2 (by rw [e1, e2]; exact hstream) rfl h3
        rw [hP.1] at this
        revert this
        decide +kernel
      · cases hP
    · cases hP
  · cases hP

/-! ## Examples -/

/-- The octets of the example are complete responses, so C95 and C97 apply to it: the first is not a reply to
the latest message, the second is. -/
example : CompleteResponse (ClientExample.reply 1 (str "one")) ∧ CompleteResponse (ClientExample.reply 2 (str "two")) ∧
    CompleteResponse (Wire.errorResponse 3 (str "unknown")) ∧
    IsReply Toy.crypto OnceExample.key 2 (ClientExample.reply 2 (str "two")) (str "two") ∧
    ∃ c s, Used (C := Toy.crypto) c s ∧ InStepExample.skips c s = true := by
  refine ⟨.success 0x80#8 1 (Toy.crypto.aeadSeal OnceExample.key (Wire.nonce12 1 1) (str "one")) (by decide)
      (by decide +kernel),
    .success 0x80#8 2 (Toy.crypto.aeadSeal OnceExample.key (Wire.nonce12 1 2) (str "two")) (by decide)
      (by decide +kernel), .error 0 3 (str "unknown") (by decide) (by decide +kernel),
    ⟨0x80#8, Toy.crypto.aeadSeal OnceExample.key (Wire.nonce12 1 2) (str "two"), by decide, by decide +kernel, rfl,
      by decide +kernel⟩,
    ClientExample.used_dial (env := HandshakeExample.env) (udp := false) (s := InStepExample.both) (calls := [])
      (by decide +kernel)⟩

/-- C96: a deadline before the first octet does no harm, over TCP and over UDP. -/
example : ∀ udp ∈ [false, true], ClientExample.afterDial HandshakeExample.env
    (fun c s => match runClient HandshakeExample.env (c.read 10) s with
      | (.val (r, c₁), s₁) => r.1.isEmpty && ((r.2.map Err.isDeadline) == some true) &&
        match runClient HandshakeExample.env (c₁.read 10) s₁ with
        | (.val (r, _), _) => r.1 == str "pong"
        | _ => false
      | _ => false)
    (HandshakeExample.start (if udp
      then .udp false [] [.ok (HandshakeExample.answer 4), .error .timeout, .ok (ClientExample.reply 1 (str "pong"))]
      else .tcp [.data (HandshakeExample.answer 4), .fail .timeout, .data (ClientExample.reply 1 (str "pong"))]))
    [.write (str "ping")] udp = true := by decide +kernel

end Goe2ee
