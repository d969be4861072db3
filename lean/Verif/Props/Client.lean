import Verif.Proofs.ClientCalls
import Verif.Props.Handshake

/-!
# C23, C25, C26: reading and writing
-/

set_option autoImplicit false

namespace Goe2ee

section
variable {C : Crypto}

/-! ## C23 -/

/-- The octets `stream` start with a success response with this counter whose ciphertext opens under
the session's key with the server-to-client nonce of the counter. -/
def StartsWithReply (C : Crypto) (session : ClientSession) (counter : BitVec 64)
    (stream : List (Byte ⊕ Err)) (message : Bytes) : Prop :=
  ∃ key header ct rest, deriveKey C session.secret kdfInfo aesKeySize = .ok key ∧
    stream = (header :: (Wire.be64 counter.toNat ++ Wire.be64 ct.length ++ ct)).map Sum.inl ++ rest ∧
    header.msb = true ∧ C.aeadOpen key (Wire.nonce12 1 counter.toNat) ct = some message

/-- After any history: if a `Write` is followed by a `Read` that returns data, the octets received
after the `Write` are an authentic reply to it, and the data is a prefix of the reply. -/
def C23_claim : Prop :=
  ∀ (C : Crypto) (env env' : CEnv C) (c c₁ c₂ : Client) (s s₁ s₂ : CConn × CShared) (p bs : Bytes)
    (n m : Nat) (err : Option Err), C.Lawful → Used (C := C) c s → p.length < 2 ^ 63 →
    runClient env (c.write p) s = (.val ((m, none), c₁), s₁) →
    runClient env' (c₁.read n) s₁ = (.val ((bs, err), c₂), s₂) → bs ≠ [] →
    ∃ session counter ct message, c.session = some session ∧
      s₁.1.writes = s.1.writes ++
        [(Wire.processRequest c.expectReply session.id.val counter.toNat ct, m, none)] ∧
      StartsWithReply C session counter s₁.1.net.stream message ∧ bs = message.take n

/-- **C23**, what holds: whatever the client's state, a `Read` that returns data without an error or
with `io.EOF` either continues with the octets left over from earlier replies, or the octets received
are an authentic reply to the latest request; nothing else is ever returned as data, and no call of
`Read` changes which counter it waits for. -/
theorem C23_only_authentic_partial (env : CEnv C) (c c' : Client) (s s' : CConn × CShared) (n : Nat)
    (bs : Bytes) (err : Option Err)
    (h : runClient env (c.read n) s = (.val ((bs, err), c'), s')) :
    c'.lastSentCounter = c.lastSentCounter ∧ c'.session = c.session ∧
    ((bs = [] ∧ (∃ e, err = some e) ∧ c'.buffer = c.buffer) ∨
     (bs = c.buffer.take n ∧ c'.buffer = c.buffer.drop n ∧ c.buffer ≠ [] ∧
        s'.1.net.stream = s.1.net.stream) ∨
     (∃ session message, c.session = some session ∧ c.buffer = [] ∧
        StartsWithReply C session c.lastSentCounter s.1.net.stream message ∧
        bs = message.take n ∧ c'.buffer = message.drop n)) := by
  obtain ⟨-, -, -, ho⟩ := read_outcome (s := s.1) (w := s.2) (s' := s'.1) (w' := s'.2) h
  generalize hout : (((bs, err), c') : (Bytes × Option Err) × Client) = out at ho
  generalize hs' : s'.1 = t at ho ⊢
  cases ho with
  | failed e s' => cases hout; exact ⟨rfl, rfl, .inl ⟨rfl, ⟨_, rfl⟩, rfl⟩⟩
  | buffered hbuf =>
    rw [readBuffer, if_neg (fun h => hbuf h.1)] at hout
    cases hout
    exact ⟨rfl, rfl, .inr (.inl ⟨rfl, rfl, hbuf, rfl⟩)⟩
  | reply session header ct key message net g1 g2 g3 g4 g5 g6 =>
    rw [readBuffer] at hout
    have hA : StartsWithReply C session c.lastSentCounter s.1.net.stream message :=
      ⟨key, header, ct, _, g5, g4, g3, g6⟩
    split at hout
    · rename_i hm
      cases hout
      have hm1 : message = [] := hm.1
      refine ⟨rfl, rfl, .inl ⟨rfl, ⟨_, rfl⟩, ?_⟩⟩
      rw [g1]; exact hm1
    · cases hout
      exact ⟨rfl, rfl, .inr (.inr ⟨session, message, g2, g1, hA, rfl, rfl⟩)⟩

/-- **C23**, what holds: the claim for a client whose buffer is empty (every octet of earlier replies
was read). -/
theorem C23_reply_authentic_partial (hC : C.Lawful) (env env' : CEnv C) (c c₁ c₂ : Client)
    (s s₁ s₂ : CConn × CShared) (p bs : Bytes) (n m : Nat) (err : Option Err)
    (hp : p.length < 2 ^ 63) (hb : c.buffer = [])
    (hw : runClient env (c.write p) s = (.val ((m, none), c₁), s₁))
    (hr : runClient env' (c₁.read n) s₁ = (.val ((bs, err), c₂), s₂)) (hne : bs ≠ []) :
    ∃ session counter ct message, c.session = some session ∧
      s₁.1.writes = s.1.writes ++
        [(Wire.processRequest c.expectReply session.id.val counter.toNat ct, m, none)] ∧
      StartsWithReply C session counter s₁.1.net.stream message ∧ bs = message.take n := by
  obtain ⟨session, key, counter, h1, h2, h3, h4, h5, h6, h7, h8, h9⟩ := write_ok hC hp hw
  obtain ⟨-, -, ⟨h, -, -⟩ | ⟨-, -, h, -⟩ | ⟨session', message, g1, -, g2, g3, -⟩⟩ :=
    C23_only_authentic_partial env' c₁ c₂ s₁ s₂ n bs err hr
  · exact absurd h hne
  · rw [h7] at h; exact absurd hb h
  · rw [h7] at g1 g2
    rw [show c.session = some session' from g1] at h1
    cases h1
    exact ⟨session, counter, _, message, g1, by rw [h8]; rfl, g2, g3⟩

end

namespace ClientExample
open HandshakeExample

/-- The server's answer to the request with this counter. -/
def reply (counter : Nat) (message : Bytes) : Bytes :=
  Wire.processResponse counter
    (Toy.crypto.aeadSeal OnceExample.key (Wire.nonce12 1 counter) message)

/-- `P` holds after these calls. -/
def after (env : CEnv Toy.crypto) (P : Client → CConn × CShared → Bool) (c : Client)
    (s : CConn × CShared) : List CCall → Bool
  | [] => P c s
  | call :: calls =>
    match runClient env (c.call call) s with
    | (.val c', s') => after env P c' s' calls
    | _ => false

/-- `P` holds after a dial and these calls. -/
def afterDial (env : CEnv Toy.crypto) (P : Client → CConn × CShared → Bool) (s : CConn × CShared)
    (calls : List CCall) (udp : Bool := false) : Bool :=
  match runClient env (dial udp (.ok (str "example.com")) {}) s with
  | (.val (.ok c), s') => after env P c s' calls
  | _ => false

theorem used_after {env : CEnv Toy.crypto} {P : Client → CConn × CShared → Bool} {calls : List CCall}
    {c : Client} {s : CConn × CShared} (hu : Used (C := Toy.crypto) c s)
    (h : after env P c s calls = true) : ∃ c s, Used (C := Toy.crypto) c s ∧ P c s = true := by
  induction calls generalizing c s with
  | nil => exact ⟨c, s, hu, h⟩
  | cons call calls ih =>
    rw [after] at h
    split at h
    · rename_i heq; exact ih (.called hu heq) h
    · cases h

theorem used_dial {env : CEnv Toy.crypto} {P : Client → CConn × CShared → Bool} {calls : List CCall}
    {s : CConn × CShared} {udp : Bool} (h : afterDial env P s calls udp = true) :
    ∃ c s, Used (C := Toy.crypto) c s ∧ P c s = true := by
  rw [afterDial] at h
  split at h
  · rename_i heq; exact used_after (.dialled heq) h
  · cases h

/-- The network: the handshake succeeds, then the first message is answered with `message`. -/
def net (message : Bytes) : CConn × CShared := start (.tcp [.data (answer 4 ++ reply 1 message)])

/-- `Write` returns 54 and no error, nothing has been received, and `Read` returns "ong". -/
def stale (c : Client) (s : CConn × CShared) : Bool :=
  match runClient env (c.write (str "ping")) s with
  | (.val ((n, none), c₁), s₁) => n == 54 && s₁.1.net.stream.isEmpty &&
    match runClient env (c₁.read 10) s₁ with
    | (.val ((bs, _), _), _) => bs == str "ong"
    | _ => false
  | _ => false

/-- "ping" was sent, one octet of the reply "pong" was read. -/
theorem used_stale : ∃ c s, Used (C := Toy.crypto) c s ∧ stale c s = true :=
  used_dial (env := env) (udp := false) (s := net (str "pong"))
    (calls := [.write (str "ping"), .read 1])
    (by decide +kernel)

theorem stale_spec {c : Client} {s : CConn × CShared} (h : stale c s = true) :
    ∃ c₁ s₁ err c₂ s₂, runClient env (c.write (str "ping")) s = (.val ((54, none), c₁), s₁) ∧
      s₁.1.net.stream = [] ∧
      runClient env (c₁.read 10) s₁ = (.val ((str "ong", err), c₂), s₂) := by
  rw [stale] at h
  split at h
  · rename_i n c₁ s₁ heq
    simp only [Bool.and_eq_true, beq_iff_eq, List.isEmpty_iff] at h
    obtain ⟨⟨h1, h2⟩, h3⟩ := h
    split at h3
    · rename_i bs err c₂ s₂ heq2
      rw [beq_iff_eq] at h3
      subst h1 h3
      exact ⟨c₁, s₁, err, c₂, s₂, heq, h2, heq2⟩
    · cases h3
  · cases h

end ClientExample

/-- **C23** is false: data left over from the reply to an earlier request is returned after a later
`Write`, although nothing has been received since.  Here "ping" is sent twice, one octet of the first
reply is read in between, and the second `Read` returns the rest of the first reply. -/
theorem C23_stale_data : ¬ C23_claim := by
  intro h
  obtain ⟨c, s, hu, hst⟩ := ClientExample.used_stale
  obtain ⟨c₁, s₁, err, c₂, s₂, hw, hempty, hr⟩ := ClientExample.stale_spec hst
  obtain ⟨session, counter, ct, message, -, -, ⟨key, header, ct', rest, -, hstream, -, -⟩, -⟩ :=
    h Toy.crypto _ _ c c₁ c₂ s s₁ s₂ (str "ping") _ 10 54 err Toy.lawful hu (by decide +kernel) hw hr (by decide +kernel)
  rw [hempty] at hstream
  simp at hstream

/-- The hypotheses of the partial theorems can be met: "pong" is read as the reply to "ping". -/
example : ClientExample.afterDial HandshakeExample.env (fun c s => c.buffer.isEmpty &&
    match runClient HandshakeExample.env (c.read 10) s with
    | (.val ((bs, some .eof), _), _) => bs == str "pong"
    | _ => false) (ClientExample.net (str "pong")) [.write (str "ping")] = true := by decide +kernel

section
variable {C : Crypto}

/-! ## C25 -/

/-- `Write` reports at most the length of the data. -/
def C25_claim : Prop :=
  ∀ (C : Crypto) (env : CEnv C) (c c' : Client) (s s' : CConn × CShared) (p : Bytes) (n : Nat),
    C.Lawful → Used (C := C) c s → runClient env (c.write p) s = (.val ((n, none), c'), s') →
    n ≤ p.length

/-- **C25** is false: `Write` of four octets returns 54. -/
theorem C25_returns_wire_length : ¬ C25_claim := by
  intro h
  obtain ⟨c, s, hu, hst⟩ := ClientExample.used_stale
  obtain ⟨c₁, s₁, err, c₂, s₂, hw, -, -⟩ := ClientExample.stale_spec hst
  exact absurd (h Toy.crypto _ c c₁ s s₁ (str "ping") 54 Toy.lawful hu hw) (by decide +kernel)

/-- **C25**, what holds: a successful `Write` of `p` sent one process request with the encryption of
`p`, and reports the octets the transport accepted of it; a completely accepted request counts
`len(p) + 50` octets, so the contract of `io.Writer` is broken by every complete `Write`. -/
theorem C25_count_partial (hC : C.Lawful) (env : CEnv C) (c c' : Client) (s s' : CConn × CShared)
    (p : Bytes) (n : Nat) (hp : p.length < 2 ^ 63)
    (h : runClient env (c.write p) s = (.val ((n, none), c'), s')) :
    n = p.length + 50 - env.write.1 ∧
    ∃ session key counter ct, c.session = some session ∧
      deriveKey C session.secret kdfInfo aesKeySize = .ok key ∧
      ct = C.aeadSeal key (Wire.nonce12 0 counter) p ∧
      s'.1.writes = s.1.writes ++
        [(Wire.processRequest c.expectReply session.id.val counter ct, n, none)] := by
  obtain ⟨session, key, counter, h1, h2, h3, h4, h5, h6, h7, h8, h9⟩ :=
    write_ok (s := s.1) (w := s.2) (s' := s'.1) (w' := s'.2) hC hp h
  refine ⟨?_, session, key, counter.toNat, _, h1, h2, rfl, by rw [h8]; rfl⟩
  rw [h5]
  have : (writeRequest C c session key counter p).length = p.length + 50 := by
    simp [writeRequest, Wire.processRequest, Wire.be64, hC.seal_length, session.id.property]
    omega
  rw [this]

/-! ## C26 -/

/-- Reading a reply with any sequence of buffer sizes that goes on until the reply is exhausted or
stops earlier: the data is the reply, in order, and `io.EOF` comes with the last piece. -/
def C26_claim : Prop :=
  ∀ (C : Crypto) (c c' : Client) (s s' : CConn × CShared) (session : ClientSession)
    (key message : Bytes) (rest : List (Byte ⊕ Err)) (ns : List Nat) (rs : List (Bytes × Option Err)),
    C.Lawful → c.buffer = [] → c.session = some session →
    deriveKey C session.secret kdfInfo aesKeySize = .ok key → message.length + 16 ≤ 2 ^ 30 →
    s.1.net.stream = (Wire.processResponse c.lastSentCounter.toNat
      (C.aeadSeal key (Wire.nonce12 1 c.lastSentCounter.toNat) message)).map Sum.inl ++ rest →
    Reads (C := C) c s ns rs c' s' →
    (∀ i, 0 < i → i < ns.length → (ns.take i).sum < message.length) →
    (rs.map (·.1)).flatten = message.take ns.sum ∧
    ∀ (i : Nat) (r : Bytes × Option Err), rs[i]? = some r →
      r.2 = if message.length ≤ (ns.take (i + 1)).sum then some .eof else none

/-- **C26** is false for an empty reply: `Read` fails with an error that wraps `io.EOF`, for every
client and every non-empty caller's buffer. -/
theorem C26_empty_reply (hC : C.Lawful) (env : CEnv C) (c : Client) (s : CConn × CShared)
    (session : ClientSession) (key : Bytes) (rest : List (Byte ⊕ Err)) (n : Nat) (hn : 0 < n)
    (hd : env.readDeadline = none) (hb : c.buffer = []) (hs : c.session = some session)
    (hk : deriveKey C session.secret kdfInfo aesKeySize = .ok key)
    (hstream : s.1.net.stream = (Wire.processResponse c.lastSentCounter.toNat
      (C.aeadSeal key (Wire.nonce12 1 c.lastSentCounter.toNat) [])).map Sum.inl ++ rest) :
    ∃ s', runClient env (c.read n) s =
      (.val (([], some (.wrap "failed to read data from buffer" .eof)), c), s') := by
  obtain ⟨t, -, h⟩ := read_accepts (n := n) (s := s.1) (w := s.2) hC hd hb hs hk
    (by rw [hC.seal_length]; decide) hstream (hC.open_seal _ _ _)
  have he : readBuffer { c with buffer := [] } n =
      (([], some (.wrap "failed to read data from buffer" .eof)), c) := by
    rw [readBuffer, if_pos ⟨rfl, hn⟩, ← hb]
  rw [he] at h
  exact ⟨_, h⟩

theorem C26_not_claim : ¬ C26_claim := by
  intro h
  obtain ⟨c, s, -, hP⟩ := ClientExample.used_dial (env := HandshakeExample.env)
    (udp := false) (P := fun c s => c.buffer.isEmpty && (c.session.map (·.secret) == some (beEnc 32 14)) &&
      decide (s.1.net.stream = (Wire.processResponse c.lastSentCounter.toNat (Toy.crypto.aeadSeal OnceExample.key
        (Wire.nonce12 1 c.lastSentCounter.toNat) [])).map Sum.inl))
    (s := ClientExample.net []) (calls := [.write (str "ping")]) (by decide +kernel)
  simp only [Bool.and_eq_true, beq_iff_eq, List.isEmpty_iff, Option.map_eq_some_iff,
    decide_eq_true_eq] at hP
  obtain ⟨⟨hb, session, hs, hsec⟩, hstream⟩ := hP
  have hk : deriveKey Toy.crypto session.secret kdfInfo aesKeySize = .ok OnceExample.key := by
    rw [hsec]; exact SessionExample.key_ok
  rw [← List.append_nil (List.map _ _)] at hstream
  obtain ⟨s', hr⟩ := C26_empty_reply Toy.lawful HandshakeExample.env c s session _ [] 10 (by decide)
    rfl hb hs hk hstream
  have := (h Toy.crypto c c s s' session OnceExample.key [] [] [10]
    [([], some (.wrap "failed to read data from buffer" .eof))] Toy.lawful hb hs hk (by decide) hstream
    (.call (env := HandshakeExample.env) rfl hr (.done _ _))
    (by intro i h1 h2; simp at h2; omega)).2 0 _ rfl
  revert this
  decide

/-- **C26**, what holds: the claim for every non-empty reply, with any segmentation of the octets and
any buffer sizes (also zero); afterwards nothing of the reply is left and nothing after it was
consumed. -/
theorem C26_reads_partial (hC : C.Lawful) (c c' : Client) (s s' : CConn × CShared)
    (session : ClientSession) (key message : Bytes) (rest : List (Byte ⊕ Err)) (ns : List Nat)
    (rs : List (Bytes × Option Err)) (hm : message ≠ []) (hb : c.buffer = [])
    (hs : c.session = some session) (hk : deriveKey C session.secret kdfInfo aesKeySize = .ok key)
    (hl : message.length + 16 ≤ 2 ^ 30)
    (hstream : s.1.net.stream = (Wire.processResponse c.lastSentCounter.toNat
      (C.aeadSeal key (Wire.nonce12 1 c.lastSentCounter.toNat) message)).map Sum.inl ++ rest)
    (h : Reads (C := C) c s ns rs c' s')
    (hns : ∀ i, 0 < i → i < ns.length → (ns.take i).sum < message.length) :
    (rs.map (·.1)).flatten = message.take ns.sum ∧
    (∀ (i : Nat) (r : Bytes × Option Err), rs[i]? = some r →
      r.2 = if message.length ≤ (ns.take (i + 1)).sum then some .eof else none) ∧
    (ns ≠ [] → s'.1.net.stream = rest ∧ c'.buffer = message.drop ns.sum) := by
  have hpos : 0 < message.length := by
    cases message with
    | nil => exact absurd rfl hm
    | cons => simp
  cases h with
  | done => simp
  | @call env _ c₁ _ _ s₁ _ n ns r rs hd hr hrest =>
    obtain ⟨t, ht, hrun⟩ := read_accepts (n := n) (s := s.1) (w := s.2) hC hd hb hs hk
      (by rw [hC.seal_length]; exact hl) hstream (hC.open_seal _ _ _)
    -- the same results as if the reply had been in the buffer before
    have hread : Reads (C := C) { c with buffer := message } ({ s.1 with net := t }, s.2) (n :: ns)
        (r :: rs) c' s' := by
      rw [runClient, hrun] at hr
      refine .call hd ?_ hrest
      rw [runClient, read_buffered hd (by exact hm)]
      exact hr
    obtain ⟨h1, h2, h3, h4⟩ := reads_buffer hread hm (by
      intro i hi
      cases i with
      | zero => simpa using hpos
      | succ i => exact hns _ (by omega) hi)
    exact ⟨h1, h2, fun _ => ⟨by rw [h4]; exact ht, by rw [h3]⟩⟩

/-- The reply "pong" read with buffers of 1, 0, 2 and 10 octets. -/
example : ClientExample.afterDial HandshakeExample.env (fun c s =>
    match runClient HandshakeExample.env (c.read 1) s with
    | (.val ((b₁, none), c₁), s₁) =>
      match runClient HandshakeExample.env (c₁.read 0) s₁ with
      | (.val ((b₂, none), c₂), s₂) =>
        match runClient HandshakeExample.env (c₂.read 2) s₂ with
        | (.val ((b₃, none), c₃), s₃) =>
          match runClient HandshakeExample.env (c₃.read 10) s₃ with
          | (.val ((b₄, some .eof), _), _) =>
            b₁ == str "p" && b₂ == [] && b₃ == str "on" && b₄ == str "g"
          | _ => false
        | _ => false
      | _ => false
    | _ => false) (ClientExample.net (str "pong")) [.write (str "ping")] = true := by decide +kernel

end

end Goe2ee
