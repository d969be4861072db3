import Verif.Proofs.Errors
import Verif.Props.InStep

/-!
# C133, C134: what the errors of a client say

An application tells the reasons for which a call of the client failed apart with `errors.Is` (Go `errors`).
-/

set_option autoImplicit false

namespace Goe2ee

section
variable {C : Crypto}

/-! ## C133 -/

/-- **C133**, the promise of the comment of `SetDeadline` (client.go:453-458) for `Read`: "If the deadline is exceeded a call
to Read or Write or to other I/O methods will return an error that wraps os.ErrDeadlineExceeded. … The error's Timeout
method will return true".  Whatever the connection has delivered when the deadline passes: `Read` is done before that, or
its error is such. -/
def C133_claim : Prop :=
  ∀ (C : Crypto) (env : CEnv C) (c c' : Client) (s s' : CConn × CShared) (n : Nat) (bs : Bytes)
    (rest : List (Byte ⊕ Err)) (r : Bytes × Option Err), C.Lawful → Used (C := C) c s →
    s.1.net.stream = bs.map Sum.inl ++ .inr .timeout :: rest →
    runClient env (c.read n) s = (.val (r, c'), s') →
    (∃ bs' : Bytes, s'.1.net.stream = bs'.map Sum.inl ++ .inr .timeout :: rest) ∨
    (∃ err, r.2 = some err ∧ err.Is .timeout ∧ err.timeoutMethod = true)

/-- **C133**, what holds for `Read`: whatever the connection has delivered when it fails, and whatever its error is, `Read`
is done before that, or returns no data and an error that wraps the one of the connection, and leaves the client as it
was. -/
theorem C133_read_partial (env : CEnv C) (c c' : Client) (s s' : CConn × CShared) (n : Nat) (bs : Bytes) (e : Err)
    (rest : List (Byte ⊕ Err)) (r : Bytes × Option Err) (he : e ≠ .eof)
    (hstream : s.1.net.stream = bs.map Sum.inl ++ .inr e :: rest)
    (h : runClient env (c.read n) s = (.val (r, c'), s')) :
    (∃ bs' : Bytes, s'.1.net.stream = bs'.map Sum.inl ++ .inr e :: rest) ∨
    (r.1 = [] ∧ c' = c ∧ s'.1.net.stream = rest ∧ ∃ err, r.2 = some err ∧ err.Is e) := by
  obtain ⟨s, w⟩ := s
  rw [runClient, Client.read, run_readDeadline] at h
  split at h
  · cases h; exact .inl ⟨bs, hstream⟩
  split at h
  · have hs : (s, w) = s' := congrArg Prod.snd h
    rw [← hs]; exact .inl ⟨bs, hstream⟩
  obtain ⟨p₁, t₁, h1, h⟩ := run_parse_val h
  rw [show s.net.stream = _ from hstream] at h1
  rcases (HandsOn.responseCommon _ _ _ _ _ he h1).symm with ⟨err, rfl, herr, ht₁⟩ | ⟨bs₁, ht₁⟩
  · cases h
    exact .inr ⟨rfl, rfl, ht₁, _, rfl, .wrap _ _ _ herr⟩
  cases p₁ with
  | error e => cases h; exact .inl ⟨_, ht₁⟩
  | ok common =>
  dsimp only at h
  split at h
  · obtain ⟨p₂, t₂, h2, h⟩ := run_parse_val h
    rw [show _ = _ from ht₁] at h2
    rcases HandsOn.errorResponse _ _ _ _ _ _ he h2 with ⟨bs₂, ht₂⟩ | ⟨err, rfl, herr, ht₂⟩
    · cases p₂ <;> cases h <;> exact .inl ⟨_, ht₂⟩
    · cases h
      exact .inr ⟨rfl, rfl, ht₂, _, rfl, .wrap _ _ _ herr⟩
  obtain ⟨p₂, t₂, h2, h⟩ := run_parse_val h
  rw [show _ = _ from ht₁] at h2
  rcases (HandsOn.processResponse _ _ _ _ _ _ he h2).symm with ⟨err, rfl, herr, ht₂⟩ | ⟨bs₂, ht₂⟩
  · cases h
    exact .inr ⟨rfl, rfl, ht₂, _, rfl, .wrap _ _ _ herr⟩
  refine .inl ⟨bs₂, ?_⟩
  cases p₂ with
  | error e => cases h; exact ht₂
  | ok response =>
  dsimp only at h
  split at h
  · cases h; exact ht₂
  split at h
  · cases h
  split at h
  · cases h; exact ht₂
  rw [show gcmNonceSize = 12 from rfl, C12_nonce_layout] at h
  dsimp only [ofClientRes, Prog.ret_bind] at h
  split at h
  · cases h; exact ht₂
  · have hs : (_, w) = s' := congrArg Prod.snd h
    rw [← hs]; exact ht₂

/-- The errors that `Read` makes itself. -/
theorem readBuffer_error {c : Client} {n : Nat} {err : Err} (h : (readBuffer c n).1.2 = some err) :
    err = .eof ∨ err = .wrap "failed to read data from buffer" .eof := by
  rw [readBuffer] at h
  split at h
  · cases h; exact .inr rfl
  · dsimp only at h
    split at h <;> cases h
    exact .inl rfl

/-- **C133**, the other direction: `Read` says that a deadline has passed only if the connection did. -/
theorem C133_only_partial (hC : C.Lawful) (env : CEnv C) (c c' : Client) (s s' : CConn × CShared) (n : Nat)
    (bs : Bytes) (err : Err) (h : runClient env (c.read n) s = (.val ((bs, some err), c'), s'))
    (herr : err.Is .timeout) :
    ∃ e, (.inr e ∈ s.1.net.stream ∨ env.readDeadline = some e) ∧ e.Is .timeout := by
  rw [← Err.isDeadline_iff] at herr
  simp only [← Err.isDeadline_iff]
  obtain ⟨s, w⟩ := s
  have hbuf : ∀ c₁ : Client, ((bs, some err), c') = readBuffer c₁ n → False := by
    intro c₁ h
    rcases readBuffer_error (c := c₁) (n := n) (err := err) (by rw [← h]) with rfl | rfl <;> cases herr
  rw [runClient, Client.read, run_readDeadline] at h
  split at h
  · rename_i e heq
    cases h
    refine ⟨e, .inr ?_, herr⟩
    split at heq
    · exact heq
    · cases heq
  split at h
  · exact (hbuf c (Res.val.inj (congrArg Prod.fst h)).symm).elim
  obtain ⟨p₁, t₁, h1, h⟩ := run_parse_val h
  cases p₁ with
  | error e =>
    cases h
    obtain ⟨e', g1, g2⟩ := NoOwnDeadline.responseCommon _ _ _ h1 herr
    exact ⟨e', .inl g1, g2⟩
  | ok common =>
  have hsuf : ∃ pre, s.net.stream = pre ++ t₁.stream := by
    have := runI_suffix parseResponseCommon s.net.stream
    rwa [h1] at this
  obtain ⟨pre, hpre⟩ := hsuf
  dsimp only at h
  split at h
  · obtain ⟨p₂, t₂, h2, h⟩ := run_parse_val h
    cases p₂ with
    | error e =>
      cases h
      obtain ⟨e', g1, g2⟩ := NoOwnDeadline.errorResponse _ _ _ _ h2 herr
      exact ⟨e', .inl (NoOwnDeadline.mem_of_suffix hpre g1), g2⟩
    | ok a => cases h; cases herr
  obtain ⟨p₂, t₂, h2, h⟩ := run_parse_val h
  cases p₂ with
  | error e =>
    cases h
    obtain ⟨e', g1, g2⟩ := NoOwnDeadline.processResponse _ _ _ _ h2 herr
    exact ⟨e', .inl (NoOwnDeadline.mem_of_suffix hpre g1), g2⟩
  | ok response =>
  dsimp only at h
  split at h
  · cases h; cases herr
  split at h
  · cases h
  rename_i session _
  obtain ⟨key, -, hk⟩ := newGCM_ok hC session.secret
  rw [hk] at h
  dsimp only at h
  rw [show gcmNonceSize = 12 from rfl, C12_nonce_layout] at h
  dsimp only [ofClientRes, Prog.ret_bind] at h
  split at h
  · cases h; cases herr
  · exact (hbuf _ (Res.val.inj (congrArg Prod.fst h)).symm).elim

/-- **C133**, what does not hold for `Read`: no error it returns, ever, has a `Timeout` method that returns true. -/
theorem C133_no_timeout_method (env : CEnv C) (c c' : Client) (s s' : CConn × CShared) (n : Nat) (bs : Bytes) (err : Err)
    (h : runClient env (c.read n) s = (.val ((bs, some err), c'), s')) : err.timeoutMethod = false := by
  obtain ⟨s, w⟩ := s
  have hbuf : ∀ c₁ : Client, ((bs, some err), c') = readBuffer c₁ n → err.timeoutMethod = false := by
    intro c₁ h
    rcases readBuffer_error (c := c₁) (n := n) (err := err) (by rw [← h]) with rfl | rfl <;> rfl
  rw [runClient, Client.read, run_readDeadline] at h
  split at h
  · cases h; rfl
  split at h
  · exact hbuf c (Res.val.inj (congrArg Prod.fst h)).symm
  obtain ⟨p₁, t₁, h1, h⟩ := run_parse_val h
  cases p₁ with
  | error e => cases h; rfl
  | ok common =>
  dsimp only at h
  split at h
  · obtain ⟨p₂, t₂, h2, h⟩ := run_parse_val h
    cases p₂ <;> cases h <;> rfl
  obtain ⟨p₂, t₂, h2, h⟩ := run_parse_val h
  cases p₂ with
  | error e => cases h; rfl
  | ok response =>
  dsimp only at h
  split at h
  · cases h; rfl
  split at h
  · cases h
  split at h
  · rename_i session _ _ e heq
    cases h
    rw [newGCM] at heq
    split at heq
    · cases heq; rfl
    split at heq
    · cases heq; rfl
    split at heq
    · cases heq; rfl
    · cases heq
  rw [show gcmNonceSize = 12 from rfl, C12_nonce_layout] at h
  dsimp only [ofClientRes, Prog.ret_bind] at h
  split at h
  · cases h; rfl
  · exact hbuf _ (Res.val.inj (congrArg Prod.fst h)).symm

/-- **C133**, what holds for `Write`: if the request was handed to the connection, the result of `Write` is that of the
connection, with the error itself; so the error has a `Timeout` method if that of the connection has one. -/
theorem C133_write_partial (env : CEnv C) (c c' : Client) (s s' : CConn × CShared) (p request : Bytes)
    (r result : Nat × Option Err) (h : runClient env (c.write p) s = (.val (r, c'), s'))
    (hw : s'.1.writes = s.1.writes ++ [(request, result)]) : r = result := by
  obtain ⟨s, w⟩ := s
  have hno : ∀ {x : Bytes × Nat × Option Err}, s.writes = s.writes ++ [x] → False := by
    intro x hx
    simpa using congrArg List.length hx
  rw [runClient, Client.write, run_writeDeadline] at h
  split at h
  · cases h; exact (hno hw).elim
  split at h
  · cases h
  split at h
  · cases h; exact (hno hw).elim
  rw [run_addCounter] at h
  split at h
  · cases h; exact (hno hw).elim
  rw [show gcmNonceSize = 12 from rfl, C12_nonce_layout] at h
  simp only [ofClientRes, Prog.ret_bind, Prog.run, cexec] at h
  cases h
  have := List.append_cancel_left hw
  cases this
  rfl

end

namespace ErrorsExample
open HandshakeExample

/-- The handshake succeeds; these octets arrive, then the deadline passes. -/
def silent (bs : Bytes) : CConn × CShared := start (.tcp [.data (answer 4 ++ bs), .fail .timeout])

/-- The octets are there, and a `Read` fails with an error that wraps the one of the socket; it has no `Timeout`
method. -/
def timesOut (bs : Bytes) (c : Client) (s : CConn × CShared) : Bool :=
  decide (s.1.net.stream = bs.map Sum.inl ++ .inr .timeout :: []) &&
  match runClient env (c.read 10) s with
  | (.val ((_, some err), _), s') => s'.1.net.stream.isEmpty && err.isDeadline && !err.timeoutMethod
  | _ => false

end ErrorsExample

/-- **C133 is refuted**: the deadline passes before the reply; `err.(net.Error)` fails, although `errors.Is` finds the
reason. -/
theorem C133_refuted : ¬ C133_claim := by
  intro h
  obtain ⟨c, s, hu, hP⟩ := ClientExample.used_dial (env := HandshakeExample.env) (udp := false)
    (P := ErrorsExample.timesOut []) (s := ErrorsExample.silent []) (calls := [.write (str "ping")]) (by decide +kernel)
  simp only [ErrorsExample.timesOut, Bool.and_eq_true, decide_eq_true_eq] at hP
  obtain ⟨hstream, hrun⟩ := hP
  split at hrun
  · rename_i b err c' s' heq
    simp only [Bool.and_eq_true, List.isEmpty_iff, Bool.not_eq_true'] at hrun
    rcases h Toy.crypto _ c c' s s' 10 [] [] _ Toy.lawful hu hstream heq with ⟨bs', g⟩ | ⟨err', g1, -, g2⟩
    · rw [hrun.1.1] at g; simp at g
    · cases g1; rw [hrun.2] at g2; cases g2
  · cases hrun

/-- The same in the middle of a reply: the partial theorem applies to a client that was dialled. -/
example : ∃ c s, Used (C := Toy.crypto) c s ∧
    ErrorsExample.timesOut ((ClientExample.reply 1 (str "pong")).take 20) c s = true :=
  ClientExample.used_dial (env := HandshakeExample.env) (udp := false)
    (s := ErrorsExample.silent ((ClientExample.reply 1 (str "pong")).take 20)) (calls := [.write (str "ping")])
    (by decide +kernel)

section
variable {C : Crypto}

/-! ## C134 -/

/-- **C134**: an error of `Read` for which `errors.Is(err, io.EOF)` holds says that a reply to the latest message has
been read to its end. -/
def C134_claim : Prop :=
  ∀ (C : Crypto) (env : CEnv C) (c c' : Client) (s s' : CConn × CShared) (n : Nat) (bs : Bytes) (err : Err)
    (session : ClientSession), C.Lawful → Used (C := C) c s → c.session = some session → c.buffer = [] →
    env.readDeadline = none → runClient env (c.read n) s = (.val ((bs, some err), c'), s') → err.Is .eof →
    ∃ message, StartsWithReply C session c.lastSentCounter s.1.net.stream message

/-- **C134**, what holds: an error that is `io.EOF` itself (`err == io.EOF`) says that what `Read` returned is the whole
of an authentic reply, or all that was left of an earlier one. -/
theorem C134_plain_partial (env : CEnv C) (c c' : Client) (s s' : CConn × CShared) (n : Nat) (bs : Bytes)
    (h : runClient env (c.read n) s = (.val ((bs, some .eof), c'), s')) :
    c'.buffer = [] ∧
    ((c.buffer ≠ [] ∧ bs = c.buffer) ∨
     (∃ session, c.session = some session ∧ StartsWithReply C session c.lastSentCounter s.1.net.stream bs)) := by
  obtain ⟨s, w⟩ := s
  have hbuf : ∀ c₁ : Client, ((bs, some .eof), c') = readBuffer c₁ n → c'.buffer = [] ∧ bs = c₁.buffer := by
    intro c₁ h
    rw [readBuffer] at h
    split at h
    · cases h
    · dsimp only at h
      split at h
      · rename_i hd
        cases h
        refine ⟨hd, ?_⟩
        have := List.take_append_drop n c₁.buffer
        rw [hd, List.append_nil] at this
        exact this
      · cases h
  rw [runClient, Client.read, run_readDeadline] at h
  split at h
  · cases h
  split at h
  · rename_i hb
    have g := hbuf c (Res.val.inj (congrArg Prod.fst h)).symm
    exact ⟨g.1, .inl ⟨hb, g.2⟩⟩
  rename_i hb
  have hb : c.buffer = [] := by simpa using hb
  obtain ⟨p₁, t₁, h1, h⟩ := run_parse_val h
  cases p₁ with
  | error e => cases h
  | ok common =>
  dsimp only at h
  split at h
  · obtain ⟨p₂, t₂, h2, h⟩ := run_parse_val h
    cases p₂ <;> cases h
  rename_i hs
  have hs : common.success = true := by simpa using hs
  obtain ⟨p₂, t₂, h2, h⟩ := run_parse_val h
  cases p₂ with
  | error e => cases h
  | ok response =>
  dsimp only at h
  split at h
  · cases h
  rename_i hc
  have hc : response.counter = c.lastSentCounter := by simpa using hc
  split at h
  · cases h
  rename_i session hsess
  split at h
  · rename_i e heq
    cases h
    rw [newGCM] at heq
    split at heq
    · cases heq
    split at heq
    · cases heq
    split at heq <;> cases heq
  rename_i key hk
  rw [show gcmNonceSize = 12 from rfl, C12_nonce_layout] at h
  dsimp only [ofClientRes, Prog.ret_bind] at h
  split at h
  · cases h
  rename_i message ho
  obtain ⟨k1, k2⟩ := hbuf _ (Res.val.inj (congrArg Prod.fst h)).symm
  obtain ⟨hcommon, hstream, hsize, -⟩ := parseProcessResponse_inv h2
  have hhead := parseResponseCommon_inv h1
  rw [hc] at ho
  rw [hb, List.nil_append] at k2
  refine ⟨k1, .inr ⟨session, hsess, key, _, response.message, t₂.stream, newGCM_key hk, ?_, msb_success common hs,
    by rw [k2]; exact ho⟩⟩
  refine hhead.trans ?_
  dsimp only at hstream
  rw [hstream, ProcessResponse.bytes, hcommon, success_bytes common hs, hc, hsize, beEnc_eight, beEnc_eight]
  simp

/-- **C134**, between two replies: if the server closes the connection when nothing of a reply has arrived, the error is
`io.ErrUnexpectedEOF`, not `io.EOF`. -/
theorem C134_between_partial (env : CEnv C) (c : Client) (s : CConn × CShared) (n : Nat) (hb : c.buffer = [])
    (hd : env.readDeadline = none) (hstream : s.1.net.stream = []) :
    ∃ err s', runClient env (c.read n) s = (.val (([], some err), c), s') ∧ err.Is .unexpectedEOF ∧ ¬ err.Is .eof := by
  obtain ⟨s, w⟩ := s
  have h1 : runI parseResponseCommon s.net.stream = (.val (.error .unexpectedEOF), []) :=
    congrArg (runI parseResponseCommon) hstream
  refine ⟨.wrap "failed to parse response" .unexpectedEOF, ({ s with net := (runNet parseResponseCommon s.net).2 }, w), ?_,
    .wrap _ _ _ (.self _), fun h => nomatch h⟩
  rw [runClient, Client.read, run_readDeadline, hd, ite_self]
  dsimp only
  rw [if_neg (by simpa using hb), run_parse_eq _ _ h1]
  rfl

/-- **C134**, within a reply: whatever the header says, if the connection is closed after the first octet of a reply, or
after the counter, or after the size of a ciphertext, the error of `Read` satisfies `errors.Is(err, io.EOF)`. -/
theorem C134_cut_reply (env : CEnv C) (c : Client) (s : CConn × CShared) (n : Nat) (header : Byte) (counter : BitVec 64)
    (size : Nat) (fields : Bytes) (hh : header.msb = true) (hs : 0 < size ∧ size ≤ 2 ^ 30)
    (hf : fields = [] ∨ fields = Wire.be64 counter.toNat ∨ fields = Wire.be64 counter.toNat ++ Wire.be64 size)
    (hb : c.buffer = []) (hd : env.readDeadline = none) (hstream : s.1.net.stream = (header :: fields).map Sum.inl) :
    ∃ err s', runClient env (c.read n) s = (.val (([], some err), c), s') ∧ err.Is .eof := by
  obtain ⟨s, w⟩ := s
  rw [List.map_cons] at hstream
  have h1 := (congrArg (runI parseResponseCommon) hstream).trans (runI_parseResponseCommon _ _)
  have h2 : ∃ e : Err, e.Is .eof ∧
      runI (parseProcessResponse ⟨(header >>> 7) == 1#8, (header <<< 1) >>> 1⟩) (fields.map Sum.inl) =
        (.val (.error e), []) := by
    rcases hf with rfl | rfl | rfl
    · exact ⟨_, .wrap _ _ _ (.self _), rfl⟩
    · refine ⟨.wrap ("failed to read " ++ "size") .eof, .wrap _ _ _ (.self _), ?_⟩
      rw [← List.append_nil (List.map _ _), parseProcessResponse, runI_readField _ _ _ _ _ (by simp [Wire.be64])]
      rfl
    · refine ⟨.wrap ("failed to read " ++ "message") .eof, .wrap _ _ _ (.self _), ?_⟩
      rw [List.map_append, ← List.append_nil (List.map Sum.inl (Wire.be64 size)), parseProcessResponse,
        runI_readField _ _ _ _ _ (by simp [Wire.be64]), runI_readField _ _ _ _ _ (by simp [Wire.be64])]
      dsimp only
      rw [← beEnc_eight, beDec_beEnc, BitVec.toNat_ofNat, Nat.mod_eq_of_lt (a := size) (by omega),
        Nat.mod_eq_of_lt (a := size) (by omega), if_neg (by rw [maxMessageSize]; omega), runI_alloc]
      obtain ⟨m, rfl⟩ : ∃ m, size = m + 1 := ⟨size - 1, by omega⟩
      rfl
  obtain ⟨e, he, h2⟩ := h2
  have h3 := (congrArg (runI _) (runNet_rest h1)).trans h2
  refine ⟨.wrap "failed to parse success response" e, ({ s with net := (runNet (parseProcessResponse
      ⟨(header >>> 7) == 1#8, (header <<< 1) >>> 1⟩) (runNet parseResponseCommon s.net).2).2 }, w), ?_, .wrap _ _ _ he⟩
  rw [runClient, Client.read, run_readDeadline, hd, ite_self]
  dsimp only
  rw [if_neg (by simpa using hb), run_parse_eq _ _ h1]
  dsimp only
  rw [if_neg (by rw [success_msb, hh]; simp), run_parse_eq _ _ h3]
  rfl

end

namespace ErrorsExample
open HandshakeExample

/-- The handshake succeeds; these octets arrive, then the connection is closed. -/
def cut (bs : Bytes) : CConn × CShared := start (.tcp [.data (answer 4 ++ bs)])

/-- The client has a session, nothing else than the octets arrives, and `Read` returns an error. -/
def cutOff (bs : Bytes) (c : Client) (s : CConn × CShared) : Bool :=
  c.buffer.isEmpty && c.session.isSome && decide (s.1.net.stream = bs.map Sum.inl) &&
  match runClient env (c.read 10) s with
  | (.val ((_, some _), _), _) => true
  | _ => false

theorem used_cut (bs : Bytes) (h : ClientExample.afterDial env (cutOff bs) (cut bs) [.write (str "ping")] = true) :
    ∃ c s session, Used (C := Toy.crypto) c s ∧ c.session = some session ∧ c.buffer = [] ∧
      s.1.net.stream = bs.map Sum.inl := by
  obtain ⟨c, s, hu, hP⟩ := ClientExample.used_dial (udp := false) h
  simp only [cutOff, Bool.and_eq_true, decide_eq_true_eq, List.isEmpty_iff, Option.isSome_iff_exists] at hP
  obtain ⟨⟨⟨hb, session, hs⟩, hstream⟩, -⟩ := hP
  exact ⟨c, s, session, hu, hs, hb, hstream⟩

end ErrorsExample

/-- **C134 is refuted**: the connection is closed after the first octet of a reply. -/
theorem C134_refuted : ¬ C134_claim := by
  intro h
  obtain ⟨c, s, session, hu, hs, hb, hstream⟩ := ErrorsExample.used_cut [0x80#8] (by decide +kernel)
  obtain ⟨err, s', hrun, herr⟩ := C134_cut_reply HandshakeExample.env c s 10 0x80#8 1#64 1 [] rfl ⟨by decide, by decide⟩
    (.inl rfl) hb rfl hstream
  obtain ⟨message, key, header, ct, rest, -, g, -⟩ :=
    h Toy.crypto _ c c s s' 10 [] err session Toy.lawful hu hs hb rfl hrun herr
  rw [hstream] at g
  have := congrArg List.length g
  simp [Wire.be64] at this

/-- The partial theorems apply: "pong" is read as a whole, and `io.EOF` itself says so; a connection closed between
replies is reported otherwise. -/
example : ClientExample.afterDial HandshakeExample.env (fun c s =>
    match runClient HandshakeExample.env (c.read 10) s with
    | (.val ((bs, some .eof), c₁), s₁) => bs == str "pong" &&
      match runClient HandshakeExample.env (c₁.read 10) s₁ with
      | (.val ((_, some err), _), _) => decide (err = .wrap "failed to parse response" .unexpectedEOF)
      | _ => false
    | _ => false) (ClientExample.net (str "pong")) [.write (str "ping")] = true := by decide +kernel

end Goe2ee
