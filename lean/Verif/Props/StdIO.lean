import Verif.Model.StdIO
import Verif.Props.Client

/-!
# C126, C127: the client together with Go's standard library
-/

set_option autoImplicit false

namespace Goe2ee

section
variable {C : Crypto}

/-! ## C126 -/

/-- **C126** as stated: with a working transport, `io.Copy` to a client sends every chunk of the
source and reports their total length without an error, and a client takes part in an
`io.MultiWriter` like any writer. -/
def C126_claim : Prop :=
  ∀ (C : Crypto) (env : CEnv C) (c : Client) (s : CConn × CShared) (session : ClientSession)
    (chunks : List Bytes),
    C.Lawful → Used (C := C) c s → c.session = some session →
    env.writeDeadline = none → env.write = (0, none) →
    (s.2.counters.getD session.sendCounter 0).toNat + chunks.length < 2 ^ 64 →
    (∀ p ∈ chunks, p.length < 2 ^ 63) →
    (∃ c' s', runClient env (Client.copyFrom chunks 0 c) s =
      (.val (((chunks.map List.length).sum, none), c'), s')) ∧
    ∀ p ∈ chunks, ∃ c' s', runClient env (c.multiWrite p) s = (.val (none, c'), s')

theorem writeRequest_length (hC : C.Lawful) (c : Client) (session : ClientSession) (key : Bytes)
    (counter : BitVec 64) (p : Bytes) :
    (writeRequest C c session key counter p).length = p.length + 50 := by
  simp [writeRequest, Wire.processRequest, Wire.be64, hC.seal_length, session.id.property]
  omega

/-- A `Write` whose octets the transport accepts completely. -/
theorem write_whole {env : CEnv C} {c : Client} {s : CConn × CShared} {session : ClientSession}
    {key p : Bytes} (hC : C.Lawful) (hd : env.writeDeadline = none) (hw : env.write = (0, none))
    (hs : c.session = some session)
    (hk : deriveKey C session.secret kdfInfo aesKeySize = .ok key) (counter : BitVec 64)
    (hc : counter = s.2.counters.getD session.sendCounter 0 + 1) (h0 : counter ≠ 0)
    (hp : p.length < 2 ^ 63) :
    ∃ s', (c.write p).run (cexec env) s =
        (.val ((p.length + 50, none), { c with lastSentCounter := counter }), s') ∧
      s'.1.writes = s.1.writes ++ [(Wire.processRequest c.expectReply session.id.val counter.toNat
        (C.aeadSeal key (Wire.nonce12 0 counter.toNat) p), p.length + 50, none)] ∧
      s'.2.counters = s.2.counters.set session.sendCounter counter := by
  have h := write_run (env := env) (c := c) (s := s.1) (w := s.2) hC hd hs hk counter hc h0 hp
  rw [hw, Nat.sub_zero, writeRequest_length hC] at h
  exact ⟨_, h, rfl, rfl⟩

/-- C126: whatever the source, `io.Copy` to a client stops after the first chunk that is not empty,
with the error "invalid write result" and the report that nothing was copied, although the chunk was
sent completely. -/
theorem C126_copy_stops (hC : C.Lawful) (env : CEnv C) (c : Client) (s : CConn × CShared)
    (session : ClientSession) (key chunk : Bytes) (chunks : List Bytes)
    (hs : c.session = some session)
    (hk : deriveKey C session.secret kdfInfo aesKeySize = .ok key)
    (hd : env.writeDeadline = none) (hw : env.write = (0, none))
    (counter : BitVec 64) (hc : counter = s.2.counters.getD session.sendCounter 0 + 1)
    (h0 : counter ≠ 0) (hne : chunk ≠ []) (hp : chunk.length < 2 ^ 63) :
    ∃ c' s', runClient env (Client.copyFrom (chunk :: chunks) 0 c) s =
        (.val ((0, some (.other "invalid write result")), c'), s') ∧
      s'.1.writes = s.1.writes ++ [(Wire.processRequest c.expectReply session.id.val counter.toNat
        (C.aeadSeal key (Wire.nonce12 0 counter.toNat) chunk), chunk.length + 50, none)] := by
  obtain ⟨s', h, h2, -⟩ := write_whole hC hd hw hs hk counter hc h0 hp
  refine ⟨{ c with lastSentCounter := counter }, s', ?_, h2⟩
  rw [runClient, Client.copyFrom, if_neg hne, Prog.run_bind, h]
  dsimp only
  rw [if_pos (by omega)]
  rfl

/-- If `Write` fails and reports at most the length of the chunk, `io.Copy` counts what it reports. -/
theorem copyFrom_counts (env : CEnv C) (c c' : Client) (s s' : CConn × CShared) (chunk : Bytes) (chunks : List Bytes)
    (written n : Nat) (e : Err) (hne : chunk ≠ []) (hn : n ≤ chunk.length)
    (h : runClient env (c.write chunk) s = (.val ((n, some e), c'), s')) :
    runClient env (Client.copyFrom (chunk :: chunks) written c) s = (.val ((written + n, some e), c'), s') := by
  rw [runClient] at h
  rw [runClient, Client.copyFrom, if_neg hne, Prog.run_bind, h]
  dsimp only
  rw [if_neg (by omega)]
  rfl

/-- C126: a client in an `io.MultiWriter` makes every `Write` fail with `io.ErrShortWrite`, and the
writers after it get nothing. -/
theorem C126_multi_writer_fails (hC : C.Lawful) (env : CEnv C) (c : Client) (s : CConn × CShared)
    (session : ClientSession) (key p : Bytes)
    (hs : c.session = some session)
    (hk : deriveKey C session.secret kdfInfo aesKeySize = .ok key)
    (hd : env.writeDeadline = none) (hw : env.write = (0, none))
    (counter : BitVec 64) (hc : counter = s.2.counters.getD session.sendCounter 0 + 1)
    (h0 : counter ≠ 0) (hp : p.length < 2 ^ 63) :
    ∃ c' s', runClient env (c.multiWrite p) s =
      (.val (some (p.length + 50, .shortWrite), c'), s') := by
  obtain ⟨s', h, -⟩ := write_whole hC hd hw hs hk counter hc h0 hp
  refine ⟨{ c with lastSentCounter := counter }, s', ?_⟩
  rw [runClient, Client.multiWrite, Prog.run_bind, h]
  dsimp only
  rw [if_pos (by omega)]
  rfl

/-- **C126** does not hold. -/
theorem C126_refuted : ¬ C126_claim := by
  intro h
  obtain ⟨c, s, hu, hP⟩ := ClientExample.used_dial (env := HandshakeExample.env)
    (udp := false) (P := fun c s => (c.session.map (·.secret) == some (beEnc 32 14)) &&
      (c.session.map fun x => s.2.counters.getD x.sendCounter 0) == some 0)
    (s := ClientExample.net []) (calls := []) (by decide +kernel)
  simp only [Bool.and_eq_true, beq_iff_eq, Option.map_eq_some_iff] at hP
  obtain ⟨⟨session, hs, hsec⟩, session', hs', hctr⟩ := hP
  rw [hs] at hs'
  cases hs'
  have hk : deriveKey Toy.crypto session.secret kdfInfo aesKeySize = .ok OnceExample.key := by
    rw [hsec]; exact SessionExample.key_ok
  obtain ⟨c₁, s₁, h1, -⟩ := C126_copy_stops Toy.lawful HandshakeExample.env c s session
    OnceExample.key (str "ping") [] hs hk rfl rfl 1 (by rw [hctr]; rfl) (by decide)
    (by decide +kernel) (by decide +kernel)
  obtain ⟨⟨c₂, s₂, h2⟩, -⟩ := h Toy.crypto HandshakeExample.env c s session [str "ping"] Toy.lawful hu hs
    rfl rfl (by rw [hctr]; decide) (by decide +kernel)
  rw [h1] at h2
  simp only [Prod.mk.injEq, Res.val.injEq] at h2
  cases h2.1.1.2

/-- The octets of the requests for `chunks`, with consecutive counters from `counter + 1` on. -/
def requestsFor (C : Crypto) (c : Client) (session : ClientSession) (key : Bytes) :
    Nat → List Bytes → List (Bytes × Nat × Option Err)
  | _, [] => []
  | counter, p :: ps =>
    (Wire.processRequest c.expectReply session.id.val (counter + 1)
      (C.aeadSeal key (Wire.nonce12 0 (counter + 1)) p), p.length + 50, none) ::
    requestsFor C c session key (counter + 1) ps

theorem requestsFor_client {c c' : Client} (h : c.expectReply = c'.expectReply)
    (session : ClientSession) (key : Bytes) (counter : Nat) (ps : List Bytes) :
    requestsFor C c session key counter ps = requestsFor C c' session key counter ps := by
  induction ps generalizing counter with
  | nil => rfl
  | cons p ps ih => rw [requestsFor, requestsFor, h, ih]

/-- **C126**, what holds: functions that look at the error of `Write` only send everything, each
chunk as one request, in order. -/
theorem C126_error_only_partial (hC : C.Lawful) (env : CEnv C) (session : ClientSession)
    (key : Bytes) (hk : deriveKey C session.secret kdfInfo aesKeySize = .ok key)
    (hd : env.writeDeadline = none) (hw : env.write = (0, none)) (chunks : List Bytes) (c : Client)
    (s : CConn × CShared) (hs : c.session = some session)
    (ha : session.sendCounter < s.2.counters.length)
    (h0 : (s.2.counters.getD session.sendCounter 0).toNat + chunks.length < 2 ^ 64)
    (hp : ∀ p ∈ chunks, p.length < 2 ^ 63) :
    ∃ c' s', runClient env (Client.writeEach chunks c) s = (.val (none, c'), s') ∧
      s'.1.writes = s.1.writes ++ requestsFor C c session key
        (s.2.counters.getD session.sendCounter 0).toNat chunks := by
  induction chunks generalizing c s with
  | nil => exact ⟨c, s, rfl, by simp [requestsFor]⟩
  | cons p ps ih =>
    simp only [List.length_cons] at h0
    generalize hctr : s.2.counters.getD session.sendCounter 0 = a at *
    have ht : (a + 1).toNat = a.toNat + 1 := by
      rw [BitVec.toNat_add]
      exact Nat.mod_eq_of_lt (by simp; omega)
    have hne : a + 1 ≠ 0 := by
      intro h
      rw [h] at ht
      simp at ht
    obtain ⟨s₁, h, hwr, hcs⟩ := write_whole (s := s) hC hd hw hs hk (a + 1) (by rw [hctr]) hne
      (hp p (by simp))
    have hg : s₁.2.counters.getD session.sendCounter 0 = a + 1 := by
      simp [hcs, List.getD, ha]
    obtain ⟨c', s', h1, h2⟩ := ih { c with lastSentCounter := a + 1 } s₁ hs
      (by rw [hcs]; simpa using ha) (by rw [hg, ht]; omega)
      (fun q hq => hp q (List.mem_cons_of_mem _ hq))
    refine ⟨c', s', ?_, ?_⟩
    · rw [runClient, Client.writeEach, Prog.run_bind, h]
      exact h1
    · rw [h2, hwr, hg, ht, requestsFor, List.append_assoc]
      rw [requestsFor_client (c := { c with lastSentCounter := a + 1 }) (c' := c) rfl]
      rfl

/-- `io.Copy` of "ping" and "pong" to a client that has just been dialled: the first is sent, the copy
fails and reports 0 octets; written one by one both are sent. -/
example : ClientExample.afterDial HandshakeExample.env (fun c s =>
    (match runClient HandshakeExample.env (Client.copyFrom [str "ping", str "pong"] 0 c) s with
    | (.val ((0, some (.other "invalid write result")), _), s') =>
      s'.1.writes.length == s.1.writes.length + 1
    | _ => false) &&
    (match runClient HandshakeExample.env (c.multiWrite (str "ping")) s with
    | (.val (some (54, .shortWrite), _), _) => true
    | _ => false) &&
    (match runClient HandshakeExample.env (Client.writeEach [str "ping", str "pong"] c) s with
    | (.val (none, _), s') => s'.1.writes.length == s.1.writes.length + 2
    | _ => false)) (ClientExample.net (str "pong")) [] = true := by decide +kernel

/-! ## C127 -/

/-- **C127** as stated: when a client's `Write` succeeded and the reply to it arrives, `io.ReadAll`
returns exactly the reply and no error, however large the reply is and however the buffer grows. -/
def C127_claim : Prop :=
  ∀ (C : Crypto) (env env' : CEnv C) (c c' : Client) (s s' : CConn × CShared) (session : ClientSession)
    (key p reply : Bytes) (n : Nat) (rest : List (Byte ⊕ Err)) (rooms : List Nat),
    C.Lawful → Used (C := C) c s → c.buffer = [] →
    runClient env (c.write p) s = (.val ((n, none), c'), s') → c.session = some session →
    deriveKey C session.secret kdfInfo aesKeySize = .ok key → reply.length + 16 ≤ 2 ^ 30 →
    s'.1.net.stream = (Wire.processResponse c'.lastSentCounter.toNat
      (C.aeadSeal key (Wire.nonce12 1 c'.lastSentCounter.toNat) reply)).map Sum.inl ++ rest →
    env'.readDeadline = none → (∀ room ∈ rooms, 0 < room) → max 1 reply.length ≤ rooms.length →
    ∃ c'' s'', runClient env' (Client.readAll rooms [] c') s' = (.val (some (reply, none), c''), s'')

theorem readAll_buffered {env : CEnv C} (hd : env.readDeadline = none) (rooms : List Nat)
    (hr : ∀ room ∈ rooms, 0 < room) (data : Bytes) (c : Client) (s : CConn × CShared)
    (hb : c.buffer ≠ []) (hl : c.buffer.length ≤ rooms.length) :
    runClient env (Client.readAll rooms data c) s =
      (.val (some (data ++ c.buffer, none), { c with buffer := [] }), s) := by
  induction rooms generalizing data c with
  | nil =>
    simp only [List.length_nil, Nat.le_zero, List.length_eq_zero_iff] at hl
    exact absurd hl hb
  | cons room rooms ih =>
    have h0 := hr room (by simp)
    rw [runClient, Client.readAll, Prog.run_bind, read_buffered hd hb, readBuffer,
      if_neg (fun h => hb h.1)]
    dsimp only
    by_cases he : c.buffer.drop room = []
    · rw [if_pos he]
      dsimp only
      rw [if_pos rfl, he]
      have : c.buffer.take room = c.buffer := by
        have := List.take_append_drop room c.buffer
        rw [he, List.append_nil] at this
        exact this
      rw [this]
      rfl
    · rw [if_neg he]
      dsimp only
      have := ih (fun r hr' => hr r (List.mem_cons_of_mem _ hr')) (data ++ c.buffer.take room)
        { c with buffer := c.buffer.drop room } he (by
          simp only [List.length_drop, List.length_cons] at hl ⊢
          omega)
      rw [runClient] at this
      rw [this, List.append_assoc, List.take_append_drop]

/-- **C127**, what holds: the claim for every reply that is not empty.  Afterwards the client holds
nothing and what follows the reply has not been touched, so the next exchange can begin. -/
theorem C127_read_all_partial (hC : C.Lawful) (env env' : CEnv C) (c c' : Client)
    (s s' : CConn × CShared) (session : ClientSession) (key p reply : Bytes) (n : Nat)
    (rest : List (Byte ⊕ Err)) (rooms : List Nat) (hp : p.length < 2 ^ 63) (hb : c.buffer = [])
    (h : runClient env (c.write p) s = (.val ((n, none), c'), s')) (hs : c.session = some session)
    (hk : deriveKey C session.secret kdfInfo aesKeySize = .ok key)
    (hl : reply.length + 16 ≤ 2 ^ 30) (hne : reply ≠ [])
    (hstream : s'.1.net.stream = (Wire.processResponse c'.lastSentCounter.toNat
      (C.aeadSeal key (Wire.nonce12 1 c'.lastSentCounter.toNat) reply)).map Sum.inl ++ rest)
    (hd : env'.readDeadline = none) (hr : ∀ room ∈ rooms, 0 < room)
    (hlen : reply.length ≤ rooms.length) :
    ∃ s'', runClient env' (Client.readAll rooms [] c') s' = (.val (some (reply, none), c'), s'') ∧
      c'.buffer = [] ∧ s''.1.net.stream = rest ∧ s''.1.writes = s'.1.writes := by
  obtain ⟨session', key', counter, h1, -, -, -, -, -, h7, -, -⟩ :=
    write_ok (s := s.1) (w := s.2) (s' := s'.1) (w' := s'.2) hC hp h
  have hb' : c'.buffer = [] := by rw [h7]; exact hb
  have hs' : c'.session = some session := by rw [h7]; exact hs
  cases rooms with
  | nil =>
    simp only [List.length_nil, Nat.le_zero, List.length_eq_zero_iff] at hlen
    exact absurd hlen hne
  | cons room rooms =>
    obtain ⟨t, ht, hread⟩ := read_accepts (n := room) (s := s'.1) (w := s'.2) hC hd hb' hs' hk
      (by rw [hC.seal_length]; exact hl) hstream (hC.open_seal _ _ _)
    refine ⟨({ s'.1 with net := t }, s'.2), ?_, hb', ht, rfl⟩
    have h2 := readAll_buffered hd (room :: rooms) hr [] { c' with buffer := reply }
      ({ s'.1 with net := t }, s'.2) hne hlen
    rw [runClient, Client.readAll, Prog.run_bind, read_buffered hd (by exact hne)] at h2
    have hread' : (c'.read room).run (cexec env') s' = _ := hread
    rw [runClient, Client.readAll, Prog.run_bind, hread']
    refine h2.trans ?_
    have hc' : { c' with buffer := [] } = c' := by
      cases c'
      cases hb'
      rfl
    exact congrArg (fun x => (Res.val (some (reply, none), x), (_, s'.2))) hc'

/-- C127: the documented way to read a reply fails for an empty reply: `io.ReadAll` returns an error,
because `Read` wraps `io.EOF`. -/
theorem C127_empty_reply (hC : C.Lawful) (env : CEnv C) (c : Client) (s : CConn × CShared)
    (session : ClientSession) (key : Bytes) (rest : List (Byte ⊕ Err)) (room : Nat)
    (rooms : List Nat) (hr : 0 < room) (hd : env.readDeadline = none) (hb : c.buffer = [])
    (hs : c.session = some session) (hk : deriveKey C session.secret kdfInfo aesKeySize = .ok key)
    (hstream : s.1.net.stream = (Wire.processResponse c.lastSentCounter.toNat
      (C.aeadSeal key (Wire.nonce12 1 c.lastSentCounter.toNat) [])).map Sum.inl ++ rest) :
    ∃ s', runClient env (Client.readAll (room :: rooms) [] c) s =
      (.val (some ([], some (.wrap "failed to read data from buffer" .eof)), c), s') := by
  obtain ⟨s', h⟩ := C26_empty_reply hC env c s session key rest room hr hd hb hs hk hstream
  refine ⟨s', ?_⟩
  rw [runClient] at h
  rw [runClient, Client.readAll, Prog.run_bind, h]
  rfl

/-- **C127** does not hold: the server answers "ping" with an empty message, and `io.ReadAll` fails. -/
theorem C127_refuted : ¬ C127_claim := by
  intro h
  obtain ⟨c, s, hu, hP⟩ := ClientExample.used_dial (env := HandshakeExample.env)
    (udp := false) (P := fun c s => c.buffer.isEmpty &&
      (c.session.map (·.secret) == some (beEnc 32 14)) &&
      match runClient HandshakeExample.env (c.write (str "ping")) s with
      | (.val ((_, none), c'), s') => c'.buffer.isEmpty &&
        (c'.session.map (·.secret) == some (beEnc 32 14)) &&
        decide (s'.1.net.stream = (Wire.processResponse c'.lastSentCounter.toNat
          (Toy.crypto.aeadSeal OnceExample.key
            (Wire.nonce12 1 c'.lastSentCounter.toNat) [])).map Sum.inl)
      | _ => false)
    (s := ClientExample.net []) (calls := []) (by decide +kernel)
  simp only [Bool.and_eq_true, beq_iff_eq, List.isEmpty_iff, Option.map_eq_some_iff] at hP
  obtain ⟨⟨hb, session, hs, hsec⟩, hP⟩ := hP
  have hk : deriveKey Toy.crypto session.secret kdfInfo aesKeySize = .ok OnceExample.key := by
    rw [hsec]; exact SessionExample.key_ok
  split at hP
  · rename_i n c' s' hw
    simp only [Bool.and_eq_true, beq_iff_eq, List.isEmpty_iff, Option.map_eq_some_iff,
      decide_eq_true_eq] at hP
    obtain ⟨⟨hb', session', hs', hsec'⟩, hstream⟩ := hP
    rw [← List.append_nil (List.map _ _)] at hstream
    have hk' : deriveKey Toy.crypto session'.secret kdfInfo aesKeySize = .ok OnceExample.key := by
      rw [hsec']; exact SessionExample.key_ok
    obtain ⟨c'', s'', h1⟩ := h Toy.crypto HandshakeExample.env HandshakeExample.env c c' s s' session
      OnceExample.key (str "ping") [] n [] [512] Toy.lawful hu hb hw hs hk (by decide) hstream rfl
      (by decide) (by decide)
    obtain ⟨s₂, h2⟩ := C127_empty_reply Toy.lawful HandshakeExample.env c' s' session' OnceExample.key
      [] 512 [] (by decide) rfl hb' hs' hk' hstream
    rw [h2] at h1
    simp only [Prod.mk.injEq, Res.val.injEq, Option.some.injEq] at h1
    cases h1.1.1.2
  · cases hP

/-- The reply "pong" is read completely, with room for one octet in each round. -/
example : ClientExample.afterDial HandshakeExample.env (fun c s =>
    match runClient HandshakeExample.env (Client.readAll [1, 1, 1, 1] [] c) s with
    | (.val (some (bs, none), _), _) => bs == str "pong"
    | _ => false) (ClientExample.net (str "pong")) [.write (str "ping")] = true := by decide +kernel

end

end Goe2ee
