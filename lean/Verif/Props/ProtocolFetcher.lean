import Verif.Model.ProtocolFetcher
import Verif.Props.Handshake

/-!
# C63, C64: fetching the server's key with the protocol itself
-/

set_option autoImplicit false

namespace Goe2ee

section
variable {C : Crypto}

/-! ## C63 -/

/-- What a server answers to a fetch-key request: the algorithm and the PKIX encoding of its public
key. -/
theorem C63_server_answer (hC : C.Lawful) (timeout : Nat) (ans : Nat → Answer C) (host : Bytes)
    (s : Seq) (rest : List (Byte ⊕ Err)) (h : Delivers s.conn.input Wire.fetchKeyRequest rest)
    (algorithm : Byte) (key : PublicKey) (raw : Bytes)
    (hkey : (ans s.pos).fetchKey = .ok (algorithm, key)) (hraw : C.marshalPKIX key = .ok raw)
    (hl : raw.length < 2 ^ 64) (hw : (ans (s.pos + 1)).write = (0, none))
    (hd : ∀ d, s.conn.deadline = some d → s.world.now + (ans (s.pos + 1)).tick ≤ d) :
    (serveOne timeout ans host s).conn.output =
      s.conn.output ++ Wire.fetchKeyResponse algorithm raw := by
  obtain ⟨evs, -, h2⟩ := run_serveRequest hC timeout ans (inMemory C) (.ok host) .fetchKey trivial s
    rest h
  rw [serveOne, h2, Prog.run_bind]
  dsimp only [afterParse]
  have h3 : ∃ s', (fetchKeyHandler (C := C)).run (seqI C timeout ans)
      { s with conn := { s.conn with input := evs } } = (.val none, s') ∧
      s'.conn.output = s.conn.output ++ (newFetchKeyResponse algorithm raw).bytes := by
    unfold fetchKeyHandler
    simp only [Prog.run]
    rw [seqI_other _ _ _ id]
    simp only [exec, hkey, hraw]
    exact ⟨_, run_respondWith timeout ans _ _ _ (run_write_ok timeout ans _ _ hw hd), rfl⟩
  obtain ⟨s', h3, h4⟩ := h3
  rw [h3, ← C06_fetch_key_response_layout _ _ hl]
  exact h4

theorem protocolExchange_accepts (env : CEnv C) (algorithm : Byte) (raw : Bytes) (key : PublicKey)
    (hparse : C.parsePKIX raw = .ok (.inr key)) (hl : raw.length ≤ 65536) (c : CConn) (w : CShared)
    (rest : List (Byte ⊕ Err)) (hw : env.write.2 = none)
    (hstream : c.net.written.stream =
      (Wire.fetchKeyResponse algorithm raw).map Sum.inl ++ rest) :
    ∃ t ws, t.stream = rest ∧ (protocolExchange (C := C)).run (cexec env) (c, w) =
      (.val (.ok key), ({ net := t, writes := ws, isOpen := c.isOpen }, w)) := by
  have hb : Wire.fetchKeyResponse algorithm raw =
      0x80#8 :: ([algorithm] ++ (beEnc 8 raw.length ++ raw)) := by
    simp [Wire.fetchKeyResponse, beEnc_eight]
  rw [hb, List.map_cons, List.cons_append] at hstream
  unfold protocolExchange
  simp only [Prog.run, cexec, hw]
  have h1 := (congrArg (runI parseResponseCommon) hstream).trans (runI_parseResponseCommon _ _)
  rw [run_parse_eq _ _ h1]
  dsimp only
  rw [if_neg (by decide)]
  have h2 := (congrArg (runI (parseFetchKeyResponse ⟨true, 0⟩)) (runNet_rest h1)).trans
    (runI_parseFetchKeyResponse _ algorithm raw hl rest)
  rw [run_parse_eq _ _ h2]
  dsimp only
  rw [hparse]
  exact ⟨_, _, runNet_rest h2, rfl⟩

/-- **C63.** A server with the long-term key `privateKey` answers a fetch-key request; a client that
receives that answer, over TCP or UDP and in any segmentation, gets exactly the server's public key,
and its socket is closed again. -/
theorem C63_fetches_published_key (hC : C.Lawful) (timeout : Nat) (ans : Nat → Answer C) (host : Bytes)
    (s : Seq) (rest : List (Byte ⊕ Err)) (h : Delivers s.conn.input Wire.fetchKeyRequest rest)
    (privateKey : PrivateKey C) (algorithm : Byte) (key : PublicKey) (raw : Bytes)
    (hmanager : (ans s.pos).fetchKey = fetchServerKey privateKey)
    (hkey : fetchServerKey privateKey = .ok (algorithm, key)) (hraw : C.marshalPKIX key = .ok raw)
    (hl : raw.length ≤ 65536) (hw : (ans (s.pos + 1)).write = (0, none))
    (hd : ∀ d, s.conn.deadline = some d → s.world.now + (ans (s.pos + 1)).tick ≤ d)
    (env : CEnv C) (network : Bytes) (hnet : network = str "tcp" ∨ network = str "udp")
    (hconnect : env.connect = none) (hwrite : env.write.2 = none) (hclose : env.close = none) :
    ∃ reply, (serveOne timeout ans host s).conn.output = s.conn.output ++ reply ∧
      ∀ (cs : CConn × CShared) (rest' : List (Byte ⊕ Err)),
        cs.1.net.written.stream = reply.map Sum.inl ++ rest' →
        ∃ cs', runClient env (protocolFetch network) cs = (.val (.ok key), cs') ∧
          cs'.1.net.stream = rest' ∧ cs'.1.isOpen = false := by
  refine ⟨_, C63_server_answer hC timeout ans host s rest h algorithm key raw (hmanager.trans hkey) hraw
    (by omega) hw hd, fun cs rest' hstream => ?_⟩
  obtain ⟨t, ws, ht, hrun⟩ := protocolExchange_accepts env algorithm raw key
    (hC.parse_marshalPKIX _ _ hraw) hl { cs.1 with isOpen := true } cs.2 rest' hwrite hstream
  refine ⟨({ net := t, writes := ws, isOpen := false }, cs.2), ?_, ht, rfl⟩
  · unfold runClient protocolFetch
    rw [if_pos hnet]
    simp only [Prog.run, cexec, hconnect, Option.isNone, Bool.or_true]
    rw [Prog.run_bind, hrun]
    simp only [Prog.run, cexec, hclose]
    rfl

theorem NoPanic.fetchKeyResponse (c : ResponseCommon) : NoPanic (parseFetchKeyResponse c) :=
  .readField fun _ => .readField fun _ => .ite trivial fun _ => .readField fun _ => trivial

/-- Everything about the exchange. -/
theorem protocolExchange_inv {env : CEnv C} {c : CConn} {w : CShared}
    {out : Res (Except Err PublicKey) × (CConn × CShared)}
    (h : (protocolExchange (C := C)).run (cexec env) (c, w) = out) :
    ∃ r, out.1 = .val r ∧ out.2.1.isOpen = c.isOpen ∧ out.2.2 = w ∧
      (∃ n, out.2.1.writes = c.writes ++ [(Wire.fetchKeyRequest, n, env.write.2)]) ∧
      ∀ key, r = .ok key → ∃ header algorithm raw, c.net.written.stream =
          (header :: algorithm :: (Wire.be64 raw.length ++ raw)).map Sum.inl ++ out.2.1.net.stream ∧
        header.msb = true ∧ raw.length ≤ 65536 ∧
        (C.parsePKIX raw = .ok (.inr key) ∨
          ∃ k, C.parsePKIX raw = .ok (.inl k) ∧ key = .otherType 0) := by
  unfold protocolExchange at h
  simp only [Prog.run, cexec] at h
  cases hw : env.write.2 with
  | some e => rw [hw] at h; subst h; exact ⟨_, rfl, rfl, rfl, ⟨_, rfl⟩, fun _ h => by cases h⟩
  | none =>
  rw [hw] at h
  dsimp only at h
  obtain ⟨t₁, ⟨p₁, h1, h⟩ | ⟨m, h1, h⟩⟩ := run_parse_inv h
  rotate_left
  · exact absurd h1 (NoPanic.responseCommon.run _ _ _ _)
  cases p₁ with
  | error e => subst h; exact ⟨_, rfl, rfl, rfl, ⟨_, rfl⟩, fun _ h => by cases h⟩
  | ok common =>
  dsimp only at h
  split at h
  · obtain ⟨t₂, ⟨p₂, h2, h⟩ | ⟨m, h2, h⟩⟩ := run_parse_inv h
    · cases p₂ <;> (subst h; exact ⟨_, rfl, rfl, rfl, ⟨_, rfl⟩, fun _ h => by cases h⟩)
    · exact absurd h2 ((NoPanic.errorResponse _).run _ _ _ _)
  rename_i hs
  obtain ⟨t₂, ⟨p₂, h2, h⟩ | ⟨m, h2, h⟩⟩ := run_parse_inv h
  rotate_left
  · exact absurd h2 ((NoPanic.fetchKeyResponse _).run _ _ _ _)
  cases p₂ with
  | error e => subst h; exact ⟨_, rfl, rfl, rfl, ⟨_, rfl⟩, fun _ h => by cases h⟩
  | ok response =>
  dsimp only at h
  obtain ⟨hc, hstream, hsize, hlen⟩ := parseFetchKeyResponse_inv h2
  have hhead := parseResponseCommon_inv h1
  have hall : c.net.written.stream = (((1#8 <<< 7) ||| common.reserved) :: response.keyAlgorithm ::
      (Wire.be64 response.publicKey.length ++ response.publicKey)).map Sum.inl ++ t₂.stream := by
    refine hhead.trans (hstream.trans ?_)
    rw [FetchKeyResponse.bytes, hc, success_bytes common (by simpa using hs), hsize, beEnc_eight]
    simp
  have hmsb := msb_success common (by simpa using hs)
  cases hp : C.parsePKIX response.publicKey with
  | error e =>
    rw [hp] at h; subst h; exact ⟨_, rfl, rfl, rfl, ⟨_, rfl⟩, fun _ h => by cases h⟩
  | ok k =>
  cases k with
  | inl k =>
    rw [hp] at h; subst h
    exact ⟨_, rfl, rfl, rfl, ⟨_, rfl⟩, fun key hk =>
      ⟨_, _, _, hall, hmsb, hlen, .inr ⟨k, hp, by cases hk; rfl⟩⟩⟩
  | inr k =>
    rw [hp] at h; subst h
    exact ⟨_, rfl, rfl, rfl, ⟨_, rfl⟩, fun key hk =>
      ⟨_, _, _, hall, hmsb, hlen, .inl (by cases hk; exact hp)⟩⟩

/-- Everything about `Fetch`. -/
theorem protocolFetch_inv {env : CEnv C} {network : Bytes} {s : CConn × CShared}
    {out : Res (Except Err PublicKey) × (CConn × CShared)}
    (h : runClient env (protocolFetch network) s = out) :
    (∃ e, out = (.val (.error e), s)) ∨
    ∃ mid, (protocolExchange (C := C)).run (cexec env) ({ s.1 with isOpen := true }, s.2) = mid ∧
      out.1 = mid.1 ∧ out.2.1 = { mid.2.1 with isOpen := mid.2.1.isOpen && env.close.isSome } := by
  unfold runClient protocolFetch at h
  split at h
  rotate_left
  · exact .inl ⟨_, h.symm⟩
  simp only [Prog.run, cexec] at h
  cases hc : env.connect with
  | some e =>
    rw [hc] at h
    refine .inl ⟨e, h.symm.trans ?_⟩
    simp [Prog.run]
  | none =>
    rw [hc] at h
    simp only [Option.isNone, Bool.or_true] at h
    rw [Prog.run_bind] at h
    obtain ⟨r, h1, -⟩ := protocolExchange_inv
      (rfl : (protocolExchange (C := C)).run (cexec env) ({ s.1 with isOpen := true }, s.2) = _)
    rcases hr : (protocolExchange (C := C)).run (cexec env) ({ s.1 with isOpen := true }, s.2)
      with ⟨a, c, w⟩
    rw [hr] at h h1
    dsimp only at h1
    subst h1
    subst h
    exact .inr ⟨_, rfl, rfl, rfl⟩

/-- The client sends the fetch-key request of the wire format, once, and nothing else — or nothing, if
it could not connect. -/
theorem C63_request_sent (env : CEnv C) (network : Bytes) (s : CConn × CShared) :
    let s' := (runClient env (protocolFetch network) s).2
    s'.1.writes = s.1.writes ∨
    ∃ n, s'.1.writes = s.1.writes ++ [(Wire.fetchKeyRequest, n, env.write.2)] := by
  obtain ⟨e, h⟩ | ⟨mid, h1, h2, h3⟩ :=
    protocolFetch_inv (rfl : runClient env (protocolFetch network) s = _)
  · rw [h]; exact .inl rfl
  · obtain ⟨r, -, -, -, h4, -⟩ := protocolExchange_inv h1
    dsimp only
    rw [h3]
    exact .inr h4

/-! ## C64 -/

/-- **C64.** Whatever the peer sends: `Fetch` does not panic. -/
theorem C64_no_panic (env : CEnv C) (network : Bytes) (s : CConn × CShared) :
    ∃ r, (runClient env (protocolFetch network) s).1 = .val r := by
  obtain ⟨e, h⟩ | ⟨mid, h1, h2, h3⟩ :=
    protocolFetch_inv (rfl : runClient env (protocolFetch network) s = _)
  · rw [h]; exact ⟨_, rfl⟩
  · obtain ⟨r, h4, -⟩ := protocolExchange_inv h1
    exact ⟨r, h2.trans h4⟩

/-- **C64.** A key is returned only if the peer sent a successful fetch-key response with exactly that
key (nothing authenticates it: the fetcher trusts the network). -/
theorem C64_key_from_peer (env : CEnv C) (network : Bytes) (s s' : CConn × CShared) (key : PublicKey)
    (h : runClient env (protocolFetch network) s = (.val (.ok key), s')) :
    ∃ header algorithm raw, s.1.net.written.stream =
        (header :: algorithm :: (Wire.be64 raw.length ++ raw)).map Sum.inl ++ s'.1.net.stream ∧
      header.msb = true ∧ raw.length ≤ 65536 ∧
      (C.parsePKIX raw = .ok (.inr key) ∨
        ∃ k, C.parsePKIX raw = .ok (.inl k) ∧ key = .otherType 0) := by
  obtain ⟨e, h⟩ | ⟨mid, h1, h2, h3⟩ := protocolFetch_inv h
  · cases h
  · obtain ⟨r, h4, -, -, -, h5⟩ := protocolExchange_inv h1
    dsimp only at h2 h3
    rw [h3]
    refine h5 key ?_
    have := h4.symm.trans h2.symm
    cases this
    rfl

/-- **C64.** When `Fetch` returns, the socket it opened is closed, on every path (unless closing
fails). -/
theorem C64_socket_closed (env : CEnv C) (network : Bytes) (s : CConn × CShared)
    (hs : s.1.isOpen = false) (hclose : env.close = none) :
    (runClient env (protocolFetch network) s).2.1.isOpen = false := by
  obtain ⟨e, h⟩ | ⟨mid, h1, h2, h3⟩ :=
    protocolFetch_inv (rfl : runClient env (protocolFetch network) s = _)
  · rw [h]; exact hs
  · rw [h3, hclose]; simp

/-- **C64.** For a network other than tcp and udp `Fetch` fails, and touches no socket. -/
theorem C64_other_networks (env : CEnv C) (network : Bytes) (s : CConn × CShared)
    (h : network ≠ str "tcp" ∧ network ≠ str "udp") :
    ∃ e, runClient env (protocolFetch network) s = (.val (.error e), s) := by
  unfold runClient protocolFetch
  rw [if_neg (fun h' => h'.elim h.1 h.2)]
  exact ⟨_, rfl⟩

end

namespace ProtocolFetchExample

/-- The reply of a server with the given long-term key to a fetch-key request. -/
def served (privateKey : PrivateKey Toy.crypto) : Bytes :=
  (serveOne 5000 (fun _ => { OnceExample.answer (.error .eof) with
      fetchKey := fetchServerKey privateKey }) (str "10.0.0.1")
    (SessionExample.start SessionExample.world Wire.fetchKeyRequest)).conn.output

/-- The key a client gets from a peer, and whether its socket is open afterwards. -/
def fetched (network : String) (t : Transport) : Option PublicKey × Bool :=
  let r := runClient HandshakeExample.env (protocolFetch (str network)) (HandshakeExample.start t)
  (match r.1 with
    | .val (.ok k) => some k
    | _ => none, r.2.1.isOpen)

/-- TCP octet by octet or UDP: the client gets the published key and closes its socket. -/
example : ∀ k ∈ [.ed25519 (9 : BitVec 256), .ed25519 (77 : BitVec 256)],
    fetched "tcp" (.tcp ((served k).map fun b => .data [b])) =
      ((fetchServerKey k).toOption.map (·.2), false) ∧
    fetched "udp" (.udp false [] [.ok (served k)]) =
      ((fetchServerKey k).toOption.map (·.2), false) ∧
    (fetchServerKey k).toOption.isSome := by decide +kernel

/-- (Toy cryptography cannot encode RSA keys: the server answers with an error, the client reports
one.) -/
example : (served (.rsa (77 : Nat))).head? = some 0 ∧
    fetched "tcp" (.tcp [.data (served (.rsa (77 : Nat)))]) = (none, false) := by decide +kernel

/-- A truncated answer, an error response and an unknown network give no key; the socket is closed. -/
example : fetched "tcp" (.tcp [.data ((served (.ed25519 (9 : BitVec 256))).take 20)]) = (none, false) ∧
    fetched "tcp" (.tcp [.data (Wire.errorResponse 1 (str "no"))]) = (none, false) ∧
    fetched "unix" (.tcp [.data (served (.ed25519 (9 : BitVec 256)))]) = (none, false) := by
  decide +kernel

end ProtocolFetchExample

end Goe2ee
