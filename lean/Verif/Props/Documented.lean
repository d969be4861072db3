import Verif.Spec.Documented
import Verif.Props.Codec
import Verif.Props.Nonce
import Verif.Props.Keys
import Verif.Props.Handshake

/-!
# C152: the wire format is the documented one
-/

set_option autoImplicit false

namespace Goe2ee

theorem num_four (v : Nat) : Documented.num 4 v = Wire.be32 v := rfl

theorem num_eight (v : Nat) : Documented.num 8 v = Wire.be64 v := rfl

/-- The messages that the library builds (package `protocol`, and the derivation of nonces and keys) are the documented
ones. -/
def BuildsDocumented (C : Crypto) : Prop :=
  (helloRequest.bytes = Documented.helloRequest ∧ fetchKeyRequest.bytes = Documented.fetchKeyRequest ∧
    helloResponse.bytes = Documented.helloResponse) ∧
  (∀ (id : ID) (pk : C.EPub), (newSetupRequest C id pk).bytes = Documented.setupRequest id.val (C.marshalEPub pk)) ∧
  (∀ (id : ID) (counter : BitVec 64) (msg : Bytes) (e : Bool), msg.length < 2 ^ 64 →
    (newProcessRequest id counter msg e).bytes = Documented.processRequest e id.val counter.toNat msg) ∧
  (∀ (counter : BitVec 64) (msg : Bytes), msg.length < 2 ^ 64 →
    (newProcessResponse counter msg).bytes = Documented.processResponse counter.toNat msg) ∧
  (∀ (code : ErrorCode) (msg : Bytes), (newErrorResponse code msg).bytes = Documented.errorResponse code.toNat msg) ∧
  (∀ (ck sk : C.EPub) (id : ID),
    setupTranscript C ck sk id = Documented.transcript (C.marshalEPub ck) (C.marshalEPub sk) id.val) ∧
  (∀ counter : BitVec 64, nonce directionClientToServer counter 12 = .val (Documented.nonce 0 counter.toNat) ∧
    nonce directionServerToClient counter 12 = .val (Documented.nonce 1 counter.toNat)) ∧
  (∀ secret : Bytes, newGCM C secret = .ok (Documented.key C.hmac secret)) ∧
  (∀ octet number, (octet, number) ∈ Documented.hashes ↔ newHashType number = .val octet) ∧
  (∀ (k : PrivateKey C) (octet : KeyAlgorithm) (pub : PublicKey), fetchServerKey k = .ok (octet, pub) →
    (octet = 1 ∧ ∃ p, pub = .rsa p) ∨ (octet = 2 ∧ ∃ p, pub = .ecdsa p) ∨ (octet = 3 ∧ ∃ p, pub = .ed25519 p))

/-- The documented messages, arriving in any segmentation, are understood. -/
def ReadsDocumented (C : Crypto) : Prop :=
  (∀ evs rest, Delivers evs Documented.helloRequest rest → Parses parseRequestCommon evs (.ok ⟨1, 1⟩) rest) ∧
  (∀ evs rest, Delivers evs Documented.fetchKeyRequest rest → Parses parseRequestCommon evs (.ok ⟨1, 4⟩) rest) ∧
  (∀ evs rest, Delivers evs Documented.helloResponse rest → Parses parseResponseCommon evs (.ok ⟨true, 0⟩) rest) ∧
  (∀ (id : ID) (pk : C.EPub) evs rest, Delivers evs (Documented.setupRequest id.val (C.marshalEPub pk)) rest →
    Parses (recvSetupRequest C) evs (.ok ⟨⟨1, 2⟩, id, pk⟩) rest) ∧
  (∀ (id : ID) (counter : BitVec 64) (msg : Bytes) (e : Bool) evs rest, msg.length ≤ 2 ^ 30 →
    Delivers evs (Documented.processRequest e id.val counter.toNat msg) rest →
    ∃ req : ProcessRequest, Parses recvProcessRequest evs (.ok req) rest ∧ req.common = ⟨1, 3⟩ ∧ req.id = id ∧
      req.counter = counter ∧ req.expectReply = e ∧ req.message = msg) ∧
  (∀ (counter : BitVec 64) (msg : Bytes) evs rest, msg.length ≤ 2 ^ 30 →
    Delivers evs (Documented.processResponse counter.toNat msg) rest →
    ∃ resp : ProcessResponse, Parses recvProcessResponse evs (.ok resp) rest ∧ resp.common.success = true ∧
      resp.counter = counter ∧ resp.message = msg) ∧
  (∀ (code : ErrorCode) (msg : Bytes) evs rest, msg.length < 2 ^ 63 →
    Delivers evs (Documented.errorResponse code.toNat msg) rest →
    ∃ resp : ErrorResponse, Parses recvErrorResponse evs (.ok resp) rest ∧ resp.common.success = false ∧
      resp.code = code ∧ resp.message = msg)

/-- **C152**, the full claim: the messages that the library builds are the documented ones, and it understands the
documented ones; these two parts leave out two responses. -/
def C152_claim : Prop :=
  ∀ C : Crypto, C.Lawful → BuildsDocumented C ∧ ReadsDocumented C ∧
    (∀ (pk : C.EPub) (hash : Byte) (sig : Bytes), 0 < sig.length → sig.length ≤ 65536 →
      ((newSetupResponse C pk).setSignature hash sig).bytes = Documented.setupResponse (C.marshalEPub pk) hash sig) ∧
    (∀ (pk : C.EPub) (hash : Byte) (sig : Bytes) evs rest, 0 < sig.length → sig.length ≤ 65536 →
      Delivers evs (Documented.setupResponse (C.marshalEPub pk) hash sig) rest →
      Parses (recvSetupResponse C) evs (.ok ⟨⟨true, 0⟩, pk, hash, sig⟩) rest) ∧
    (∀ (alg : Byte) (pk : Bytes), pk.length ≤ 65536 →
      (newFetchKeyResponse alg pk).bytes = Documented.fetchKeyResponse alg pk) ∧
    (∀ (alg : Byte) (pk : Bytes) evs rest, pk.length ≤ 65536 → Delivers evs (Documented.fetchKeyResponse alg pk) rest →
      ∃ resp : FetchKeyResponse, Parses recvFetchKeyResponse evs (.ok resp) rest ∧ resp.keyAlgorithm = alg ∧
        resp.publicKey = pk)

theorem be32_cancel {a b : Nat} {x y : Bytes} (ha : a < 2 ^ 32) (hb : b < 2 ^ 32)
    (h : Wire.be32 a ++ x = Wire.be32 b ++ y) : a = b ∧ x = y := by
  obtain ⟨h1, h2⟩ := List.append_inj h rfl
  rw [← beEnc_four, ← beEnc_four] at h1
  exact ⟨beEnc_inj (by omega) (by omega) h1, h2⟩

/-- The first half of a 64-bit integer. -/
theorem be64_split (v : Nat) : Wire.be64 v = Wire.be32 (v / 2 ^ 32) ++ Wire.be32 v := by
  simp [Wire.be64, Wire.be32, Wire.octet, Nat.div_div_eq_div_mul]

/-- **C152**: a signed setup response of the library is not a documented one, whatever the documented one contains. -/
theorem C152_setup_response_differs (C : Crypto) (hC : C.Lawful) (pk : C.EPub) (hash : Byte) (sig : Bytes)
    (hs : 0 < sig.length) (hs2 : sig.length < 2 ^ 32) (pk' : Bytes) (hash' : Byte) (sig' : Bytes)
    (hpk' : pk'.length < 2 ^ 32) (hs' : sig'.length < 2 ^ 64) :
    ((newSetupResponse C pk).setSignature hash sig).bytes ≠ Documented.setupResponse pk' hash' sig' := by
  rw [C03_setup_response_layout C pk hash sig hs]
  intro h
  simp only [Wire.setupResponse, Documented.setupResponse, num_four, num_eight, List.append_assoc] at h
  have h1 := (List.cons.inj h).2
  obtain ⟨h2, h3⟩ := be32_cancel (by rw [hC.marshalEPub_length]; decide) hpk' h1
  obtain ⟨-, h4⟩ := List.append_inj h3 h2
  have h5 := (List.cons.inj h4).2
  change Wire.be32 _ ++ sig = Wire.be64 _ ++ sig' at h5
  rw [be64_split, List.append_assoc] at h5
  obtain ⟨h6, h7⟩ := be32_cancel hs2 (by omega) h5
  have h8 := congrArg List.length h7
  simp only [List.length_append, Wire.be32, List.length_cons, List.length_nil] at h8
  omega

/-- **C152**: a fetch-key response of the library is not a documented one, whatever the documented one contains. -/
theorem C152_fetch_key_response_differs (alg : Byte) (pk : Bytes) (hpk : pk.length < 2 ^ 32) (alg' : Byte) (pk' : Bytes)
    (hpk' : pk'.length < 2 ^ 32) : (newFetchKeyResponse alg pk).bytes ≠ Documented.fetchKeyResponse alg' pk' := by
  rw [C06_fetch_key_response_layout alg pk (by omega)]
  intro h
  simp only [Wire.fetchKeyResponse, Documented.fetchKeyResponse, num_four, List.append_assoc] at h
  have h1 := (List.cons.inj (List.cons.inj h).2).2
  change Wire.be64 _ ++ pk = Wire.be32 _ ++ pk' at h1
  rw [be64_split, List.append_assoc] at h1
  obtain ⟨h2, h3⟩ := be32_cancel (by omega) hpk' h1
  have h4 := congrArg List.length h3
  simp only [List.length_append, Wire.be32, List.length_cons, List.length_nil] at h4
  have : pk.length / 2 ^ 32 = 0 := Nat.div_eq_of_lt hpk
  omega

/-- **C152 is refuted**: the sizes of signatures have four octets instead of eight, the sizes of fetched keys eight instead
of four. -/
theorem C152_refuted : ¬ C152_claim := by
  intro h
  obtain ⟨-, -, h1, -⟩ := h Toy.crypto Toy.lawful
  exact C152_setup_response_differs Toy.crypto Toy.lawful (9 : BitVec 256) 4 [1] (by decide) (by decide)
    (Toy.crypto.marshalEPub (9 : BitVec 256)) 4 [1] (by decide +kernel) (by decide)
    (h1 (9 : BitVec 256) 4 [1] (by decide) (by decide))

/-- **C152**, what the library builds: everything but setup and fetch-key responses is as documented.  Missing: those two,
see `C152_refuted`. -/
theorem C152_builds_partial (C : Crypto) (hC : C.Lawful) : BuildsDocumented C := by
  refine ⟨⟨by decide, by decide, by decide⟩, fun id pk => C02_setup_request_layout C id pk, ?_, ?_, ?_,
    fun ck sk id => C13_transcript_layout C ck sk id,
    fun counter => ⟨C12_nonce_layout 0 counter, C12_nonce_layout 1 counter⟩, ?_, ?_, ?_⟩
  · intro id counter msg e hl
    exact C04_process_request_layout id counter msg e hl
  · intro counter msg hl
    exact C05_process_response_layout counter msg hl
  · intro code msg
    exact C07_error_response_layout code msg
  · intro secret
    obtain ⟨key, h1, -, h3, h4⟩ := C55_aead_key C hC secret
    have h5 := h1.symm.trans ((C55_derive_key_is_hkdf C hC secret kdfInfo aesKeySize).1 (by decide))
    have h6 : key = Documented.key C.hmac secret := Except.ok.inj h5
    simp only [← h6, newGCM, h1, h3, h4]
  · intro octet number
    simp only [Documented.hashes, List.mem_cons, Prod.mk.injEq, List.not_mem_nil, or_false, newHashType]
    constructor
    · rintro (⟨rfl, rfl⟩ | ⟨rfl, rfl⟩ | ⟨rfl, rfl⟩) <;> rfl
    · intro h
      split at h
      · cases h; left; exact ⟨rfl, by assumption⟩
      split at h
      · cases h; right; left; exact ⟨rfl, by assumption⟩
      split at h
      · cases h; right; right; exact ⟨rfl, by assumption⟩
      · cases h
  · intro k octet pub h
    cases k with
    | rsa k => cases h; exact .inl ⟨rfl, _, rfl⟩
    | ecdsa k => cases h; exact .inr (.inl ⟨rfl, _, rfl⟩)
    | ed25519 k => cases h; exact .inr (.inr ⟨rfl, _, rfl⟩)
    | otherType t => cases h

/-- **C152**, what the library understands: every documented message but setup and fetch-key responses.  Missing: those
two, see `C152_documented_setup_response_partial`. -/
theorem C152_reads_partial (C : Crypto) (hC : C.Lawful) : ReadsDocumented C := by
  refine ⟨?_, ?_, ?_, ?_, ?_, ?_, ?_⟩
  · intro evs rest h
    exact (C01_header_roundtrip ⟨1, 1⟩ (by decide) (by decide) evs rest h).2
  · intro evs rest h
    exact (C01_header_roundtrip ⟨1, 4⟩ (by decide) (by decide) evs rest h).2
  · intro evs rest h
    apply runEv_of_runI
    rw [h]
    exact runI_parseResponseCommon 128 rest
  · intro id pk evs rest h
    exact C02_setup_request_roundtrip C hC id pk evs rest h
  · intro id counter msg e evs rest hl h
    exact C04_process_request_roundtrip id counter msg e hl evs rest h
  · intro counter msg evs rest hl h
    exact C05_process_response_roundtrip counter msg hl evs rest h
  · intro code msg evs rest hl h
    exact C07_error_response_roundtrip code msg hl evs rest h

example : Documented.setupRequest (List.replicate 16 7) [1, 2] =
    [0x12] ++ List.replicate 16 7 ++ [0, 0, 0, 2, 1, 2] := by decide

example : Documented.setupResponse [1, 2] 4 [3] = [0x80, 0, 0, 0, 2, 1, 2, 4, 0, 0, 0, 0, 0, 0, 0, 1, 3] := by decide

example : Documented.fetchKeyResponse 3 [1, 2] = [0x80, 3, 0, 0, 0, 2, 1, 2] := by decide

/-- **C152**: what the client makes of a documented setup response with a signature of less than 4 GiB: one with an empty
signature, followed by the second half of the size and the signature, which stay on the connection. -/
theorem C152_documented_setup_response_partial (C : Crypto) (hC : C.Lawful) (pk : C.EPub) (hash : Byte) (sig : Bytes)
    (hs : sig.length < 2 ^ 32) (evs : List Ev) (rest : List (Byte ⊕ Err))
    (h : Delivers evs (Documented.setupResponse (C.marshalEPub pk) hash sig) rest) :
    Parses (recvSetupResponse C) evs (.ok ⟨⟨true, 0⟩, pk, hash, []⟩)
      ((Documented.num 4 sig.length ++ sig).map Sum.inl ++ rest) := by
  refine C03_wire_response_parses C hC pk hash [] (by decide) evs _ ?_
  rw [Delivers, h]
  have h0 : sig.length / 2 ^ 32 = 0 := Nat.div_eq_of_lt hs
  simp [Documented.setupResponse, Wire.setupResponse, num_four, num_eight, be64_split, h0]

theorem handshake_verifies {C : Crypto} {env : CEnv C} {host : Except Err Bytes} {c : CConn} {w : CShared}
    {session : ClientSession} {s' : CConn × CShared}
    (h : (handshake host).run (cexec env) (c, w) = (.val (.ok session), s')) :
    ∃ hostname key common response hash content, ∃ t₁ t₂ : List (Byte ⊕ Err), host = .ok hostname ∧
      env.fetch hostname = .ok key ∧ runI parseResponseCommon c.net.written.stream = (.val (.ok common), t₁) ∧
      runI (parseSetupResponse C common) t₁ = (.val (.ok response), t₂) ∧
      Verifies C key hash content response.signature := by
  unfold handshake at h
  cases host with
  | error e => cases h
  | ok hostname =>
  cases hf : env.fetch hostname with
  | error e => simp only [Prog.run, cexec, hf] at h; cases h
  | ok key =>
  cases hr : env.random with
  | error e => simp only [Prog.run, cexec, hf, hr, uuid] at h; cases h
  | ok random =>
  cases hg : env.genKey with
  | error e => simp only [Prog.run, cexec, hf, hr, hg, uuid] at h; cases h
  | ok priv =>
  simp only [Prog.run, cexec, hf, hr, hg, uuid] at h
  cases hw : env.write.2 with
  | some e => rw [hw] at h; cases h
  | none =>
  rw [hw] at h
  dsimp only at h
  split at h
  · cases h
  obtain ⟨p₁, t₁, h1, h⟩ := run_parse_val h
  cases p₁ with
  | error e => cases h
  | ok common =>
  dsimp only at h
  split at h
  · obtain ⟨p₂, t₂, h2, h⟩ := run_parse_val h
    cases p₂ <;> cases h
  obtain ⟨p₂, t₂, h2, h⟩ := run_parse_val h
  cases p₂ with
  | error e => cases h
  | ok response =>
  dsimp only at h
  cases hh : HashType.cryptoHash response.hashType with
  | panic m => rw [hh] at h; cases h
  | val hash =>
  rw [hh] at h
  dsimp only [ofClientRes, Prog.ret_bind] at h
  cases hv : verifySignature C key hash
      (setupTranscript C (C.epub priv) response.publicKey (uuidOf random)) response.signature with
  | panic m => rw [hv] at h; cases h
  | val v =>
  rw [hv] at h
  match v, hv, h with
  | .error e, _, h => cases h
  | .ok false, _, h => cases h
  | .ok true, hv, _ =>
  exact ⟨hostname, key, common, response, hash, _, _, _, rfl, hf, h1, h2, verifySignature_true hv⟩

/-- **C152**: dialling a server that answers in the documented format fails, unless an empty signature is valid (it is for
none of the three kinds of keys in Go's standard library). -/
theorem C152_documented_server_refused {C : Crypto} (hC : C.Lawful) (env : CEnv C) (udp : Bool) (hostname : Bytes)
    (options : ClientOptions) (s s' : CConn × CShared) (r : Except Err Client) (key : PublicKey)
    (hkey : env.fetch hostname = .ok key) (hempty : ∀ hash content, ¬ Verifies C key hash content [])
    (pk : C.EPub) (hash : Byte) (sig : Bytes) (hs : sig.length < 2 ^ 32) (rest : List (Byte ⊕ Err))
    (hstream : s.1.net.written.stream =
      (Documented.setupResponse (C.marshalEPub pk) hash sig).map Sum.inl ++ rest)
    (h : runClient env (dial udp (.ok hostname) options) s = (.val r, s')) : ∃ e, r = .error e := by
  cases r with
  | error e => exact ⟨e, rfl⟩
  | ok c =>
    exfalso
    obtain ⟨session, h1, rfl⟩ := dial_ok h
    obtain ⟨hostname', key', common, response, hash', content, t₁, t₂, h2, h3, h4, h5, h6⟩ := handshake_verifies h1
    cases h2
    rw [hkey] at h3
    cases h3
    have h0 : sig.length / 2 ^ 32 = 0 := Nat.div_eq_of_lt hs
    have h7 : s.1.net.written.stream = .inl 128 :: ((beEnc 4 (C.marshalEPub pk).length ++ (C.marshalEPub pk ++ ([hash] ++
        (beEnc 4 ([] : Bytes).length ++ [])))).map Sum.inl ++ ((Wire.be32 sig.length ++ sig).map Sum.inl ++ rest)) := by
      rw [hstream]
      simp [Documented.setupResponse, num_four, num_eight, be64_split, h0, beEnc_four]
    have h8 := (congrArg (runI parseResponseCommon) h7).symm.trans h4
    rw [runI_parseResponseCommon] at h8
    cases h8
    rw [runI_parseSetupResponse C hC.parse_marshalEPub _ pk hash [] (by rw [hC.marshalEPub_length]; decide)
      (by decide)] at h5
    cases h5
    exact hempty _ _ h6

open HandshakeExample in
/-- The hypotheses can be met: the answer that makes a dial succeed in the format of the code, in the documented one. -/
example : succeeds false (.tcp [.data (answer 4)]) = true ∧
    succeeds false (.tcp [.data (Documented.setupResponse (Toy.crypto.marshalEPub (9 : BitVec 256)) 4 signature)]) =
      false ∧
    ∀ hash content, ¬ Verifies Toy.crypto (.ed25519 (beEnc 32 77)) hash content [] := by
  refine ⟨by decide +kernel, by decide +kernel, ?_⟩
  rintro hash content (⟨k, h, -⟩ | ⟨k, h, -⟩ | ⟨k, h, -, h2⟩)
  · cases h
  · cases h
  · cases h
    have h3 : ([] : Bytes) = beEnc 64 (beDec (beEnc 32 77 ++ Toy.crypto.digest hash content)) := beq_iff_eq.mp h2
    have h4 := congrArg List.length h3
    rw [beEnc_length] at h4
    cases h4

end Goe2ee
