import Verif.Spec.Transport
import Verif.Spec.Wire
import Verif.Spec.Toy
import Verif.Proofs.Codec

/-!
# C01–C08: messages on the wire
-/

set_option autoImplicit false

namespace Goe2ee

/-- Every octet sequence is delivered by some connection (used by the examples below: here one
octet per read). -/
def byteByByte (bs : Bytes) : List Ev := bs.map fun b => .data [b]

theorem delivers_byteByByte (bs : Bytes) : Delivers (byteByByte bs) bs [] := by
  induction bs with
  | nil => rfl
  | cons b bs ih =>
    simp only [Delivers, byteByByte, List.map_cons, flatten, List.append_nil] at ih ⊢
    rw [ih]; rfl

/-! ## C01 -/

/-- C01: parsing a request header takes one octet; the version is its high nibble, the action its
low nibble, and serialising the header gives the octet back. -/
theorem C01_header_parse (evs : List Ev) (b : Byte) (rest : List (Byte ⊕ Err))
    (h : Delivers evs [b] rest) :
    ∃ hdr : RequestCommon, Parses parseRequestCommon evs (.ok hdr) rest ∧
      hdr.version.toNat = b.toNat / 16 ∧ hdr.action.toNat = b.toNat % 16 ∧ hdr.bytes = [b] := by
  refine ⟨{ version := (b &&& 0xF0#8) >>> 4, action := b &&& 0x0F#8 }, ?_, ?_, ?_, ?_⟩
  · apply runEv_of_runI
    rw [h]; exact runI_parseRequestCommon b rest
  · clear h; revert b; decide
  · clear h; revert b; decide
  · simp [RequestCommon.bytes, octet_split]

example : ∃ hdr : RequestCommon, Parses parseRequestCommon (byteByByte [0x13, 0x55]) (.ok hdr)
    [.inl 0x55] ∧ hdr.version.toNat = 1 ∧ hdr.action.toNat = 3 := by
  obtain ⟨hdr, h1, h2, h3, _⟩ := C01_header_parse (byteByByte [0x13, 0x55]) 0x13 [.inl 0x55] rfl
  exact ⟨hdr, h1, by simpa using h2, by simpa using h3⟩

/-- C01: a header whose two fields fit in four bits each is a single octet, and is parsed back. -/
theorem C01_header_roundtrip (hdr : RequestCommon) (hv : hdr.version.toNat < 16)
    (ha : hdr.action.toNat < 16) (evs : List Ev) (rest : List (Byte ⊕ Err))
    (h : Delivers evs hdr.bytes rest) :
    hdr.bytes.length = 1 ∧ Parses parseRequestCommon evs (.ok hdr) rest := by
  refine ⟨rfl, ?_⟩
  obtain ⟨v, a⟩ := hdr
  apply runEv_of_runI
  rw [h]
  simp only [RequestCommon.bytes, List.map_cons, List.map_nil, List.cons_append, List.nil_append]
  rw [runI_parseRequestCommon]
  have hv' : v = (v.setWidth 4).zeroExtend 8 := by
    apply BitVec.eq_of_toNat_eq; simp at hv ⊢; omega
  have ha' : a = (a.setWidth 4).zeroExtend 8 := by
    apply BitVec.eq_of_toNat_eq; simp at ha ⊢; omega
  have := octet_join (v.setWidth 4) (a.setWidth 4)
  rw [← hv', ← ha'] at this
  rw [this.1, this.2]

example : Parses parseRequestCommon (byteByByte [0x12]) (.ok ⟨1, 2⟩) [] :=
  (C01_header_roundtrip ⟨1, 2⟩ (by decide) (by decide) _ [] (delivers_byteByByte [0x12])).2

/-- C01: header parsing never panics, and fails only when no octet arrives. -/
theorem C01_header_total (evs : List Ev) :
    ∃ r rest, Parses parseRequestCommon evs r rest ∧
      ((∃ e, r = .error e) ↔ ∀ b rest', flatten evs ≠ .inl b :: rest') := by
  cases hf : flatten evs with
  | nil =>
    refine ⟨.error .unexpectedEOF, [], runEv_of_runI ?_, ?_⟩
    · rw [hf]; rfl
    · simp
  | cons i s =>
    cases i with
    | inl b =>
      refine ⟨_, _, runEv_of_runI (by rw [hf]; exact runI_parseRequestCommon b s), ?_⟩
      simp
    | inr e =>
      by_cases he : e = .eof
      · subst he
        refine ⟨.error .unexpectedEOF, s, runEv_of_runI (by rw [hf]; rfl), ?_⟩
        simp
      · refine ⟨_, s, runEv_of_runI (by rw [hf]; exact runI_readOctet_fail _ _ e s he), ?_⟩
        simp

/-! ## C02 -/

/-- C02: the octets of a setup request are header `0x12`, id, 32-bit key length, key. -/
theorem C02_setup_request_layout (C : Crypto) (id : ID) (pk : C.EPub) :
    (newSetupRequest C id pk).bytes = Wire.setupRequest id.val (C.marshalEPub pk) := by
  simp [SetupRequest.bytes, newSetupRequest, RequestCommon.bytes, Wire.setupRequest, beEnc_four,
    version1, actionSetup]

/-- C02: a setup request arriving in any segmentation is parsed back to the same id and key, and
nothing after it is consumed. -/
theorem C02_setup_request_roundtrip (C : Crypto) (hC : C.Lawful) (id : ID) (pk : C.EPub)
    (evs : List Ev) (rest : List (Byte ⊕ Err))
    (h : Delivers evs (Wire.setupRequest id.val (C.marshalEPub pk)) rest) :
    Parses (recvSetupRequest C) evs
      (.ok { common := { version := 1, action := 2 }, id := id, publicKey := pk }) rest := by
  apply runEv_of_runI
  have hb : Wire.setupRequest id.val (C.marshalEPub pk) =
      0x12#8 :: (id.val ++ beEnc 4 (C.marshalEPub pk).length ++ C.marshalEPub pk) := by
    simp [Wire.setupRequest, beEnc_four]
  rw [h, hb]
  simp only [List.map_cons, List.cons_append, recvSetupRequest, andThen, runI]
  rw [Prog.run_bind]
  rw [show Prog.run itemInterp parseRequestCommon _ = _ from runI_parseRequestCommon _ _]
  exact runI_parseSetupRequest C hC.parse_marshalEPub _ id pk
    (by rw [hC.marshalEPub_length]; decide) rest

example : Parses (recvSetupRequest Toy.crypto)
    (byteByByte (Wire.setupRequest (List.replicate 16 7) (Toy.crypto.marshalEPub (9 : BitVec 256))))
    (.ok { common := ⟨1, 2⟩, id := ⟨List.replicate 16 7, rfl⟩, publicKey := (9 : BitVec 256) }) [] :=
  C02_setup_request_roundtrip Toy.crypto Toy.lawful ⟨List.replicate 16 7, rfl⟩ (9 : BitVec 256) _ []
    (delivers_byteByByte _)

/-! ## C03 -/

/-- C03: the octets of a signed setup response. -/
theorem C03_setup_response_layout (C : Crypto) (pk : C.EPub) (hash : Byte) (sig : Bytes)
    (hs : 0 < sig.length) :
    ((newSetupResponse C pk).setSignature hash sig).bytes =
      Wire.setupResponse (C.marshalEPub pk) hash sig := by
  simp [SetupResponse.bytes, newSetupResponse, SetupResponse.setSignature, ResponseCommon.bytes,
    Wire.setupResponse, beEnc_four, hs]

/-- C03: a setup response with a signature of up to 64 KiB arriving in any segmentation is parsed
back to the same key, hash type and signature, and nothing after it is consumed.  (Also true for an
explicitly encoded empty signature; the encoder never produces that, see below.) -/
theorem C03_wire_response_parses (C : Crypto) (hC : C.Lawful) (pk : C.EPub) (hash : Byte)
    (sig : Bytes) (hs : sig.length ≤ 65536) (evs : List Ev) (rest : List (Byte ⊕ Err))
    (h : Delivers evs (Wire.setupResponse (C.marshalEPub pk) hash sig) rest) :
    Parses (recvSetupResponse C) evs
      (.ok { common := { success := true, reserved := 0 }, publicKey := pk, hashType := hash,
             signature := sig }) rest := by
  apply runEv_of_runI
  have hb : Wire.setupResponse (C.marshalEPub pk) hash sig =
      0x80#8 :: (beEnc 4 (C.marshalEPub pk).length ++ (C.marshalEPub pk ++ ([hash] ++
        (beEnc 4 sig.length ++ sig)))) := by
    simp [Wire.setupResponse, beEnc_four]
  rw [h, hb]
  simp only [List.map_cons, List.cons_append, recvSetupResponse, andThen, runI]
  rw [Prog.run_bind]
  rw [show Prog.run itemInterp parseResponseCommon _ = _ from runI_parseResponseCommon _ _]
  exact runI_parseSetupResponse C hC.parse_marshalEPub _ pk hash sig
    (by rw [hC.marshalEPub_length]; decide) (by omega) rest

example : Parses (recvSetupResponse Toy.crypto)
    (byteByByte (Wire.setupResponse (Toy.crypto.marshalEPub (9 : BitVec 256)) 4 [1, 2, 3]))
    (.ok { common := ⟨true, 0⟩, publicKey := (9 : BitVec 256), hashType := 4,
           signature := [1, 2, 3] }) [] :=
  C03_wire_response_parses Toy.crypto Toy.lawful (9 : BitVec 256) 4 [1, 2, 3] (by decide) _ []
    (delivers_byteByByte _)

/-- **C03.** The octets of a signed setup response (signature of 1 to 65536 octets), arriving in any
segmentation, are parsed back to the same key, hash type and signature, and nothing after them is
consumed. -/
theorem C03_setup_response_roundtrip (C : Crypto) (hC : C.Lawful) (pk : C.EPub) (hash : Byte)
    (sig : Bytes) (h0 : 0 < sig.length) (hs : sig.length ≤ 65536) (evs : List Ev)
    (rest : List (Byte ⊕ Err))
    (h : Delivers evs ((newSetupResponse C pk).setSignature hash sig).bytes rest) :
    Parses (recvSetupResponse C) evs
      (.ok { common := { success := true, reserved := 0 }, publicKey := pk, hashType := hash,
             signature := sig }) rest := by
  rw [C03_setup_response_layout C pk hash sig h0] at h
  exact C03_wire_response_parses C hC pk hash sig hs evs rest h

example : Parses (recvSetupResponse Toy.crypto)
    (byteByByte ((newSetupResponse Toy.crypto (9 : BitVec 256)).setSignature 4 [1, 2, 3]).bytes)
    (.ok { common := ⟨true, 0⟩, publicKey := (9 : BitVec 256), hashType := 4,
           signature := [1, 2, 3] }) [] :=
  C03_setup_response_roundtrip Toy.crypto Toy.lawful (9 : BitVec 256) 4 [1, 2, 3] (by decide) (by decide) _ []
    (delivers_byteByByte _)

/-- C03, the corner case: the encoding of a response whose signature is empty is not self-delimiting;
the parser reports an error at the end of it, for every key and hash type. -/
theorem C03_empty_signature_not_parsed (C : Crypto) (hC : C.Lawful) (pk : C.EPub) (hash : Byte)
    (evs : List Ev)
    (h : Delivers evs ((newSetupResponse C pk).setSignature hash []).bytes []) :
    ∃ e, Parses (recvSetupResponse C) evs (.error e) [] := by
  refine ⟨.wrap ("failed to read " ++ "hash type") .eof, runEv_of_runI ?_⟩
  have hb : ((newSetupResponse C pk).setSignature hash []).bytes =
      0x80#8 :: (beEnc 4 (C.marshalEPub pk).length ++ C.marshalEPub pk) := by
    simp [SetupResponse.bytes, newSetupResponse, SetupResponse.setSignature, ResponseCommon.bytes]
  rw [h, hb]
  simp only [List.map_cons, List.cons_append, recvSetupResponse, andThen, runI]
  rw [Prog.run_bind]
  rw [show Prog.run itemInterp parseResponseCommon _ = _ from runI_parseResponseCommon _ _]
  change runI (parseSetupResponse C _) _ = _
  rw [map_inl_append, parseSetupResponse, runI_readField _ _ _ _ _ (beEnc_length _ _)]
  have hl := hC.marshalEPub_length pk
  have hn := toNat_ofNat_beDec_beEnc4 (C.marshalEPub pk).length (by omega)
  simp only [hn, maxKeySize]
  rw [if_neg (by omega), runI_alloc, runI_readField _ _ _ _ _ rfl]
  simp only [parseEPub, hC.parse_marshalEPub]
  rfl

example : ∃ e, Parses (recvSetupResponse Toy.crypto)
    (byteByByte ((newSetupResponse Toy.crypto (9 : BitVec 256)).setSignature 4 []).bytes)
    (.error e) [] :=
  C03_empty_signature_not_parsed Toy.crypto Toy.lawful (9 : BitVec 256) 4 _ (delivers_byteByByte _)

/-! ## C04 -/

/-- C04: the octets of a process request. -/
theorem C04_process_request_layout (id : ID) (counter : BitVec 64) (msg : Bytes) (er : Bool)
    (hl : msg.length < 2 ^ 64) :
    (newProcessRequest id counter msg er).bytes =
      Wire.processRequest er id.val counter.toNat msg := by
  have : (BitVec.ofNat 64 msg.length).toNat = msg.length := by
    rw [BitVec.toNat_ofNat, Nat.mod_eq_of_lt hl]
  cases er <;>
  simp [ProcessRequest.bytes, newProcessRequest, RequestCommon.bytes, Wire.processRequest,
    beEnc_eight, version1, actionProcess, Nat.mod_eq_of_lt hl]

/-- C04: a process request of at most 1 GiB arriving in any segmentation is parsed back to the
same id, counter, flag and message, and nothing after it is consumed. -/
theorem C04_process_request_roundtrip (id : ID) (counter : BitVec 64) (msg : Bytes) (er : Bool)
    (hl : msg.length ≤ 2 ^ 30) (evs : List Ev) (rest : List (Byte ⊕ Err))
    (h : Delivers evs (Wire.processRequest er id.val counter.toNat msg) rest) :
    ∃ req : ProcessRequest, Parses recvProcessRequest evs (.ok req) rest ∧
      req.common = { version := 1, action := 3 } ∧ req.id = id ∧ req.counter = counter ∧
      req.expectReply = er ∧ req.message = msg := by
  have hb : Wire.processRequest er id.val counter.toNat msg =
      0x13#8 :: (if er then 0x80#8 else 0x00#8) :: (id.val ++ (beEnc 8 counter.toNat ++
        (beEnc 8 msg.length ++ msg))) := by
    simp [Wire.processRequest, beEnc_eight]
  have hf : flatten evs = _ := h.trans (congrArg (fun l => l.map Sum.inl ++ rest) hb)
  exact ⟨_, runEv_of_runI ((congrArg (runI recvProcessRequest) hf).trans
    ((runI_andThen (runI_parseRequestCommon _ _)).trans (runI_parseProcessRequest _ _ id counter msg hl rest))), by cases er <;> simp⟩

example : ∃ req : ProcessRequest, Parses recvProcessRequest
    (byteByByte (Wire.processRequest false (List.replicate 16 7) (5#64).toNat [1, 2, 3]))
    (.ok req) [] ∧ req.common = ⟨1, 3⟩ ∧ req.id = ⟨List.replicate 16 7, rfl⟩ ∧ req.counter = 5 ∧
      req.expectReply = false ∧ req.message = [1, 2, 3] :=
  C04_process_request_roundtrip ⟨List.replicate 16 7, rfl⟩ 5 [1, 2, 3] false (by decide) _ []
    (delivers_byteByByte _)

/-! ## C05 -/

/-- C05: the octets of a process response. -/
theorem C05_process_response_layout (counter : BitVec 64) (msg : Bytes) (hl : msg.length < 2 ^ 64) :
    (newProcessResponse counter msg).bytes = Wire.processResponse counter.toNat msg := by
  simp [ProcessResponse.bytes, newProcessResponse, ResponseCommon.bytes, Wire.processResponse,
    beEnc_eight, Nat.mod_eq_of_lt hl]

/-- C05: a process response of at most 1 GiB is parsed back, in any segmentation. -/
theorem C05_process_response_roundtrip (counter : BitVec 64) (msg : Bytes)
    (hl : msg.length ≤ 2 ^ 30) (evs : List Ev) (rest : List (Byte ⊕ Err))
    (h : Delivers evs (Wire.processResponse counter.toNat msg) rest) :
    ∃ resp : ProcessResponse, Parses recvProcessResponse evs (.ok resp) rest ∧
      resp.common.success = true ∧ resp.counter = counter ∧ resp.message = msg := by
  have hb : Wire.processResponse counter.toNat msg =
      0x80#8 :: (beEnc 8 counter.toNat ++ (beEnc 8 msg.length ++ msg)) := by
    simp [Wire.processResponse, beEnc_eight]
  have hf : flatten evs = _ := h.trans (congrArg (fun l => l.map Sum.inl ++ rest) hb)
  exact ⟨_, runEv_of_runI ((congrArg (runI recvProcessResponse) hf).trans
    ((runI_andThen (runI_parseResponseCommon _ _)).trans (runI_parseProcessResponse _ counter msg hl rest))), by simp⟩

example : ∃ resp : ProcessResponse, Parses recvProcessResponse
    (byteByByte (Wire.processResponse (5#64).toNat [1, 2, 3])) (.ok resp) [] ∧
      resp.common.success = true ∧ resp.counter = 5 ∧ resp.message = [1, 2, 3] :=
  C05_process_response_roundtrip 5 [1, 2, 3] (by decide) _ [] (delivers_byteByByte _)

/-! ## C06 -/

/-- C06: the octets of a fetch-key response. -/
theorem C06_fetch_key_response_layout (alg : Byte) (pk : Bytes) (hl : pk.length < 2 ^ 64) :
    (newFetchKeyResponse alg pk).bytes = Wire.fetchKeyResponse alg pk := by
  simp [FetchKeyResponse.bytes, newFetchKeyResponse, ResponseCommon.bytes, Wire.fetchKeyResponse,
    beEnc_eight, Nat.mod_eq_of_lt hl]

/-- C06: a fetch-key response with a key of at most 64 KiB is parsed back, in any segmentation. -/
theorem C06_fetch_key_response_roundtrip (alg : Byte) (pk : Bytes)
    (hl : pk.length ≤ 65536) (evs : List Ev) (rest : List (Byte ⊕ Err))
    (h : Delivers evs (Wire.fetchKeyResponse alg pk) rest) :
    ∃ resp : FetchKeyResponse, Parses recvFetchKeyResponse evs (.ok resp) rest ∧
      resp.common.success = true ∧ resp.keyAlgorithm = alg ∧ resp.publicKey = pk := by
  have hb : Wire.fetchKeyResponse alg pk = 0x80#8 :: ([alg] ++ (beEnc 8 pk.length ++ pk)) := by
    simp [Wire.fetchKeyResponse, beEnc_eight]
  have hf : flatten evs = _ := h.trans (congrArg (fun l => l.map Sum.inl ++ rest) hb)
  exact ⟨_, runEv_of_runI ((congrArg (runI recvFetchKeyResponse) hf).trans
    ((runI_andThen (runI_parseResponseCommon _ _)).trans (runI_parseFetchKeyResponse _ alg pk (by omega) rest))), by simp⟩

example : ∃ resp : FetchKeyResponse, Parses recvFetchKeyResponse
    (byteByByte (Wire.fetchKeyResponse 3 [1, 2, 3])) (.ok resp) [] ∧
      resp.common.success = true ∧ resp.keyAlgorithm = 3 ∧ resp.publicKey = [1, 2, 3] :=
  C06_fetch_key_response_roundtrip 3 [1, 2, 3] (by decide) _ [] (delivers_byteByByte _)

/-! ## C07 -/

/-- C07: the octets of an error response. -/
theorem C07_error_response_layout (code : ErrorCode) (msg : Bytes) :
    (newErrorResponse code msg).bytes = Wire.errorResponse code.toNat msg := by
  simp [ErrorResponse.bytes, newErrorResponse, ResponseCommon.bytes, Wire.errorResponse,
    beEnc_eight, beEnc_four]

/-- C07: an error response is parsed back to the same code and text, in any segmentation. -/
theorem C07_error_response_roundtrip (code : ErrorCode) (msg : Bytes)
    (hl : msg.length < 2 ^ 63) (evs : List Ev) (rest : List (Byte ⊕ Err))
    (h : Delivers evs (Wire.errorResponse code.toNat msg) rest) :
    ∃ resp : ErrorResponse, Parses recvErrorResponse evs (.ok resp) rest ∧
      resp.common.success = false ∧ resp.code = code ∧ resp.message = msg := by
  have hb : Wire.errorResponse code.toNat msg =
      0x00#8 :: (beEnc 4 code.toNat ++ (beEnc 8 msg.length ++ msg)) := by
    simp [Wire.errorResponse, beEnc_eight, beEnc_four]
  have hf : flatten evs = _ := h.trans (congrArg (fun l => l.map Sum.inl ++ rest) hb)
  exact ⟨_, runEv_of_runI ((congrArg (runI recvErrorResponse) hf).trans
    ((runI_andThen (runI_parseResponseCommon _ _)).trans (runI_parseErrorResponse _ code msg hl rest))), by simp⟩

example : ∃ resp : ErrorResponse, Parses recvErrorResponse
    (byteByByte (Wire.errorResponse (3#32).toNat [1, 2, 3])) (.ok resp) [] ∧
      resp.common.success = false ∧ resp.code = 3 ∧ resp.message = [1, 2, 3] :=
  C07_error_response_roundtrip 3 [1, 2, 3] (by decide) _ [] (delivers_byteByByte _)

/-- C07: a declared text size of `2^63` or more is refused (the conversion to a signed integer
makes the read limit negative), whatever follows; nothing after the header is consumed. -/
theorem C07_error_size_negative (common : ResponseCommon) (code size : Nat) (hs : 2 ^ 63 ≤ size)
    (hs2 : size < 2 ^ 64) (evs : List Ev) (rest : List (Byte ⊕ Err))
    (h : Delivers evs (Wire.be32 code ++ Wire.be64 size) rest) :
    ∃ e, Parses (parseErrorResponse common) evs (.error e) rest := by
  refine ⟨.other "failed to read error message", runEv_of_runI ?_⟩
  rw [h, map_inl_append, ← beEnc_four, ← beEnc_eight, parseErrorResponse,
    runI_readField _ _ _ _ _ (beEnc_length _ _), runI_readField _ _ _ _ _ (beEnc_length _ _)]
  have hm : BitVec.ofNat 64 (beDec (beEnc 8 size)) = BitVec.ofNat 64 size := by
    rw [beDec_beEnc, Nat.mod_eq_of_lt (by omega)]
  have hn : (BitVec.ofNat 64 size).toInt < 0 := by
    rw [BitVec.toInt_eq_toNat_cond, BitVec.toNat_ofNat, Nat.mod_eq_of_lt hs2]
    rw [if_neg (by omega)]; omega
  rw [if_neg]
  · simp only [runI, Prog.run, itemInterp]
    have ht : (BitVec.ofNat 64 (beDec (beEnc 8 size))).toInt.toNat = 0 := by rw [hm]; omega
    rw [ht]
    simp only [copyLimitI]
    rw [if_pos (by rw [hm]; simp; omega)]
    rfl
  · rw [hm]
    intro h0
    rw [h0] at hn; simp at hn

example : ∃ e, Parses (parseErrorResponse ⟨false, 0⟩)
    (byteByByte (Wire.be32 1 ++ Wire.be64 (2 ^ 63 + 5))) (.error e) [] :=
  C07_error_size_negative _ 1 (2 ^ 63 + 5) (by decide) (by decide) _ [] (delivers_byteByByte _)

/-! ## C08 -/

/-- C08: a response is successful iff the top bit of its first octet is set; exactly that octet is
consumed. -/
theorem C08_success_flag (evs : List Ev) (b : Byte) (rest : List (Byte ⊕ Err))
    (h : Delivers evs [b] rest) :
    ∃ resp : ResponseCommon, Parses parseResponseCommon evs (.ok resp) rest ∧
      (resp.success = true ↔ 128 ≤ b.toNat) := by
  refine ⟨{ success := (b >>> 7) == 1#8, reserved := (b <<< 1) >>> 1 }, runEv_of_runI ?_, ?_⟩
  · rw [h]; exact runI_parseResponseCommon b rest
  · clear h; revert b; decide

example : ∃ resp : ResponseCommon, Parses parseResponseCommon (byteByByte [0xFF]) (.ok resp) [] ∧
    (resp.success = true ↔ 128 ≤ (0xFF#8).toNat) := C08_success_flag _ 0xFF [] rfl

/-- C08: a process request expects a reply iff the top bit of its flag octet is set. -/
theorem C08_expect_reply_flag (common : RequestCommon) (b : Byte) (evs : List Ev)
    (rest rest' : List (Byte ⊕ Err)) (h : Delivers evs [b] rest) (req : ProcessRequest)
    (hp : Parses (parseProcessRequest common) evs (.ok req) rest') :
    (req.expectReply = true ↔ 128 ≤ b.toNat) := by
  obtain ⟨evs', h1, h2⟩ := hp
  have h3 := runEv_flatten (parseProcessRequest common) evs
  rw [h1, h] at h3
  simp only [List.map_cons, List.map_nil, List.cons_append, List.nil_append] at h3
  rw [runI_parseProcessRequest_octet, runI_mapOk] at h3
  have hb : (((b &&& 0xF0#8) >>> 7) == 1#8) = true ↔ 128 ≤ b.toNat := by
    clear h h3; revert b; decide
  rw [← hb]
  revert h3
  cases runI (processRequestBody common) rest with
  | mk r s' =>
    cases r with
    | panic m => simp
    | val r =>
      cases r with
      | error e => simp [Except.map]
      | ok q =>
        simp only [Except.map, Prod.mk.injEq, Res.val.injEq, Except.ok.injEq, and_imp]
        intro h4 _
        rw [h4]

example (req : ProcessRequest) (rest' : List (Byte ⊕ Err))
    (hp : Parses (parseProcessRequest ⟨1, 3⟩) (byteByByte [0x7F]) (.ok req) rest') :
    (req.expectReply = true ↔ 128 ≤ (0x7F#8).toNat) :=
  C08_expect_reply_flag _ 0x7F _ [] rest' (delivers_byteByByte _) req hp

/-- C08: two process requests that differ only in the reserved bits of the flag octet give the same
result (the reserved bits aside) and leave the same octets unread. -/
theorem C08_reserved_request_bits (common : RequestCommon) (b b' : Byte)
    (hb : b.toNat / 128 = b'.toNat / 128) (evs evs' : List Ev) (rest : List (Byte ⊕ Err))
    (h : Delivers evs [b] rest) (h' : Delivers evs' [b'] rest) :
    (∀ req rest', Parses (parseProcessRequest common) evs (.ok req) rest' →
      ∃ ρ, Parses (parseProcessRequest common) evs' (.ok { req with reserved := ρ }) rest') ∧
    (∀ e rest', Parses (parseProcessRequest common) evs (.error e) rest' →
      Parses (parseProcessRequest common) evs' (.error e) rest') := by
  have he : (((b &&& 0xF0#8) >>> 7) == 1#8) = (((b' &&& 0xF0#8) >>> 7) == 1#8) := by
    have h1 : ∀ x : Byte, (((x &&& 0xF0#8) >>> 7) == 1#8) = decide (x.toNat / 128 = 1) := by decide
    rw [h1, h1, hb]
  have k1 := runI_parseProcessRequest_octet common b rest
  have k2 := runI_parseProcessRequest_octet common b' rest
  rw [runI_mapOk] at k1 k2
  rw [he] at k1
  constructor
  · rintro req rest' ⟨e1, h1, h2⟩
    have h3 := runEv_flatten (parseProcessRequest common) evs
    rw [h1, h] at h3
    have h3 := h3.trans k1
    revert h3 k2
    cases runI (processRequestBody common) rest with
    | mk r s' =>
      cases r with
      | panic m => simp
      | val r =>
        cases r with
        | error e => simp [Except.map]
        | ok q =>
          simp only [Except.map, Prod.mk.injEq, Res.val.injEq, Except.ok.injEq, and_imp]
          intro k2 h4 h5
          refine ⟨((b' <<< 1) >>> 1) &&& 0xFF#8, runEv_of_runI ?_⟩
          rw [h']
          refine k2.trans ?_
          rw [h4, ← h5, h2]
  · rintro e rest' ⟨e1, h1, h2⟩
    have h3 := runEv_flatten (parseProcessRequest common) evs
    rw [h1, h] at h3
    have h3 := h3.trans k1
    revert h3 k2
    cases runI (processRequestBody common) rest with
    | mk r s' =>
      cases r with
      | panic m => simp
      | val r =>
        cases r with
        | ok q => simp [Except.map]
        | error e =>
          simp only [Except.map, Prod.mk.injEq, Res.val.injEq, Except.error.injEq,
            and_imp]
          intro k2 h4 h5
          refine runEv_of_runI ?_
          rw [h']
          refine k2.trans ?_
          rw [h4, ← h5, h2]

example : (1#8).toNat / 128 = (0x7F#8).toNat / 128 := by decide

/-- C08: the flag octet of a response (its reserved bits in particular) does not influence how the
rest of a process response is parsed. -/
theorem C08_reserved_response_bits (c c' : ResponseCommon) (evs : List Ev) :
    (∀ r rest, Parses (parseProcessResponse c) evs (.ok r) rest →
      Parses (parseProcessResponse c') evs (.ok { r with common := c' }) rest) ∧
    (∀ e rest, Parses (parseProcessResponse c) evs (.error e) rest →
      Parses (parseProcessResponse c') evs (.error e) rest) := by
  rw [parseProcessResponse_common c' c]
  simp only [Parses, mapOk, Prog.run_bind]
  constructor
  · rintro r rest ⟨e1, h1, h2⟩
    exact ⟨e1, by rw [show Prog.run _ _ _ = _ from h1]; rfl, h2⟩
  · rintro r rest ⟨e1, h1, h2⟩
    exact ⟨e1, by rw [show Prog.run _ _ _ = _ from h1]; rfl, h2⟩

example : ∃ r rest, Parses (parseProcessResponse ⟨true, 0⟩)
    (byteByByte (Wire.be64 5 ++ Wire.be64 0)) (.ok r) rest := by
  refine ⟨⟨⟨true, 0⟩, 5, 0, []⟩, [], ?_⟩
  apply runEv_of_runI
  rw [delivers_byteByByte]
  exact runI_parseProcessResponse _ 5 [] (by decide) []

end Goe2ee
