import Verif.Props.Codec
import Verif.Proofs.Parsers

/-!
# C09–C11: limits, truncation, segmentation
-/

set_option autoImplicit false

namespace Goe2ee

/-! ## C09 -/

/-- C09: buffers allocated while receiving a setup request or a setup response. -/
theorem C09_setup_allocations_partial (C : Crypto) (evs : List Ev) :
    (∀ n ∈ allocations (recvSetupRequest C) evs, n ≤ 65536) ∧
    (∀ n ∈ allocations (recvSetupResponse C) evs, n ≤ 65536) := by
  constructor
  · refine allocations_le (AllocsLe.andThen .requestCommon fun c => ?_) evs
    refine .readField (by decide) fun _ => .readField (by decide) fun _ => .ite (fun _ => trivial) fun h => ?_
    simp only [maxKeySize] at h
    exact .alloc (by omega) <| .readField (by omega) fun _ => .epub fun _ => trivial
  · refine allocations_le (AllocsLe.andThen .responseCommon fun c => ?_) evs
    refine .readField (by decide) fun _ => .ite (fun _ => trivial) fun h => ?_
    simp only [maxKeySize] at h
    refine .alloc (by omega) <| .readField (by omega) fun _ => .epub fun _ =>
      .readField (by decide) fun _ => .readField (by decide) fun _ => .ite (fun _ => trivial) fun h => ?_
    simp only [maxSignatureSize] at h
    exact .alloc (by omega) <| .readField (by omega) fun _ => trivial

/-- C09: buffers allocated while receiving a process request or a process response. -/
theorem C09_process_allocations_partial (evs : List Ev) :
    (∀ n ∈ allocations recvProcessRequest evs, n ≤ 1073741824) ∧
    (∀ n ∈ allocations recvProcessResponse evs, n ≤ 1073741824) := by
  constructor
  · refine allocations_le (AllocsLe.andThen .requestCommon fun c => ?_) evs
    refine .readOctet fun _ => .readField (by decide) fun _ => .readField (by decide) fun _ =>
      .readField (by decide) fun _ => .ite (fun _ => trivial) fun h => ?_
    simp only [maxMessageSize] at h
    exact .alloc (by omega) <| .readField (by omega) fun _ => trivial
  · refine allocations_le (AllocsLe.andThen .responseCommon fun c => ?_) evs
    refine .readField (by decide) fun _ => .readField (by decide) fun _ => .ite (fun _ => trivial) fun h => ?_
    simp only [maxMessageSize] at h
    exact .alloc (by omega) <| .readField (by omega) fun _ => trivial

/-- C09: buffers allocated while receiving a fetch-key response. -/
theorem C09_fetch_key_allocations_partial (evs : List Ev) :
    ∀ n ∈ allocations recvFetchKeyResponse evs, n ≤ 65536 := by
  refine allocations_le (AllocsLe.andThen .responseCommon fun c => ?_) evs
  refine .readField (by decide) fun _ => .readField (by decide) fun _ => .ite (fun _ => trivial) fun h => ?_
  simp only [maxKeySize] at h
  exact .alloc (by omega) <| .readField (by omega) fun _ => trivial

/-- A setup request with a declared key size of 5 makes the receiver allocate 5 octets (twice: once
in the parser, once inside `binary.Read`), so the bounds above are about something. -/
example : allocations (recvSetupRequest Toy.crypto)
    [.data ([0x12] ++ List.replicate 16 7 ++ [0, 0, 0, 5])] = [16, 4, 5, 5] := by
  rfl

/-- C09: a process request declaring more than 1 GiB is refused; nothing beyond the 16-octet id
and the two 8-octet integers is allocated, and nothing after the header is read. -/
theorem C09_process_request_oversize (flags : Byte) (id : ID) (counter size : Nat)
    (hs : 1073741824 < size) (hs2 : size < 2 ^ 64) (evs : List Ev) (rest : List (Byte ⊕ Err))
    (h : Delivers evs ([0x13, flags] ++ id.val ++ Wire.be64 counter ++ Wire.be64 size) rest) :
    (∃ e, Parses recvProcessRequest evs (.error e) rest) ∧
      allocations recvProcessRequest evs = [16, 8, 8] := by
  have hb : flatten evs = .inl 0x13 :: .inl flags :: (id.val.map Sum.inl ++
      ((beEnc 8 counter).map Sum.inl ++ ((beEnc 8 size).map Sum.inl ++ rest))) := by
    rw [h, beEnc_eight, beEnc_eight]; simp
  have hm : (BitVec.ofNat 64 (beDec (beEnc 8 size))).toNat = size := by
    rw [beDec_beEnc, Nat.mod_eq_of_lt (by omega), BitVec.toNat_ofNat, Nat.mod_eq_of_lt hs2]
  constructor
  · refine ⟨.other "message size exceeds maximum", runEv_of_runI ((congrArg (runI recvProcessRequest) hb).trans
      ((runI_andThen (runI_parseRequestCommon _ _)).trans ?_))⟩
    · rw [parseProcessRequest, runI_readOctet, runI_readField _ _ _ _ _ id.property,
        runI_readField _ _ _ _ _ (beEnc_length _ _), runI_readField _ _ _ _ _ (beEnc_length _ _)]
      simp only [hm, maxMessageSize]
      rw [if_pos (by omega)]
      rfl
  · rw [allocations_flatten, hb, recvProcessRequest, allocsI_request]
    rw [parseProcessRequest, allocsI_readOctet, allocsI_readField _ _ _ _ _ id.property,
      allocsI_readField _ _ _ _ _ (beEnc_length _ _), allocsI_readField _ _ _ _ _ (beEnc_length _ _)]
    simp only [hm, maxMessageSize]
    rw [if_pos (by omega)]
    rfl

example : ∃ e, Parses recvProcessRequest
    (byteByByte ([0x13, 0x80] ++ List.replicate 16 7 ++ Wire.be64 1 ++ Wire.be64 1073741825))
    (.error e) [] :=
  (C09_process_request_oversize 0x80 ⟨List.replicate 16 7, rfl⟩ 1 1073741825 (by decide) (by decide)
    _ [] (delivers_byteByByte _)).1

/-- C09: a process response declaring more than 1 GiB is refused in the same way. -/
theorem C09_process_response_oversize (counter size : Nat)
    (hs : 1073741824 < size) (hs2 : size < 2 ^ 64) (evs : List Ev) (rest : List (Byte ⊕ Err))
    (h : Delivers evs ([0x80] ++ Wire.be64 counter ++ Wire.be64 size) rest) :
    (∃ e, Parses recvProcessResponse evs (.error e) rest) ∧
      allocations recvProcessResponse evs = [8, 8] := by
  have hb : flatten evs = .inl 0x80 :: ((beEnc 8 counter).map Sum.inl ++
      ((beEnc 8 size).map Sum.inl ++ rest)) := by
    rw [h, beEnc_eight, beEnc_eight]; simp
  have hm : (BitVec.ofNat 64 (beDec (beEnc 8 size))).toNat = size := by
    rw [beDec_beEnc, Nat.mod_eq_of_lt (by omega), BitVec.toNat_ofNat, Nat.mod_eq_of_lt hs2]
  constructor
  · refine ⟨.other "message size exceeds maximum", runEv_of_runI ((congrArg (runI recvProcessResponse) hb).trans
      ((runI_andThen (runI_parseResponseCommon _ _)).trans ?_))⟩
    · rw [parseProcessResponse,
        runI_readField _ _ _ _ _ (beEnc_length _ _), runI_readField _ _ _ _ _ (beEnc_length _ _)]
      simp only [hm, maxMessageSize]
      rw [if_pos (by omega)]
      rfl
  · rw [allocations_flatten, hb, recvProcessResponse, allocsI_response]
    rw [parseProcessResponse,
      allocsI_readField _ _ _ _ _ (beEnc_length _ _), allocsI_readField _ _ _ _ _ (beEnc_length _ _)]
    simp only [hm, maxMessageSize]
    rw [if_pos (by omega)]
    rfl

example : ∃ e, Parses recvProcessResponse
    (byteByByte ([0x80] ++ Wire.be64 1 ++ Wire.be64 1073741825)) (.error e) [] :=
  (C09_process_response_oversize 1 1073741825 (by decide) (by decide) _ [] (delivers_byteByByte _)).1

/-- C09: a setup request declaring a key of more than 64 KiB is refused. -/
theorem C09_setup_request_oversize (C : Crypto) (id : ID) (size : Nat)
    (hs : 65536 < size) (hs2 : size < 2 ^ 32) (evs : List Ev) (rest : List (Byte ⊕ Err))
    (h : Delivers evs ([0x12] ++ id.val ++ Wire.be32 size) rest) :
    (∃ e, Parses (recvSetupRequest C) evs (.error e) rest) ∧
      allocations (recvSetupRequest C) evs = [16, 4] := by
  have hb : flatten evs = .inl 0x12 :: (id.val.map Sum.inl ++
      ((beEnc 4 size).map Sum.inl ++ rest)) := by
    rw [h, beEnc_four]; simp
  have hm : (BitVec.ofNat 32 (beDec (beEnc 4 size))).toNat = size := by
    rw [beDec_beEnc, Nat.mod_eq_of_lt (by omega), BitVec.toNat_ofNat, Nat.mod_eq_of_lt hs2]
  constructor
  · refine ⟨.other "public key size exceeds maximum", runEv_of_runI ((congrArg (runI (recvSetupRequest C)) hb).trans
      ((runI_andThen (runI_parseRequestCommon _ _)).trans ?_))⟩
    · rw [parseSetupRequest, runI_readField _ _ _ _ _ id.property,
        runI_readField _ _ _ _ _ (beEnc_length _ _)]
      simp only [hm, maxKeySize]
      rw [if_pos (by omega)]
      rfl
  · rw [allocations_flatten, hb, recvSetupRequest, allocsI_request]
    rw [parseSetupRequest, allocsI_readField _ _ _ _ _ id.property,
      allocsI_readField _ _ _ _ _ (beEnc_length _ _)]
    simp only [hm, maxKeySize]
    rw [if_pos (by omega)]
    rfl

example : ∃ e, Parses (recvSetupRequest Toy.crypto)
    (byteByByte ([0x12] ++ List.replicate 16 7 ++ Wire.be32 65537)) (.error e) [] :=
  (C09_setup_request_oversize Toy.crypto ⟨List.replicate 16 7, rfl⟩ 65537 (by decide) (by decide) _ []
    (delivers_byteByByte _)).1

/-- C09: a setup response declaring a signature of more than 64 KiB is refused; the signature
buffer is not allocated. -/
theorem C09_setup_response_signature_oversize (C : Crypto) (hC : C.Lawful) (pk : C.EPub)
    (hash : Byte) (size : Nat)
    (hs : 65536 < size) (hs2 : size < 2 ^ 32) (evs : List Ev) (rest : List (Byte ⊕ Err))
    (h : Delivers evs ([0x80] ++ Wire.be32 44 ++ C.marshalEPub pk ++ [hash] ++ Wire.be32 size) rest) :
    (∃ e, Parses (recvSetupResponse C) evs (.error e) rest) ∧
      allocations (recvSetupResponse C) evs = [4, 44, 44, 1, 4] := by
  have hb : flatten evs = .inl 0x80 :: ((beEnc 4 44).map Sum.inl ++
      ((C.marshalEPub pk).map Sum.inl ++ ([hash].map Sum.inl ++
        ((beEnc 4 size).map Sum.inl ++ rest)))) := by
    rw [h, beEnc_four, beEnc_four]; simp
  have hm : (BitVec.ofNat 32 (beDec (beEnc 4 size))).toNat = size := by
    rw [beDec_beEnc, Nat.mod_eq_of_lt (by omega), BitVec.toNat_ofNat, Nat.mod_eq_of_lt hs2]
  have h44 : (BitVec.ofNat 32 (beDec (beEnc 4 44))).toNat = 44 := by decide
  constructor
  · refine ⟨.other "signature size exceeds maximum", runEv_of_runI ((congrArg (runI (recvSetupResponse C)) hb).trans
      ((runI_andThen (runI_parseResponseCommon _ _)).trans ?_))⟩
    · rw [parseSetupResponse, runI_readField _ _ _ _ _ (beEnc_length _ _)]
      simp only [h44, maxKeySize]
      rw [if_neg (by omega), runI_alloc, runI_readField _ _ _ _ _ (hC.marshalEPub_length pk)]
      simp only [parseEPub, hC.parse_marshalEPub]
      rw [runI_readField 1 _ _ [hash] _ rfl, runI_readField _ _ _ _ _ (beEnc_length _ _)]
      simp only [hm, maxSignatureSize]
      rw [if_pos (by omega)]
      rfl
  · rw [allocations_flatten, hb, recvSetupResponse, allocsI_response]
    rw [parseSetupResponse, allocsI_readField _ _ _ _ _ (beEnc_length _ _)]
    simp only [h44, maxKeySize]
    rw [if_neg (by omega), allocsI_alloc, allocsI_readField _ _ _ _ _ (hC.marshalEPub_length pk)]
    simp only [parseEPub, hC.parse_marshalEPub]
    rw [allocsI_readField 1 _ _ [hash] _ rfl, allocsI_readField _ _ _ _ _ (beEnc_length _ _)]
    simp only [hm, maxSignatureSize]
    rw [if_pos (by omega)]
    rfl

example : ∃ e, Parses (recvSetupResponse Toy.crypto)
    (byteByByte ([0x80] ++ Wire.be32 44 ++ Toy.crypto.marshalEPub (9 : BitVec 256) ++ [4] ++
      Wire.be32 65537)) (.error e) [] :=
  (C09_setup_response_signature_oversize Toy.crypto Toy.lawful (9 : BitVec 256) 4 65537 (by decide)
    (by decide) _ [] (delivers_byteByByte _)).1

/-- C09: a fetch-key response declaring a key of more than 64 KiB is refused. -/
theorem C09_fetch_key_oversize (alg : Byte) (size : Nat)
    (hs : 65536 < size) (hs2 : size < 2 ^ 64) (evs : List Ev) (rest : List (Byte ⊕ Err))
    (h : Delivers evs ([0x80, alg] ++ Wire.be64 size) rest) :
    (∃ e, Parses recvFetchKeyResponse evs (.error e) rest) ∧
      allocations recvFetchKeyResponse evs = [1, 8] := by
  have hb : flatten evs = .inl 0x80 :: ([alg].map Sum.inl ++
      ((beEnc 8 size).map Sum.inl ++ rest)) := by
    rw [h, beEnc_eight]; simp
  have hm : (BitVec.ofNat 64 (beDec (beEnc 8 size))).toNat = size := by
    rw [beDec_beEnc, Nat.mod_eq_of_lt (by omega), BitVec.toNat_ofNat, Nat.mod_eq_of_lt hs2]
  constructor
  · refine ⟨.other "public key size exceeds maximum", runEv_of_runI ((congrArg (runI recvFetchKeyResponse) hb).trans
      ((runI_andThen (runI_parseResponseCommon _ _)).trans ?_))⟩
    · rw [parseFetchKeyResponse, runI_readField 1 _ _ [alg] _ rfl,
        runI_readField _ _ _ _ _ (beEnc_length _ _)]
      simp only [hm, maxKeySize]
      rw [if_pos (by omega)]
      rfl
  · rw [allocations_flatten, hb, recvFetchKeyResponse, allocsI_response]
    rw [parseFetchKeyResponse, allocsI_readField 1 _ _ [alg] _ rfl,
      allocsI_readField _ _ _ _ _ (beEnc_length _ _)]
    simp only [hm, maxKeySize]
    rw [if_pos (by omega)]
    rfl

example : ∃ e, Parses recvFetchKeyResponse
    (byteByByte ([0x80, 1] ++ Wire.be64 65537)) (.error e) [] :=
  (C09_fetch_key_oversize 1 65537 (by decide) (by decide) _ [] (delivers_byteByByte _)).1

/-- C09 does not hold for error responses: for every bound there is an error response, accepted by
the receiver, whose text is longer than the bound. -/
theorem C09_error_text_unbounded (bound : Nat) (hb : bound < 2 ^ 62) :
    ∃ (evs : List Ev) (resp : ErrorResponse),
      Parses recvErrorResponse evs (.ok resp) [] ∧ bound < resp.message.length := by
  have hl : (List.replicate (bound + 1) (65 : Byte)).length < 2 ^ 63 := by
    rw [List.length_replicate]; omega
  obtain ⟨resp, h1, _, _, h4⟩ := C07_error_response_roundtrip 1
    (List.replicate (bound + 1) 65) hl
    (byteByByte _) [] (delivers_byteByByte _)
  exact ⟨_, resp, h1, by rw [h4, List.length_replicate]; omega⟩

example : (1073741824 : Nat) < 2 ^ 62 := by decide

/-- Everything a receiver allocates, and every field it accepts, is within the limits, for every kind of
message. -/
def C09_claim : Prop :=
  ∀ (C : Crypto) (evs : List Ev),
    (∀ n ∈ allocations (recvSetupRequest C) evs, n ≤ 65536) ∧
    (∀ n ∈ allocations (recvSetupResponse C) evs, n ≤ 65536) ∧
    (∀ n ∈ allocations recvProcessRequest evs, n ≤ 1073741824) ∧
    (∀ n ∈ allocations recvProcessResponse evs, n ≤ 1073741824) ∧
    (∀ n ∈ allocations recvFetchKeyResponse evs, n ≤ 65536) ∧
    (∀ (resp : ErrorResponse) (rest : List (Byte ⊕ Err)),
      Parses recvErrorResponse evs (.ok resp) rest → resp.message.length ≤ 1073741824)

/-- **C09** is false: the texts of error responses are not limited. -/
theorem C09_not_claim : ¬ C09_claim := by
  intro h
  obtain ⟨evs, resp, h1, h2⟩ := C09_error_text_unbounded 1073741824 (by decide)
  have := (h Toy.crypto evs).2.2.2.2.2 resp [] h1
  omega

/-! ## C10 -/

/-- What a receiver sees when a message is cut: the stream ends, or reports a transport error. -/
def EndsEarly (tail : List (Byte ⊕ Err)) : Prop := tail = [] ∨ ∃ e t, tail = .inr e :: t

/-- `p` refuses every strict prefix of `full` followed by the end of the stream or an error, in
every segmentation. -/
def RefusesTruncations {α : Type} (p : RProg (Except Err α)) (full : Bytes) : Prop :=
  ∀ (pre : Bytes) (tail : List (Byte ⊕ Err)) (evs : List Ev),
    pre <+: full → pre ≠ full → EndsEarly tail → Delivers evs pre tail →
    ∃ e rest, Parses p evs (.error e) rest

theorem refuses_of_parses {α : Type} {p : RProg (Except Err α)} (hp : FailStop p) {full : Bytes}
    {x : α} (h : Parses p (byteByByte full) (.ok x) []) : RefusesTruncations p full := by
  intro pre tail evs hpre hne ht hd
  obtain ⟨evs', h1, h2⟩ := h
  have h3 := runEv_flatten p (byteByByte full)
  rw [h1, delivers_byteByByte, h2] at h3
  obtain ⟨e, s, h4⟩ := truncated hp h3.symm hpre hne ht
  rw [← hd] at h4
  exact ⟨e, s, runEv_of_runI h4⟩

/-- C10: setup requests. -/
theorem C10_setup_request (C : Crypto) (hC : C.Lawful) (id : ID) (pk : C.EPub) :
    RefusesTruncations (recvSetupRequest C) (Wire.setupRequest id.val (C.marshalEPub pk)) :=
  refuses_of_parses (.andThen .requestCommon fun _ => .setupRequest C _)
    (C02_setup_request_roundtrip C hC id pk _ [] (delivers_byteByByte _))

/-- C10: setup responses. -/
theorem C10_setup_response (C : Crypto) (hC : C.Lawful) (pk : C.EPub) (hash : Byte) (sig : Bytes)
    (hs : sig.length ≤ 65536) :
    RefusesTruncations (recvSetupResponse C) (Wire.setupResponse (C.marshalEPub pk) hash sig) :=
  refuses_of_parses (.andThen .responseCommon fun _ => .setupResponse C _)
    (C03_wire_response_parses C hC pk hash sig hs _ [] (delivers_byteByByte _))

/-- C10: process requests. -/
theorem C10_process_request (id : ID) (counter : BitVec 64) (msg : Bytes) (er : Bool)
    (hl : msg.length ≤ 2 ^ 30) :
    RefusesTruncations recvProcessRequest (Wire.processRequest er id.val counter.toNat msg) := by
  obtain ⟨r, h, _⟩ := C04_process_request_roundtrip id counter msg er hl _ []
    (delivers_byteByByte _)
  exact refuses_of_parses (.andThen .requestCommon fun _ => .processRequest _) h

/-- C10: process responses. -/
theorem C10_process_response (counter : BitVec 64) (msg : Bytes) (hl : msg.length ≤ 2 ^ 30) :
    RefusesTruncations recvProcessResponse (Wire.processResponse counter.toNat msg) := by
  obtain ⟨r, h, _⟩ := C05_process_response_roundtrip counter msg hl _ [] (delivers_byteByByte _)
  exact refuses_of_parses (.andThen .responseCommon fun _ => .processResponse _) h

/-- C10: fetch-key responses. -/
theorem C10_fetch_key_response (alg : Byte) (pk : Bytes) (hl : pk.length ≤ 65536) :
    RefusesTruncations recvFetchKeyResponse (Wire.fetchKeyResponse alg pk) := by
  obtain ⟨r, h, _⟩ := C06_fetch_key_response_roundtrip alg pk hl _ [] (delivers_byteByByte _)
  exact refuses_of_parses (.andThen .responseCommon fun _ => .fetchKeyResponse _) h

/-- C10: error responses. -/
theorem C10_error_response (code : ErrorCode) (msg : Bytes) (hl : msg.length < 2 ^ 63) :
    RefusesTruncations recvErrorResponse (Wire.errorResponse code.toNat msg) := by
  obtain ⟨r, h, _⟩ := C07_error_response_roundtrip code msg hl _ [] (delivers_byteByByte _)
  exact refuses_of_parses (.andThen .responseCommon fun _ => .errorResponse _) h

/-- For instance, a process response cut in the middle of its message by a timeout. -/
example : ∃ e rest, Parses recvProcessResponse
    [.data [0x80], .data (Wire.be64 (5#64).toNat ++ Wire.be64 3), .data [1, 2], .fail .timeout]
    (.error e) rest :=
  C10_process_response 5 [1, 2, 3] (by decide)
    ([0x80] ++ Wire.be64 (5#64).toNat ++ Wire.be64 3 ++ [1, 2]) [.inr .timeout] _
    ⟨[3], rfl⟩ (by decide) (.inr ⟨_, _, rfl⟩) (by simp [Delivers, flatten])

/-! ## C11 -/

/-- C11: what a parser returns, and what it leaves unread, depends only on the sequence of octets
and errors, not on how the transport splits it into reads.  Stated for every program over the read
effects, hence for every parser of the package and every composition of them. -/
theorem C11_segmentation_independent {α : Type} (p : RProg α) (evs evs' : List Ev)
    (h : flatten evs = flatten evs') :
    (runEv p evs).1 = (runEv p evs').1 ∧ flatten (runEv p evs).2 = flatten (runEv p evs').2 := by
  rw [runEv_fst, runEv_fst, runEv_snd, runEv_snd, h]
  exact ⟨rfl, rfl⟩

example : flatten [.data [1, 2], .data [3]] = flatten [.data [1], .data [], .data [2, 3]] := rfl

/-- C11: a parser never consumes octets out of order: what is left unread is a suffix. -/
theorem C11_unread_is_suffix {α : Type} (p : RProg α) (evs : List Ev) :
    ∃ consumed, flatten evs = consumed ++ flatten (runEv p evs).2 := by
  obtain ⟨c, hc⟩ := runI_suffix p (flatten evs)
  rw [runEv_snd]
  exact ⟨c, hc⟩

end Goe2ee
