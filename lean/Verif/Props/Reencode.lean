import Verif.Proofs.Invert
import Verif.Props.Codec

/-!
# Parsing loses nothing
-/

set_option autoImplicit false

namespace Goe2ee

/-! ## C58 -/

theorem Parses.runI {α : Type} {p : RProg (Except Err α)} {evs : List Ev} {x : Except Err α}
    {rest : List (Byte ⊕ Err)} (h : Parses p evs x rest) :
    Goe2ee.runI p (flatten evs) = (.val x, rest) := by
  obtain ⟨evs', h1, h2⟩ := h
  rw [← runEv_flatten, h1]
  exact congrArg (fun l => (Res.val x, l)) h2

/-- **C58**: the header of a request, parsed and encoded again, is the octet read. -/
theorem C58_header (evs : List Ev) (x : RequestCommon) (rest : List (Byte ⊕ Err))
    (h : Parses parseRequestCommon evs (.ok x) rest) : Delivers evs x.bytes rest :=
  parseRequestCommon_inv h.runI

/-- **C58**: a process request, parsed and encoded again, is exactly the octets read. -/
theorem C58_process_request (evs : List Ev) (x : ProcessRequest) (rest : List (Byte ⊕ Err))
    (h : Parses recvProcessRequest evs (.ok x) rest) : Delivers evs x.bytes rest := by
  obtain ⟨c, s₁, h1, h2⟩ := andThen_inv h.runI
  rw [Delivers, parseRequestCommon_inv h1]
  exact (parseProcessRequest_inv h2).2.1

/-- **C58**: a process response, parsed and encoded again, is exactly the octets read. -/
theorem C58_process_response (evs : List Ev) (x : ProcessResponse) (rest : List (Byte ⊕ Err))
    (h : Parses recvProcessResponse evs (.ok x) rest) : Delivers evs x.bytes rest := by
  obtain ⟨c, s₁, h1, h2⟩ := andThen_inv h.runI
  rw [Delivers, parseResponseCommon_inv h1]
  exact (parseProcessResponse_inv h2).2.1

/-- **C58**: a fetch-key response, parsed and encoded again, is exactly the octets read. -/
theorem C58_fetch_key_response (evs : List Ev) (x : FetchKeyResponse) (rest : List (Byte ⊕ Err))
    (h : Parses recvFetchKeyResponse evs (.ok x) rest) : Delivers evs x.bytes rest := by
  obtain ⟨c, s₁, h1, h2⟩ := andThen_inv h.runI
  rw [Delivers, parseResponseCommon_inv h1]
  exact (parseFetchKeyResponse_inv h2).2.1

/-- **C58**: an error response, parsed and encoded again, is exactly the octets read. -/
theorem C58_error_response (evs : List Ev) (x : ErrorResponse) (rest : List (Byte ⊕ Err))
    (h : Parses recvErrorResponse evs (.ok x) rest) : Delivers evs x.bytes rest := by
  obtain ⟨c, s₁, h1, h2⟩ := andThen_inv h.runI
  rw [Delivers, parseResponseCommon_inv h1]
  exact (parseErrorResponse_inv h2).2

/-- A process request with unusual reserved bits is accepted; the theorem applies to it. -/
example : ∃ x rest, Parses recvProcessRequest
    (byteByByte ([0x13, 0xB5] ++ List.replicate 16 7 ++ Wire.be64 5 ++ Wire.be64 2 ++ [1, 2]))
    (.ok x) rest := ⟨_, _, _, rfl, rfl⟩

/-- **C58**: the top bit of the second octet of any process request says whether a reply is
expected. -/
theorem C58_expect_reply_bit (x : ProcessRequest) :
    ∃ hdr flags tail, x.bytes = hdr :: flags :: tail ∧ flags.msb = x.expectReply := by
  refine ⟨(x.common.version <<< 4) ||| x.common.action,
    if x.expectReply then ((x.reserved <<< 1) >>> 1) ||| (1#8 <<< 7) else (x.reserved <<< 1) >>> 1,
    _, rfl, ?_⟩
  have h : ∀ (b : Byte) (e : Bool),
      (if e then ((b <<< 1) >>> 1) ||| (1#8 <<< 7) else (b <<< 1) >>> 1).msb = e := by decide
  exact h x.reserved x.expectReply

/-! ## C59 -/

/-- **C59**: the identifiers sent for the three hash functions (Go's `crypto.Hash` numbers 5, 6, 7) are
2, 3 and 4; the receiver maps them back to the same hash function. -/
theorem C59_hash_identifiers (h : Nat) (t : HashType) :
    newHashType h = .val t ↔ HashType.cryptoHash t = .val h := by
  unfold newHashType HashType.cryptoHash
  constructor
  · intro he
    split at he
    · cases he; subst h; rfl
    split at he
    · cases he; subst h; rfl
    split at he
    · cases he; subst h; rfl
    · cases he
  · intro he
    split at he
    · cases he; subst t; rfl
    split at he
    · cases he; subst t; rfl
    split at he
    · cases he; subst t; rfl
    · cases he

/-- **C59**: exactly the identifiers 2, 3 and 4 are understood; every other makes the receiver panic. -/
theorem C59_understood (t : HashType) :
    (∃ h, HashType.cryptoHash t = .val h) ↔ t = 2 ∨ t = 3 ∨ t = 4 := by
  revert t
  have h : ∀ t : Byte, (match HashType.cryptoHash t with | .val _ => true | .panic _ => false) =
      decide (t = 2 ∨ t = 3 ∨ t = 4) := by decide
  intro t
  have := h t
  cases hc : HashType.cryptoHash t with
  | val x => rw [hc] at this; exact ⟨fun _ => of_decide_eq_true this.symm, fun _ => ⟨x, rfl⟩⟩
  | panic m =>
    rw [hc] at this
    exact ⟨fun he => he.elim fun _ h => (nomatch h), fun h => absurd h (of_decide_eq_false this.symm)⟩

example : newHashType cryptoSHA256 = .val 2 ∧ newHashType cryptoSHA384 = .val 3 ∧
    newHashType cryptoSHA512 = .val 4 := ⟨rfl, rfl, rfl⟩

end Goe2ee
