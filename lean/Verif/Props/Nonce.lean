import Verif.Spec.Toy
import Verif.Spec.Wire
import Verif.Proofs.Codec

/-!
# C12, C13: nonces and handshake transcripts
-/

set_option autoImplicit false

namespace Goe2ee

/-- C12: for the AES-GCM nonce size the nonce is the direction octet, three zeros and the counter. -/
theorem C12_nonce_layout (d : Byte) (c : BitVec 64) :
    nonce d c 12 = .val (Wire.nonce12 d c.toNat) := by
  simp [nonce, Wire.nonce12, beEnc_eight, List.replicate]

/-- C12: nonces of at least nine octets determine direction and counter. -/
theorem C12_nonce_injective (d d' : Byte) (c c' : BitVec 64) (size : Nat) (h9 : 9 ≤ size)
    (n : Bytes) (h : nonce d c size = .val n) (h' : nonce d' c' size = .val n) :
    d = d' ∧ c = c' := by
  obtain ⟨m, rfl⟩ : ∃ m, size = m + 9 := ⟨size - 9, by omega⟩
  simp only [nonce] at h h'
  rw [if_neg (by omega)] at h h'
  simp only [Res.val.injEq] at h h'
  have h2 := h.trans h'.symm
  have e1 : m + 9 - 8 = m + 1 := by omega
  rw [e1] at h2
  simp only [List.replicate_succ, List.set_cons_zero, List.take_succ_cons, List.cons_append,
    List.cons.injEq] at h2
  refine ⟨h2.1, ?_⟩
  have h3 := List.append_cancel_left h2.2
  exact BitVec.eq_of_toNat_eq (beEnc_inj (by simpa using c.isLt) (by simpa using c'.isLt) h3)

/-- C12: nonces of the two directions never coincide. -/
theorem C12_directions_disjoint (c c' : BitVec 64) (size : Nat) (h9 : 9 ≤ size) (n n' : Bytes)
    (h : nonce directionClientToServer c size = .val n)
    (h' : nonce directionServerToClient c' size = .val n') : n ≠ n' := by
  intro he
  subst he
  exact absurd (C12_nonce_injective _ _ _ _ size h9 n h h').1 (by decide)

/-- C12: the nonce has the requested size. -/
theorem C12_nonce_size (d : Byte) (c : BitVec 64) (size : Nat) (h8 : 8 ≤ size) :
    ∃ n, nonce d c size = .val n ∧ n.length = size := by
  simp only [nonce]
  rw [if_neg (by omega)]
  refine ⟨_, rfl, ?_⟩
  simp only [List.length_append, List.length_take, List.length_set, List.length_replicate,
    beEnc_length]
  omega

example : nonce 0 0x0102030405060708#64 12 = .val [0, 0, 0, 0, 1, 2, 3, 4, 5, 6, 7, 8] := by decide
example : nonce 1 7 12 ≠ nonce 0 7 12 := by decide

/-- The size must be at least nine: with eight octets the counter overwrites the direction. -/
theorem C12_eight_octets_not_injective : nonce 0 7 8 = nonce 1 7 8 := by decide

/-- C13: the transcript has the documented layout. -/
theorem C13_transcript_layout (C : Crypto) (ck sk : C.EPub) (id : ID) :
    setupTranscript C ck sk id = Wire.transcript (C.marshalEPub ck) (C.marshalEPub sk) id.val := by
  simp [setupTranscript, Wire.transcript, beEnc_four]

/-- C13: two transcripts are equal only if both keys and the id are. -/
theorem C13_transcript_injective (C : Crypto) (hC : C.Lawful) (ck ck' sk sk' : C.EPub) (id id' : ID)
    (h : setupTranscript C ck sk id = setupTranscript C ck' sk' id') :
    ck = ck' ∧ sk = sk' ∧ id = id' := by
  have inj : ∀ a b, C.marshalEPub a = C.marshalEPub b → a = b := by
    intro a b hab
    have h1 := hC.parse_marshalEPub a
    rw [hab, hC.parse_marshalEPub b] at h1
    simpa using h1.symm
  simp only [setupTranscript, List.append_assoc, hC.marshalEPub_length] at h
  have h1 := List.append_cancel_left h
  obtain ⟨h2, h3⟩ := List.append_inj h1 (by simp [hC.marshalEPub_length])
  have h4 := List.append_cancel_left h3
  obtain ⟨h5, h6⟩ := List.append_inj h4 (by simp [hC.marshalEPub_length])
  exact ⟨inj _ _ h2, inj _ _ h5, Subtype.ext h6⟩

example : setupTranscript Toy.crypto (1 : BitVec 256) (2 : BitVec 256) ⟨List.replicate 16 7, rfl⟩ ≠
    setupTranscript Toy.crypto (2 : BitVec 256) (1 : BitVec 256) ⟨List.replicate 16 7, rfl⟩ := by
  intro h
  have := (C13_transcript_injective Toy.crypto Toy.lawful _ _ _ _ _ _ h).1
  exact absurd this (show ¬ ((1 : BitVec 256) = 2) by decide)

/-- C13: the transcript is unambiguous also when the two key encodings have arbitrary lengths below
4 GiB, as for a future key type. -/
theorem C13_length_prefixes_suffice (ck ck' sk sk' id id' : Bytes)
    (h1 : ck.length < 2 ^ 32) (h1' : ck'.length < 2 ^ 32)
    (h2 : sk.length < 2 ^ 32) (h2' : sk'.length < 2 ^ 32)
    (h : Wire.transcript ck sk id = Wire.transcript ck' sk' id') :
    ck = ck' ∧ sk = sk' ∧ id = id' := by
  simp only [Wire.transcript, ← beEnc_four, List.append_assoc] at h
  obtain ⟨e1, h⟩ := List.append_inj h (by simp)
  have l1 := beEnc_inj (by omega) (by omega) e1
  obtain ⟨e2, h⟩ := List.append_inj h l1
  obtain ⟨e3, h⟩ := List.append_inj h (by simp)
  have l3 := beEnc_inj (by omega) (by omega) e3
  obtain ⟨e4, h⟩ := List.append_inj h l3
  exact ⟨e2, e4, h⟩

example : Wire.transcript [1, 2] [3] (List.replicate 16 0) ≠
    Wire.transcript [1] [2, 3] (List.replicate 16 0) := by decide

end Goe2ee
