import Verif.Proofs.Parsers
import Verif.Proofs.Codec

/-!
# What a successful parse says about the octets read
-/

set_option autoImplicit false

namespace Goe2ee

theorem beEnc_beDec (bs : Bytes) : beEnc bs.length (beDec bs) = bs := by
  induction bs with
  | nil => rfl
  | cons b bs ih =>
    rw [List.length_cons, beEnc, beDec_cons]
    have hlt := beDec_lt bs
    have h1 : (b.toNat * 256 ^ bs.length + beDec bs) / 256 ^ bs.length = b.toNat := by
      rw [Nat.mul_comm, Nat.mul_add_div (Nat.pos_of_ne_zero (by simp)), Nat.div_eq_of_lt hlt]
      simp
    have h2 : ∀ n v w : Nat, beEnc n (w * 256 ^ n + v) = beEnc n v := by
      intro n
      induction n with
      | zero => intros; rfl
      | succ n ihn =>
        intro v w
        rw [beEnc, beEnc]
        have h3 : w * 256 ^ (n + 1) + v = (w * 256) * 256 ^ n + v := by
          rw [Nat.pow_succ]; congr 1; rw [Nat.mul_assoc, Nat.mul_comm 256]
        rw [h3, ihn]
        congr 1
        have h4 : ((w * 256) * 256 ^ n + v) / 256 ^ n = w * 256 + v / 256 ^ n := by
          rw [Nat.mul_comm (w * 256), Nat.mul_add_div (Nat.pos_of_ne_zero (by simp))]
        rw [h4]
        apply BitVec.eq_of_toNat_eq
        simp only [BitVec.toNat_ofNat]
        omega
    rw [h1, h2, ih]
    simp

theorem beEnc_ofNat_beDec4 (bs : Bytes) (h : bs.length = 4) :
    beEnc 4 (BitVec.ofNat 32 (beDec bs)).toNat = bs := by
  have h1 := beDec_lt bs
  rw [h] at h1
  rw [BitVec.toNat_ofNat, Nat.mod_eq_of_lt (by simpa using h1)]
  have := beEnc_beDec bs
  rwa [h] at this

theorem beEnc_ofNat_beDec8 (bs : Bytes) (h : bs.length = 8) :
    beEnc 8 (BitVec.ofNat 64 (beDec bs)).toNat = bs := by
  have h1 := beDec_lt bs
  rw [h] at h1
  rw [BitVec.toNat_ofNat, Nat.mod_eq_of_lt (by simpa using h1)]
  have := beEnc_beDec bs
  rwa [h] at this

section
variable {α β : Type} {s rest : List Item}

theorem readField_inv {n : Nat} {w : String} {k : Bytes → RProg (Except Err α)} {x : α}
    (h : runI (readField n w k) s = (.val (.ok x), rest)) :
    ∃ bs s₁, s = bs.map Sum.inl ++ s₁ ∧ bs.length = n ∧ runI (k bs) s₁ = (.val (.ok x), rest) := by
  simp only [runI, readField, Prog.run, itemInterp] at h
  rcases hr : readFullI s n with ⟨r, s₁⟩
  rw [hr] at h
  cases r with
  | ok bs =>
    obtain ⟨h1, h2⟩ := readFullI_ok_inv s n bs s₁ hr
    exact ⟨bs, s₁, h1, h2, h⟩
  | error e => cases e <;> simp [Prog.run] at h

theorem readOctet_inv {w : String} {k : Byte → RProg (Except Err α)} {x : α}
    (h : runI (readOctet w k) s = (.val (.ok x), rest)) :
    ∃ b s₁, s = .inl b :: s₁ ∧ runI (k b) s₁ = (.val (.ok x), rest) := by
  match s with
  | [] => simp [runI, readOctet, Prog.run, itemInterp, copyLimitI] at h
  | .inr e :: s₁ =>
    by_cases he : e = .eof <;>
      simp [runI, readOctet, Prog.run, itemInterp, copyLimitI, he] at h
  | .inl b :: s₁ =>
    refine ⟨b, s₁, rfl, ?_⟩
    simpa [runI, readOctet, Prog.run, itemInterp, copyLimitI] using h

theorem alloc_inv {n : Nat} {k : RProg (Except Err α)} {x : α}
    (h : runI (allocThen n k) s = (.val (.ok x), rest)) : runI k s = (.val (.ok x), rest) := h

theorem andThen_inv {p : RProg (Except Err α)} {q : α → RProg (Except Err β)} {x : β}
    (h : runI (andThen p q) s = (.val (.ok x), rest)) :
    ∃ a s₁, runI p s = (.val (.ok a), s₁) ∧ runI (q a) s₁ = (.val (.ok x), rest) := by
  rw [runI, andThen, Prog.run_bind] at h
  rcases hp : p.run itemInterp s with ⟨r, s₁⟩
  rw [hp] at h
  match r with
  | .val (.ok a) => exact ⟨a, s₁, hp, h⟩
  | .val (.error e) => simp [Prog.run] at h
  | .panic m => simp at h

end

/-! ## Messages -/

theorem parseRequestCommon_inv {s rest : List Item} {x : RequestCommon}
    (h : runI parseRequestCommon s = (.val (.ok x), rest)) :
    s = x.bytes.map Sum.inl ++ rest := by
  obtain ⟨b, s₁, hs₁, h'⟩ := readOctet_inv h
  subst hs₁
  clear h
  have h := h'
  clear h'
  cases h
  have : (((b &&& 0xF0#8) >>> 4) <<< 4) ||| (b &&& 0x0F#8) = b := by revert b; decide
  simp [RequestCommon.bytes, this]

theorem parseResponseCommon_inv {s rest : List Item} {x : ResponseCommon}
    (h : runI parseResponseCommon s = (.val (.ok x), rest)) :
    s = x.bytes.map Sum.inl ++ rest := by
  obtain ⟨b, s₁, hs₁, h'⟩ := readOctet_inv h
  subst hs₁
  clear h
  have h := h'
  clear h'
  cases h
  have : (if (b >>> 7 == 1#8) = true then [(1#8 <<< 7) ||| ((b <<< 1) >>> 1)]
      else [0#8 ||| ((b <<< 1) >>> 1)]) = [b] := by revert b; decide
  simp only [ResponseCommon.bytes, this]
  rfl

theorem toID_octets (bs : Bytes) (h : bs.length = 16) : (toID bs).val = bs := by simp [toID, h]

theorem flag_octet (b : Byte) :
    (if ((b &&& 0xF0#8) >>> 7 == 1#8) = true
      then ((((b <<< 1) >>> 1) &&& 0xFF#8) <<< 1) >>> 1 ||| (1#8 <<< 7)
      else ((((b <<< 1) >>> 1) &&& 0xFF#8) <<< 1) >>> 1) = b := by
  revert b; decide

theorem parseProcessRequest_inv {s rest : List Item} {common : RequestCommon} {x : ProcessRequest}
    (h : runI (parseProcessRequest common) s = (.val (.ok x), rest)) :
    x.common = common ∧ common.bytes.map Sum.inl ++ s = x.bytes.map Sum.inl ++ rest ∧
    x.messageSize.toNat = x.message.length ∧ x.message.length ≤ 2 ^ 30 := by
  obtain ⟨b, s₁, hs₁, h'⟩ := readOctet_inv h
  subst hs₁
  clear h
  have h := h'
  clear h'
  obtain ⟨idBs, s₂, rfl, hid, h⟩ := readField_inv h
  obtain ⟨ctrBs, s₃, rfl, hctr, h⟩ := readField_inv h
  obtain ⟨sizeBs, s₄, rfl, hsize, h⟩ := readField_inv h
  dsimp only at h
  split at h
  · cases h
  rename_i hle
  obtain ⟨msg, s₅, rfl, hmsg, h⟩ := readField_inv (alloc_inv h)
  cases h
  have hf := flag_octet b
  refine ⟨rfl, ?_, hmsg.symm, ?_⟩
  · simp only [ProcessRequest.bytes]
    rw [hf, toID_octets idBs hid, beEnc_ofNat_beDec8 ctrBs hctr, beEnc_ofNat_beDec8 sizeBs hsize]
    simp
  · show msg.length ≤ 2 ^ 30
    have : maxMessageSize = 2 ^ 30 := rfl
    omega

theorem parseProcessResponse_inv {s rest : List Item} {common : ResponseCommon} {x : ProcessResponse}
    (h : runI (parseProcessResponse common) s = (.val (.ok x), rest)) :
    x.common = common ∧ common.bytes.map Sum.inl ++ s = x.bytes.map Sum.inl ++ rest ∧
    x.messageSize.toNat = x.message.length ∧ x.message.length ≤ 2 ^ 30 := by
  obtain ⟨ctrBs, s₃, rfl, hctr, h⟩ := readField_inv h
  obtain ⟨sizeBs, s₄, rfl, hsize, h⟩ := readField_inv h
  dsimp only at h
  split at h
  · cases h
  rename_i hle
  obtain ⟨msg, s₅, rfl, hmsg, h⟩ := readField_inv (alloc_inv h)
  cases h
  refine ⟨rfl, ?_, hmsg.symm, ?_⟩
  · simp only [ProcessResponse.bytes]
    rw [beEnc_ofNat_beDec8 ctrBs hctr, beEnc_ofNat_beDec8 sizeBs hsize]
    simp
  · show msg.length ≤ 2 ^ 30
    have : maxMessageSize = 2 ^ 30 := rfl
    omega

theorem parseFetchKeyResponse_inv {s rest : List Item} {common : ResponseCommon}
    {x : FetchKeyResponse}
    (h : runI (parseFetchKeyResponse common) s = (.val (.ok x), rest)) :
    x.common = common ∧ common.bytes.map Sum.inl ++ s = x.bytes.map Sum.inl ++ rest ∧
    x.publicKeySize.toNat = x.publicKey.length ∧ x.publicKey.length ≤ 2 ^ 16 := by
  obtain ⟨algBs, s₃, rfl, halg, h⟩ := readField_inv h
  obtain ⟨sizeBs, s₄, rfl, hsize, h⟩ := readField_inv h
  dsimp only at h
  split at h
  · cases h
  rename_i hle
  obtain ⟨pk, s₅, rfl, hpk, h⟩ := readField_inv (alloc_inv h)
  cases h
  obtain ⟨a, rfl⟩ := List.length_eq_one_iff.mp halg
  refine ⟨rfl, ?_, hpk.symm, ?_⟩
  · simp only [FetchKeyResponse.bytes]
    rw [beDec_singleton, beEnc_ofNat_beDec8 sizeBs hsize]
    simp
  · show pk.length ≤ 2 ^ 16
    have : maxKeySize = 2 ^ 16 := rfl
    omega

theorem parseErrorResponse_inv {s rest : List Item} {common : ResponseCommon} {x : ErrorResponse}
    (h : runI (parseErrorResponse common) s = (.val (.ok x), rest)) :
    x.common = common ∧ common.bytes.map Sum.inl ++ s = x.bytes.map Sum.inl ++ rest := by
  obtain ⟨codeBs, s₁, rfl, hcode, h⟩ := readField_inv h
  obtain ⟨sizeBs, s₂, rfl, hsize, h⟩ := readField_inv h
  have hs := beEnc_ofNat_beDec8 sizeBs hsize
  dsimp only at h
  split at h
  · rename_i hz
    cases h
    rw [hz] at hs
    refine ⟨rfl, ?_⟩
    simp only [ErrorResponse.bytes]
    rw [beEnc_ofNat_beDec4 codeBs hcode]
    show _ = (common.bytes ++ codeBs ++ beEnc 8 0 ++ []).map Sum.inl ++ _
    rw [show (0 : BitVec 64).toNat = 0 from rfl] at hs
    rw [hs]
    simp
  · generalize hsz : BitVec.ofNat 64 (beDec sizeBs) = size at h hs
    simp only [runI, Prog.run, itemInterp] at h
    rcases hc : copyLimitI s₂ size.toInt.toNat with ⟨⟨bs, e⟩, s₃⟩
    obtain ⟨h1, h2, h3⟩ := copyLimitI_inv _ _ _ _ _ hc
    rw [hc] at h
    have key : e = none ∧ (bs.length : Int) = size.toInt ∧
        (.val (.ok { common, code := BitVec.ofNat 32 (beDec codeBs), message := bs }), s₃) =
          ((.val (.ok x), rest) : Res (Except Err ErrorResponse) × List Item) := by
      cases e with
      | some e =>
        dsimp only at h
        rw [if_pos (fun he => h2 (by rw [he]))] at h
        simp [Prog.run] at h
      | none =>
        dsimp only at h
        by_cases hl : (bs.length : Int) ≠ size.toInt
        · rw [if_pos hl] at h
          simp [Prog.run] at h
        · rw [if_neg hl] at h
          exact ⟨rfl, by omega, h⟩
    obtain ⟨rfl, hlen, hx⟩ := key
    cases hx
    refine ⟨rfl, ?_⟩
    have hn : size.toNat = bs.length := by
      rw [BitVec.toInt] at hlen
      have := size.isLt
      split at hlen <;> omega
    rw [h3 rfl (by omega)]
    simp only [ErrorResponse.bytes]
    rw [beEnc_ofNat_beDec4 codeBs hcode, ← hn, hs]
    simp

/-- A successfully parsed setup request. -/
theorem parseSetupRequest_inv {C : Crypto} {s rest : List Item} {common : RequestCommon}
    {x : SetupRequest C} (h : runI (parseSetupRequest C common) s = (.val (.ok x), rest)) :
    ∃ pk, x.common = common ∧ C.parsePKIX pk = .ok (.inl x.publicKey) ∧ pk.length ≤ 2 ^ 16 ∧
      s = (x.id.val ++ beEnc 4 pk.length ++ pk).map Sum.inl ++ rest := by
  obtain ⟨idBs, s₁, rfl, hid, h⟩ := readField_inv h
  obtain ⟨sizeBs, s₂, rfl, hsize, h⟩ := readField_inv h
  dsimp only at h
  split at h
  · cases h
  rename_i hle
  obtain ⟨pkBs, s₃, rfl, hpk, h⟩ := readField_inv (alloc_inv h)
  unfold parseEPub at h
  split at h
  · cases h
  · cases h
  rename_i pk hp
  cases h
  refine ⟨pkBs, rfl, hp, ?_, ?_⟩
  · have : maxKeySize = 2 ^ 16 := rfl
    omega
  · rw [hpk, beEnc_ofNat_beDec4 sizeBs hsize, toID_octets idBs hid]
    simp

/-- A successfully parsed setup response. -/
theorem parseSetupResponse_inv {C : Crypto} {s rest : List Item} {common : ResponseCommon}
    {x : SetupResponse C} (h : runI (parseSetupResponse C common) s = (.val (.ok x), rest)) :
    ∃ pk, x.common = common ∧ C.parsePKIX pk = .ok (.inl x.publicKey) ∧ pk.length ≤ 2 ^ 16 ∧
      x.signature.length ≤ 2 ^ 16 ∧
      s = (beEnc 4 pk.length ++ pk ++ [x.hashType] ++ beEnc 4 x.signature.length ++
        x.signature).map Sum.inl ++ rest := by
  obtain ⟨sizeBs, s₂, rfl, hsize, h⟩ := readField_inv h
  dsimp only at h
  split at h
  · cases h
  rename_i hle
  obtain ⟨pkBs, s₃, rfl, hpk, h⟩ := readField_inv (alloc_inv h)
  unfold parseEPub at h
  split at h
  · cases h
  · cases h
  rename_i pk hp
  obtain ⟨hashBs, s₄, rfl, hhash, h⟩ := readField_inv h
  obtain ⟨sigSizeBs, s₅, rfl, hss, h⟩ := readField_inv h
  split at h
  · cases h
  rename_i hle2
  obtain ⟨sig, s₆, rfl, hsig, h⟩ := readField_inv (alloc_inv h)
  cases h
  obtain ⟨a, rfl⟩ := List.length_eq_one_iff.mp hhash
  refine ⟨pkBs, rfl, hp, ?_, ?_, ?_⟩
  · have : maxKeySize = 2 ^ 16 := rfl
    omega
  · show sig.length ≤ 2 ^ 16
    have : maxSignatureSize = 2 ^ 16 := rfl
    omega
  · rw [beDec_singleton]
    rw [hpk, beEnc_ofNat_beDec4 sizeBs hsize]
    show _ = (sizeBs ++ pkBs ++ [a] ++ beEnc 4 sig.length ++ sig).map Sum.inl ++ _
    rw [hsig, beEnc_ofNat_beDec4 sigSizeBs hss]
    simp

end Goe2ee
