import Verif.Model.Protocol
import Verif.Proofs.Reader
import Verif.Spec.Wire
import Verif.Spec.Transport

/-!
# Helper lemmas about encoders and parsers
-/

set_option autoImplicit false

namespace Goe2ee

/-! ## Big-endian integers -/

@[simp] theorem beEnc_length (n v : Nat) : (beEnc n v).length = n := by
  induction n generalizing v with
  | zero => rfl
  | succ n ih => simp [beEnc, ih]

theorem beDec_foldl (bs : Bytes) (a : Nat) :
    bs.foldl (fun a b => a * 256 + b.toNat) a = a * 256 ^ bs.length + beDec bs := by
  induction bs generalizing a with
  | nil => simp [beDec]
  | cons b bs ih =>
    rw [beDec, List.foldl_cons, List.foldl_cons, ih, ih (0 * 256 + b.toNat), List.length_cons,
      Nat.pow_succ']
    simp [Nat.add_mul, Nat.mul_assoc, Nat.add_assoc]

theorem beDec_append (as bs : Bytes) :
    beDec (as ++ bs) = beDec as * 256 ^ bs.length + beDec bs := by
  rw [beDec, List.foldl_append, beDec_foldl]; rfl

theorem beDec_cons (b : Byte) (bs : Bytes) : beDec (b :: bs) = b.toNat * 256 ^ bs.length + beDec bs := by
  have := beDec_append [b] bs
  simpa [beDec] using this

theorem beDec_beEnc (n v : Nat) : beDec (beEnc n v) = v % 256 ^ n := by
  induction n with
  | zero => simp [beEnc, beDec, Nat.mod_one]
  | succ n ih =>
    rw [beEnc, beDec_cons, ih, beEnc_length]
    simp only [BitVec.toNat_ofNat]
    have h := Nat.mod_mul (x := v) (a := 256 ^ n) (b := 256)
    have e : 256 ^ (n + 1) = 256 ^ n * 256 := Nat.pow_succ _ _
    rw [e, h, Nat.mul_comm, Nat.add_comm]

theorem beDec_lt (bs : Bytes) : beDec bs < 256 ^ bs.length := by
  induction bs with
  | nil => simp [beDec]
  | cons b bs ih =>
    rw [beDec_cons, List.length_cons, Nat.pow_succ]
    have := b.isLt
    have h2 : b.toNat * 256 ^ bs.length ≤ 255 * 256 ^ bs.length :=
      Nat.mul_le_mul_right _ (by omega)
    omega

theorem beEnc_inj {n a b : Nat} (ha : a < 256 ^ n) (hb : b < 256 ^ n) (h : beEnc n a = beEnc n b) :
    a = b := by
  have := congrArg beDec h
  rwa [beDec_beEnc, beDec_beEnc, Nat.mod_eq_of_lt ha, Nat.mod_eq_of_lt hb] at this

theorem beEnc_four (v : Nat) : beEnc 4 v = Wire.be32 v := by
  simp [beEnc, Wire.be32, Wire.octet]

theorem beEnc_eight (v : Nat) : beEnc 8 v = Wire.be64 v := by
  simp [beEnc, Wire.be64, Wire.octet]

theorem beDec_singleton (b : Byte) : BitVec.ofNat 8 (beDec [b]) = b := by
  simp [beDec]

/-! ## Running parsers on flat sequences -/

theorem runI_readField {α : Type} (n : Nat) (what : String) (k : Bytes → RProg (Except Err α))
    (bs : Bytes) (s : List Item) (h : bs.length = n) :
    runI (readField n what k) (bs.map Sum.inl ++ s) = runI (k bs) s := by
  subst h
  simp only [runI, readField, Prog.run, itemInterp, readFullI_full]

theorem runI_readOctet {α : Type} (what : String) (k : Byte → RProg (Except Err α))
    (b : Byte) (s : List Item) :
    runI (readOctet what k) (Sum.inl b :: s) = runI (k b) s := by
  simp [runI, readOctet, Prog.run, itemInterp, copyLimitI]

theorem runI_readOctet_fail {α : Type} (what : String) (k : Byte → RProg (Except Err α))
    (e : Err) (s : List Item) (he : e ≠ .eof) :
    runI (readOctet what k) (Sum.inr e :: s) =
      (.val (.error (.wrap ("failed to read " ++ what) e)), s) := by
  simp only [runI, readOctet, Prog.run, itemInterp]
  rw [show copyLimitI (Sum.inr e :: s) (Int.toNat 1) = (([], some e), s) from by
    simp [copyLimitI, he]]
  simp only [ne_eq, he, not_false_iff, if_true]
  rfl

theorem runI_alloc {α : Type} (n : Nat) (k : RProg α) (s : List Item) :
    runI (allocThen n k) s = runI k s := rfl

theorem copyLimitI_full (bs : Bytes) (s : List Item) :
    copyLimitI (bs.map Sum.inl ++ s) bs.length = ((bs, none), s) := by
  have := copyLimitI_append bs s 0
  simpa [copyLimitI] using this

theorem runI_copyLimit {α : Type} (n : Int) (k : Bytes × Option Err → RProg α)
    (bs : Bytes) (s : List Item) (h : n = bs.length) :
    runI (.op (.copyLimit n) k) (bs.map Sum.inl ++ s) = runI (k (bs, none)) s := by
  subst h
  simp only [runI, Prog.run, itemInterp]
  rw [Int.toNat_natCast, copyLimitI_full]

/-- Transfer of a result on the flat sequence to every segmentation of it. -/
theorem runEv_of_runI {α : Type} {p : RProg α} {evs : List Ev} {r : Res α} {s' : List Item}
    (h : runI p (flatten evs) = (r, s')) :
    ∃ evs', runEv p evs = (r, evs') ∧ flatten evs' = s' := by
  have h2 := runEv_flatten p evs
  rw [h] at h2
  simp only [Prod.mk.injEq] at h2
  exact ⟨(runEv p evs).2, by rw [← h2.1], h2.2⟩

theorem toID_val (id : ID) : toID id.val = id := by
  simp [toID, id.property]

/-! ## Parsers on well-formed input -/

theorem map_inl_append (as bs : Bytes) (s : List Item) :
    (as ++ bs).map (Sum.inl (β := Err)) ++ s = as.map Sum.inl ++ (bs.map Sum.inl ++ s) := by simp

theorem octet_split (b : Byte) : ((b &&& 0xF0#8) >>> 4) <<< 4 ||| (b &&& 0x0F#8) = b := by
  revert b; decide

theorem octet_join : ∀ v a : BitVec 4,
    (((v.zeroExtend 8 <<< 4 ||| a.zeroExtend 8) &&& 0xF0#8) >>> 4 = v.zeroExtend 8) ∧
    ((v.zeroExtend 8 <<< 4 ||| a.zeroExtend 8) &&& 0x0F#8 = a.zeroExtend 8) := by
  decide

theorem runI_parseRequestCommon (b : Byte) (s : List Item) :
    runI parseRequestCommon (Sum.inl b :: s) =
      (.val (.ok { version := (b &&& 0xF0#8) >>> 4, action := b &&& 0x0F#8 }), s) := by
  rw [parseRequestCommon, runI_readOctet]; rfl

theorem runI_parseResponseCommon (b : Byte) (s : List Item) :
    runI parseResponseCommon (Sum.inl b :: s) =
      (.val (.ok { success := (b >>> 7) == 1#8, reserved := (b <<< 1) >>> 1 }), s) := by
  rw [parseResponseCommon, runI_readOctet]; rfl

theorem toNat_ofNat_beDec_beEnc4 (n : Nat) (h : n ≤ 2 ^ 31) :
    (BitVec.ofNat 32 (beDec (beEnc 4 n))).toNat = n := by
  rw [beDec_beEnc, BitVec.toNat_ofNat]
  have : n < 256 ^ 4 := by omega
  rw [Nat.mod_eq_of_lt this, Nat.mod_eq_of_lt (by omega)]

theorem ofNat_beDec_beEnc8 (v : BitVec 64) : BitVec.ofNat 64 (beDec (beEnc 8 v.toNat)) = v := by
  have h := v.isLt
  rw [beDec_beEnc, Nat.mod_eq_of_lt (by simpa using h)]
  simp

theorem ofNat_beDec_beEnc4 (v : BitVec 32) : BitVec.ofNat 32 (beDec (beEnc 4 v.toNat)) = v := by
  have h := v.isLt
  rw [beDec_beEnc, Nat.mod_eq_of_lt (by simpa using h)]
  simp

section
variable (C : Crypto)

theorem runI_parseSetupRequest (hp : ∀ k, C.parsePKIX (C.marshalEPub k) = .ok (.inl k))
    (common : RequestCommon) (id : ID) (pk : C.EPub) (hl : (C.marshalEPub pk).length ≤ 2 ^ 16)
    (s : List Item) :
    runI (parseSetupRequest C common)
      ((id.val ++ beEnc 4 (C.marshalEPub pk).length ++ C.marshalEPub pk).map Sum.inl ++ s) =
      (.val (.ok { common, id, publicKey := pk }), s) := by
  rw [map_inl_append, map_inl_append, parseSetupRequest, runI_readField _ _ _ _ _ id.property,
    runI_readField _ _ _ _ _ (beEnc_length _ _)]
  have hn := toNat_ofNat_beDec_beEnc4 (C.marshalEPub pk).length (by omega)
  simp only [hn, maxKeySize]
  rw [if_neg (by omega), runI_alloc, runI_readField _ _ _ _ _ rfl]
  simp [parseEPub, hp, toID_val, runI, Prog.run]

theorem runI_parseSetupResponse (hp : ∀ k, C.parsePKIX (C.marshalEPub k) = .ok (.inl k))
    (common : ResponseCommon) (pk : C.EPub) (hash : Byte) (sig : Bytes)
    (hl : (C.marshalEPub pk).length ≤ 2 ^ 16) (hs : sig.length ≤ 2 ^ 16)
    (s : List Item) :
    runI (parseSetupResponse C common)
      ((beEnc 4 (C.marshalEPub pk).length ++ (C.marshalEPub pk ++ ([hash] ++
        (beEnc 4 sig.length ++ sig)))).map Sum.inl ++ s) =
      (.val (.ok { common, publicKey := pk, hashType := hash, signature := sig }), s) := by
  rw [map_inl_append, map_inl_append, map_inl_append, map_inl_append, parseSetupResponse,
    runI_readField _ _ _ _ _ (beEnc_length _ _)]
  have hn := toNat_ofNat_beDec_beEnc4 (C.marshalEPub pk).length (by omega)
  have hn2 := toNat_ofNat_beDec_beEnc4 sig.length (by omega)
  simp only [hn, maxKeySize, maxSignatureSize]
  rw [if_neg (by omega), runI_alloc, runI_readField _ _ _ _ _ rfl]
  simp only [parseEPub, hp]
  rw [runI_readField 1 _ _ [hash] _ rfl, runI_readField _ _ _ _ _ (beEnc_length _ _)]
  simp only [hn2]
  rw [if_neg (by omega), runI_alloc, runI_readField _ _ _ _ _ rfl, beDec_singleton]
  rfl

end

theorem runI_parseProcessRequest (common : RequestCommon) (flags : Byte) (id : ID)
    (counter : BitVec 64) (msg : Bytes) (hl : msg.length ≤ 2 ^ 30) (s : List Item) :
    runI (parseProcessRequest common)
      (Sum.inl flags :: ((id.val ++ (beEnc 8 counter.toNat ++
        (beEnc 8 msg.length ++ msg))).map Sum.inl ++ s)) =
      (.val (.ok { common, expectReply := ((flags &&& 0xF0#8) >>> 7) == 1#8,
                   reserved := ((flags <<< 1) >>> 1) &&& 0xFF#8, id, counter,
                   messageSize := BitVec.ofNat 64 msg.length, message := msg }), s) := by
  rw [map_inl_append, map_inl_append, map_inl_append, parseProcessRequest, runI_readOctet,
    runI_readField _ _ _ _ _ id.property, runI_readField _ _ _ _ _ (beEnc_length _ _),
    runI_readField _ _ _ _ _ (beEnc_length _ _)]
  have hm : BitVec.ofNat 64 (beDec (beEnc 8 msg.length)) = BitVec.ofNat 64 msg.length := by
    rw [beDec_beEnc, Nat.mod_eq_of_lt (by omega)]
  have hn : (BitVec.ofNat 64 msg.length).toNat = msg.length := by
    rw [BitVec.toNat_ofNat, Nat.mod_eq_of_lt (by omega)]
  simp only [hm, hn, maxMessageSize]
  rw [if_neg (by omega), runI_alloc, runI_readField _ _ _ _ _ rfl, toID_val, ofNat_beDec_beEnc8]
  rfl

theorem runI_parseProcessResponse (common : ResponseCommon)
    (counter : BitVec 64) (msg : Bytes) (hl : msg.length ≤ 2 ^ 30) (s : List Item) :
    runI (parseProcessResponse common)
      ((beEnc 8 counter.toNat ++ (beEnc 8 msg.length ++ msg)).map Sum.inl ++ s) =
      (.val (.ok { common, counter, messageSize := BitVec.ofNat 64 msg.length, message := msg }),
        s) := by
  rw [map_inl_append, map_inl_append, parseProcessResponse,
    runI_readField _ _ _ _ _ (beEnc_length _ _),
    runI_readField _ _ _ _ _ (beEnc_length _ _)]
  have hm : BitVec.ofNat 64 (beDec (beEnc 8 msg.length)) = BitVec.ofNat 64 msg.length := by
    rw [beDec_beEnc, Nat.mod_eq_of_lt (by omega)]
  have hn : (BitVec.ofNat 64 msg.length).toNat = msg.length := by
    rw [BitVec.toNat_ofNat, Nat.mod_eq_of_lt (by omega)]
  simp only [hm, hn, maxMessageSize]
  rw [if_neg (by omega), runI_alloc, runI_readField _ _ _ _ _ rfl, ofNat_beDec_beEnc8]
  rfl

theorem runI_parseFetchKeyResponse (common : ResponseCommon)
    (alg : Byte) (pk : Bytes) (hl : pk.length ≤ 2 ^ 16) (s : List Item) :
    runI (parseFetchKeyResponse common)
      (([alg] ++ (beEnc 8 pk.length ++ pk)).map Sum.inl ++ s) =
      (.val (.ok { common, keyAlgorithm := alg, publicKeySize := BitVec.ofNat 64 pk.length,
                   publicKey := pk }), s) := by
  rw [map_inl_append, map_inl_append, parseFetchKeyResponse,
    runI_readField 1 _ _ [alg] _ rfl, runI_readField _ _ _ _ _ (beEnc_length _ _)]
  have hm : BitVec.ofNat 64 (beDec (beEnc 8 pk.length)) = BitVec.ofNat 64 pk.length := by
    rw [beDec_beEnc, Nat.mod_eq_of_lt (by omega)]
  have hn : (BitVec.ofNat 64 pk.length).toNat = pk.length := by
    rw [BitVec.toNat_ofNat, Nat.mod_eq_of_lt (by omega)]
  simp only [hm, hn, maxKeySize]
  rw [if_neg (by omega), runI_alloc, runI_readField _ _ _ _ _ rfl, beDec_singleton]
  rfl

theorem runI_parseErrorResponse (common : ResponseCommon)
    (code : ErrorCode) (msg : Bytes) (hl : msg.length < 2 ^ 63) (s : List Item) :
    runI (parseErrorResponse common)
      ((beEnc 4 code.toNat ++ (beEnc 8 msg.length ++ msg)).map Sum.inl ++ s) =
      (.val (.ok { common, code, message := msg }), s) := by
  rw [map_inl_append, map_inl_append, parseErrorResponse,
    runI_readField _ _ _ _ _ (beEnc_length _ _),
    runI_readField _ _ _ _ _ (beEnc_length _ _)]
  have hm : BitVec.ofNat 64 (beDec (beEnc 8 msg.length)) = BitVec.ofNat 64 msg.length := by
    rw [beDec_beEnc, Nat.mod_eq_of_lt (by omega)]
  have hn : (BitVec.ofNat 64 msg.length).toInt = msg.length := by
    have h2 : (BitVec.ofNat 64 msg.length).toNat = msg.length := by
      rw [BitVec.toNat_ofNat, Nat.mod_eq_of_lt (by omega)]
    rw [BitVec.toInt_eq_toNat_of_lt (by omega), h2]
  simp only [ofNat_beDec_beEnc4]
  by_cases h0 : BitVec.ofNat 64 msg.length = 0
  · have : msg.length = 0 := by
      have := congrArg BitVec.toNat h0
      simp at this; omega
    have : msg = [] := List.length_eq_zero_iff.mp this
    subst this
    rw [hm, if_pos h0]
    simp [runI, Prog.run]
  · rw [if_neg (by rw [hm]; exact h0)]
    refine (runI_copyLimit _ _ msg s (by rw [hm, hn])).trans ?_
    simp only [hm, hn]
    simp [runI, Prog.run]

/-! ## Parsers as a body plus decoration -/

/-- Apply `g` to the successful result of a parser. -/
def mapOk {α β : Type} (g : α → β) (p : RProg (Except Err α)) : RProg (Except Err β) :=
  p.bind fun r => .ret (r.map g)

theorem runI_mapOk {α β : Type} (g : α → β) (p : RProg (Except Err α)) (s : List Item) :
    runI (mapOk g p) s =
      match runI p s with
      | (.val r, s') => (.val (r.map g), s')
      | (.panic m, s') => (.panic m, s') := by
  simp only [mapOk, runI, Prog.run_bind, Prog.run]
  rcases Prog.run itemInterp p s with ⟨_ | _, _⟩ <;> rfl

theorem runI_andThen {α β : Type} {p : RProg (Except Err α)} {q : α → RProg (Except Err β)}
    {s s' : List Item} {a : α} (h : runI p s = (.val (.ok a), s')) :
    runI (andThen p q) s = runI (q a) s' := by
  simp only [runI, andThen, Prog.run_bind] at h ⊢
  rw [h]

theorem mapOk_readField {α β : Type} (g : α → β) (n : Nat) (w : String)
    (k : Bytes → RProg (Except Err α)) :
    mapOk g (readField n w k) = readField n w (fun bs => mapOk g (k bs)) := by
  simp only [mapOk, readField, Prog.op_bind]
  congr 1
  funext r
  cases r with
  | ok bs => rfl
  | error e => cases e <;> rfl

theorem mapOk_alloc {α β : Type} (g : α → β) (n : Nat) (k : RProg (Except Err α)) :
    mapOk g (allocThen n k) = allocThen n (mapOk g k) := rfl

theorem mapOk_ret {α β : Type} (g : α → β) (r : Except Err α) :
    mapOk g (.ret r) = .ret (r.map g) := rfl

theorem mapOk_ite {α β : Type} (g : α → β) (c : Prop) [Decidable c] (p q : RProg (Except Err α)) :
    mapOk g (if c then p else q) = if c then mapOk g p else mapOk g q := by
  split <;> rfl

/-- The part of a process request after the flag octet. -/
def processRequestBody (common : RequestCommon) : RProg (Except Err ProcessRequest) :=
  readField 16 "id" fun idBs =>
  readField 8 "counter" fun ctrBs =>
  readField 8 "size" fun sizeBs =>
    if (BitVec.ofNat 64 (beDec sizeBs)).toNat > maxMessageSize then
      .ret (.error (.other "message size exceeds maximum"))
    else allocThen (BitVec.ofNat 64 (beDec sizeBs)).toNat <|
      readField (BitVec.ofNat 64 (beDec sizeBs)).toNat "message" fun msg =>
      .ret (.ok { common, expectReply := false, reserved := 0, id := toID idBs,
                  counter := BitVec.ofNat 64 (beDec ctrBs),
                  messageSize := BitVec.ofNat 64 (beDec sizeBs), message := msg })

theorem runI_parseProcessRequest_octet (common : RequestCommon) (b : Byte) (s : List Item) :
    runI (parseProcessRequest common) (Sum.inl b :: s) =
      runI (mapOk (fun q => { q with expectReply := ((b &&& 0xF0#8) >>> 7) == 1#8,
                                     reserved := ((b <<< 1) >>> 1) &&& 0xFF#8 })
        (processRequestBody common)) s := by
  rw [parseProcessRequest, runI_readOctet]
  simp only [processRequestBody, mapOk_readField, mapOk_ite, mapOk_alloc, mapOk_ret, Except.map]

theorem parseProcessResponse_common (c' c : ResponseCommon) :
    parseProcessResponse c' = mapOk (fun r => { r with common := c' }) (parseProcessResponse c) := by
  simp only [parseProcessResponse, mapOk_readField, mapOk_ite, mapOk_alloc, mapOk_ret, Except.map]

end Goe2ee
