import Verif.Props.Codec

/-!
# C08 for the other responses: the reserved bits of the flag octet
-/

set_option autoImplicit false

namespace Goe2ee

theorem parseSetupResponse_common (C : Crypto) (c' c : ResponseCommon) :
    parseSetupResponse C c' = mapOk (fun r => { r with common := c' }) (parseSetupResponse C c) := by
  simp only [parseSetupResponse, mapOk_readField, mapOk_ite, mapOk_alloc, mapOk_ret, Except.map]
  congr 1
  funext sizeBs
  split
  · rfl
  · congr 1
    congr 1
    funext pkBs
    unfold parseEPub
    split
    · rfl
    · rfl
    · simp only [mapOk_readField, mapOk_ite, mapOk_alloc, mapOk_ret, Except.map]

theorem parseFetchKeyResponse_common (c' c : ResponseCommon) :
    parseFetchKeyResponse c' = mapOk (fun r => { r with common := c' }) (parseFetchKeyResponse c) := by
  simp only [parseFetchKeyResponse, mapOk_readField, mapOk_ite, mapOk_alloc, mapOk_ret, Except.map]

theorem parseErrorResponse_common (c' c : ResponseCommon) :
    parseErrorResponse c' = mapOk (fun r => { r with common := c' }) (parseErrorResponse c) := by
  simp only [parseErrorResponse, mapOk_readField, mapOk_ite, mapOk_ret, Except.map]
  congr 1
  funext codeBs
  congr 1
  funext sizeBs
  split
  · rfl
  · simp only [mapOk, Prog.op_bind]
    congr 1
    funext r
    obtain ⟨bs, err⟩ := r
    cases err with
    | none => dsimp only; split <;> rfl
    | some e => dsimp only; split; · rfl
                split <;> rfl

theorem parses_mapOk {α : Type} (g : α → α) (p q : RProg (Except Err α)) (h : q = mapOk g p) (evs : List Ev) :
    (∀ r rest, Parses p evs (.ok r) rest → Parses q evs (.ok (g r)) rest) ∧
    (∀ e rest, Parses p evs (.error e) rest → Parses q evs (.error e) rest) := by
  subst h
  simp only [Parses, mapOk, Prog.run_bind]
  constructor
  · rintro r rest ⟨e1, h1, h2⟩
    exact ⟨e1, by rw [show Prog.run _ _ _ = _ from h1]; rfl, h2⟩
  · rintro r rest ⟨e1, h1, h2⟩
    exact ⟨e1, by rw [show Prog.run _ _ _ = _ from h1]; rfl, h2⟩

/-- C08: likewise for setup responses. -/
theorem C08_reserved_setup_bits (C : Crypto) (c c' : ResponseCommon) (evs : List Ev) :
    (∀ r rest, Parses (parseSetupResponse C c) evs (.ok r) rest →
      Parses (parseSetupResponse C c') evs (.ok { r with common := c' }) rest) ∧
    (∀ e rest, Parses (parseSetupResponse C c) evs (.error e) rest →
      Parses (parseSetupResponse C c') evs (.error e) rest) :=
  parses_mapOk _ _ _ (parseSetupResponse_common C c' c) evs

/-- C08: likewise for fetch-key responses. -/
theorem C08_reserved_fetch_key_bits (c c' : ResponseCommon) (evs : List Ev) :
    (∀ r rest, Parses (parseFetchKeyResponse c) evs (.ok r) rest →
      Parses (parseFetchKeyResponse c') evs (.ok { r with common := c' }) rest) ∧
    (∀ e rest, Parses (parseFetchKeyResponse c) evs (.error e) rest →
      Parses (parseFetchKeyResponse c') evs (.error e) rest) :=
  parses_mapOk _ _ _ (parseFetchKeyResponse_common c' c) evs

/-- C08: likewise for error responses. -/
theorem C08_reserved_error_bits (c c' : ResponseCommon) (evs : List Ev) :
    (∀ r rest, Parses (parseErrorResponse c) evs (.ok r) rest →
      Parses (parseErrorResponse c') evs (.ok { r with common := c' }) rest) ∧
    (∀ e rest, Parses (parseErrorResponse c) evs (.error e) rest →
      Parses (parseErrorResponse c') evs (.error e) rest) :=
  parses_mapOk _ _ _ (parseErrorResponse_common c' c) evs

/-- A key of two octets and an error text of one, after flag octets with reserved bits set. -/
example : (∃ r rest, Parses (parseFetchKeyResponse ⟨true, 0x55⟩) (byteByByte ([3] ++ Wire.be64 2 ++ [7, 8])) (.ok r) rest ∧
      r.publicKey = [7, 8]) ∧
    (∃ r rest, Parses (parseErrorResponse ⟨false, 0x7f⟩) (byteByByte (Wire.be32 1 ++ Wire.be64 1 ++ [65])) (.ok r) rest ∧
      r.message = [65]) :=
  ⟨⟨_, _, ⟨_, rfl, rfl⟩, by decide⟩, ⟨_, _, ⟨_, rfl, rfl⟩, by decide⟩⟩

end Goe2ee
