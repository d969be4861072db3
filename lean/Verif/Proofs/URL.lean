import Verif.Model.URL
import Verif.Spec.Form

/-! # Lemmas about queries -/

set_option autoImplicit false

namespace Goe2ee

open Form

theorem unhex_eq (c : Byte) : unhex c = hexDigit? c := by
  revert c; decide +kernel

theorem hexDigit_upper (c : Byte) :
    hexDigit? (upperHex (c.toNat / 16)) = some (c.toNat / 16) ∧ hexDigit? (upperHex (c.toNat % 16)) = some (c.toNat % 16) := by
  revert c; decide +kernel

theorem unreserved_plain (c : Byte) : unreserved c = true → c ≠ 0x25#8 ∧ c ≠ 0x2B#8 ∧ c ≠ 0x26#8 ∧ c ≠ 0x3D#8 := by
  revert c; decide +kernel

theorem upperHex_plain (n : Nat) (h : n < 16) : unreserved (upperHex n) = true := by
  revert h; revert n; decide +kernel

theorem decode_cons {c : Byte} (h : c ≠ 0x25#8) (rest : Bytes) :
    decode (c :: rest) = (if c = 0x2B#8 then 0x20#8 else c) :: decode rest := by
  rw [decode.eq_def]
  split
  · rename_i heq
    cases heq
    exact absurd rfl h
  · rename_i heq
    cases heq
    rfl
  · rename_i heq
    cases heq

theorem decode_escape {a b : Byte} {x y : Nat} (ha : hexDigit? a = some x) (hb : hexDigit? b = some y) (rest : Bytes) :
    decode (0x25#8 :: a :: b :: rest) = BitVec.ofNat 8 (16 * x + y) :: decode rest := by
  rw [decode, ha, hb]

/-- What was escaped is decoded. -/
theorem decode_queryEscape (s : Bytes) : decode (queryEscape s) = s := by
  induction s with
  | nil => rfl
  | cons c cs ih =>
    unfold queryEscape
    by_cases hu : unreserved c = true
    · obtain ⟨h1, h2, -, -⟩ := unreserved_plain c hu
      rw [if_pos hu, List.singleton_append, decode_cons h1, if_neg h2, ih]
    · rw [if_neg hu]
      by_cases hs : c = 32#8
      · rw [if_pos hs, List.singleton_append, decode_cons (by decide), if_pos rfl, ih, hs]
      · rw [if_neg hs]
        obtain ⟨h1, h2⟩ := hexDigit_upper c
        show decode (37#8 :: upperHex _ :: upperHex _ :: queryEscape cs) = _
        rw [decode_escape h1 h2, ih, Nat.div_add_mod]
        congr 1
        exact BitVec.ofNat_toNat 8 c |>.trans (BitVec.setWidth_eq c)

/-- The octets of an escaped string. -/
theorem queryEscape_octets (s : Bytes) : ∀ c ∈ queryEscape s, unreserved c = true ∨ c = 0x25#8 ∨ c = 0x2B#8 := by
  induction s with
  | nil => intro c h; cases h
  | cons d cs ih =>
    intro c h
    unfold queryEscape at h
    rcases List.mem_append.mp h with h | h
    · by_cases hu : unreserved d = true
      · rw [if_pos hu] at h
        cases List.mem_singleton.mp h
        exact .inl hu
      · rw [if_neg hu] at h
        by_cases hs : d = 32#8
        · rw [if_pos hs] at h
          exact .inr (.inr (List.mem_singleton.mp h))
        · rw [if_neg hs] at h
          have hd := d.isLt
          simp only [List.mem_cons, List.not_mem_nil, or_false] at h
          rcases h with h | h | h
          · exact .inr (.inl h)
          · exact .inl (h ▸ upperHex_plain _ (by omega))
          · exact .inl (h ▸ upperHex_plain _ (by omega))
    · exact ih c h

theorem queryEscape_no {s : Bytes} {c : Byte} (h : c ∈ queryEscape s) : c ≠ 0x26#8 ∧ c ≠ 0x3D#8 := by
  rcases queryEscape_octets s c h with h | h | h
  · exact (unreserved_plain c h).2.2
  · subst h; decide
  · subst h; decide

/-! ## Splitting -/

theorem split_ne_nil (sep : Byte) (s : Bytes) : split sep s ≠ [] := by
  cases s with
  | nil => intro h; cases h
  | cons c rest =>
    unfold split
    split
    · intro h; cases h
    · split <;> (intro h; cases h)

theorem split_none {sep : Byte} {s : Bytes} (h : sep ∉ s) : split sep s = [s] := by
  induction s with
  | nil => rfl
  | cons c rest ih =>
    have h1 : c ≠ sep := fun e => h (e ▸ List.mem_cons_self)
    rw [split, ih fun hm => h (List.mem_cons_of_mem _ hm)]
    dsimp only
    rw [if_neg h1]

theorem split_append {sep : Byte} {s : Bytes} (h : sep ∉ s) (rest : Bytes) :
    split sep (s ++ sep :: rest) = s :: split sep rest := by
  induction s with
  | nil =>
    show split sep (sep :: rest) = _
    rw [split]
    cases hs : split sep rest with
    | nil => exact absurd hs (split_ne_nil _ _)
    | cons p ps => dsimp only; rw [if_pos rfl]
  | cons c s ih =>
    have h1 : c ≠ sep := fun e => h (e ▸ List.mem_cons_self)
    show split sep (c :: (s ++ sep :: rest)) = _
    rw [split, ih fun hm => h (List.mem_cons_of_mem _ hm)]
    dsimp only
    rw [if_neg h1]

theorem cutAt_spec (sep : Byte) (s : Bytes) :
    (sep ∉ s ∧ cutAt sep s = (s, [])) ∨
      (s = (cutAt sep s).1 ++ sep :: (cutAt sep s).2 ∧ sep ∉ (cutAt sep s).1) := by
  induction s with
  | nil => exact .inl ⟨List.not_mem_nil, rfl⟩
  | cons c cs ih =>
    by_cases h : c = sep
    · refine .inr ?_
      rw [cutAt, if_pos h, h]
      exact ⟨rfl, List.not_mem_nil⟩
    · rw [cutAt, if_neg h]
      rcases ih with ⟨h1, h2⟩ | ⟨h1, h2⟩
      · refine .inl ⟨fun hm => ?_, by rw [h2]⟩
        rcases List.mem_cons.mp hm with e | hm
        · exact h e.symm
        · exact h1 hm
      · refine .inr ⟨by rw [List.cons_append, ← h1], fun hm => ?_⟩
        rcases List.mem_cons.mp hm with e | hm
        · exact h e.symm
        · exact h2 hm

theorem takeWhile_none {sep : Byte} {s : Bytes} (h : sep ∉ s) :
    s.takeWhile (· ≠ sep) = s ∧ s.dropWhile (· ≠ sep) = [] := by
  induction s with
  | nil => exact ⟨rfl, rfl⟩
  | cons c cs ih =>
    have h1 : c ≠ sep := fun e => h (e ▸ List.mem_cons_self)
    obtain ⟨h2, h3⟩ := ih fun hm => h (List.mem_cons_of_mem _ hm)
    constructor
    · rw [List.takeWhile_cons_of_pos (by simpa using h1), h2]
    · rw [List.dropWhile_cons_of_pos (by simpa using h1), h3]

theorem takeWhile_append_sep {sep : Byte} {s : Bytes} (h : sep ∉ s) (rest : Bytes) :
    (s ++ sep :: rest).takeWhile (· ≠ sep) = s ∧ ((s ++ sep :: rest).dropWhile (· ≠ sep)).drop 1 = rest := by
  induction s with
  | nil =>
    constructor
    · rw [List.nil_append, List.takeWhile_cons_of_neg (by simp)]
    · rw [List.nil_append, List.dropWhile_cons_of_neg (by simp)]; rfl
  | cons c cs ih =>
    have h1 : c ≠ sep := fun e => h (e ▸ List.mem_cons_self)
    obtain ⟨h2, h3⟩ := ih fun hm => h (List.mem_cons_of_mem _ hm)
    constructor
    · rw [List.cons_append, List.takeWhile_cons_of_pos (by simpa using h1), h2]
    · rw [List.cons_append, List.dropWhile_cons_of_pos (by simpa using h1), h3]

/-- `strings.Cut` gives what the standard calls name and value. -/
theorem cutAt_eq (sep : Byte) (s : Bytes) :
    cutAt sep s = (s.takeWhile (· ≠ sep), (s.dropWhile (· ≠ sep)).drop 1) := by
  rcases cutAt_spec sep s with ⟨h1, h2⟩ | ⟨h1, h2⟩
  · obtain ⟨h3, h4⟩ := takeWhile_none h1
    rw [h2, h3, h4]
    rfl
  · obtain ⟨h3, h4⟩ := takeWhile_append_sep h2 (cutAt sep s).2
    rw [← h1] at h3 h4
    rw [h3, h4]

/-! ## What `Encode` writes -/

/-- One parameter as it is written. -/
def written (p : Bytes × Bytes) : Bytes := queryEscape p.1 ++ 61#8 :: queryEscape p.2

theorem written_no_amp (p : Bytes × Bytes) : 0x26#8 ∉ written p := by
  intro h
  rcases List.mem_append.mp h with h | h
  · exact (queryEscape_no h).1 rfl
  · rcases List.mem_cons.mp h with h | h
    · exact absurd h (by decide)
    · exact (queryEscape_no h).1 rfl

theorem pair_written (p : Bytes × Bytes) : pair (written p) = p := by
  obtain ⟨h1, h2⟩ := takeWhile_append_sep (sep := 0x3D#8) (s := queryEscape p.1) (fun h => (queryEscape_no h).2 rfl)
    (queryEscape p.2)
  show (decode _, decode _) = p
  unfold written
  rw [h1, h2, decode_queryEscape, decode_queryEscape]

/-- The parameters, one after the other. -/
def flatValues (v : Values) : List (Bytes × Bytes) := v.flatMap fun e => e.2.map fun x => (e.1, x)

def encodePairs : List (Bytes × Bytes) → Bytes → Bytes
  | [], buf => buf
  | p :: rest, buf => encodePairs rest ((if buf.length > 0 then buf ++ [38#8] else buf) ++ written p)

theorem encodePairs_append (l l' : List (Bytes × Bytes)) (buf : Bytes) :
    encodePairs (l ++ l') buf = encodePairs l' (encodePairs l buf) := by
  induction l generalizing buf with
  | nil => rfl
  | cons p l ih => exact ih _

theorem encodeValues_eq (key : Bytes) (values : List Bytes) (buf : Bytes) :
    encodeValues key values buf = encodePairs (values.map fun x => (key, x)) buf := by
  induction values generalizing buf with
  | nil => rfl
  | cons x values ih =>
    rw [encodeValues, ih]
    simp only [List.map_cons, encodePairs, written, List.append_assoc, List.singleton_append]

theorem encodeEntries_eq (v : Values) (buf : Bytes) : encodeEntries v buf = encodePairs (flatValues v) buf := by
  induction v generalizing buf with
  | nil => rfl
  | cons e v ih =>
    show encodeEntries v (encodeValues e.1 e.2 buf) = encodePairs (e.2.map (fun x => (e.1, x)) ++ flatValues v) buf
    rw [ih, encodeValues_eq, encodePairs_append]

theorem written_length (p : Bytes × Bytes) : 0 < (written p).length := by
  unfold written
  rw [List.length_append, List.length_cons]
  omega

/-- With something in the buffer, every parameter is preceded by `&`. -/
theorem encodePairs_buf (l : List (Bytes × Bytes)) (buf : Bytes) (h : 0 < buf.length) :
    encodePairs l buf = buf ++ l.flatMap fun p => 38#8 :: written p := by
  induction l generalizing buf with
  | nil => simp [encodePairs]
  | cons p l ih =>
    rw [encodePairs, if_pos h, ih _ (by rw [List.length_append]; have := written_length p; omega)]
    simp

theorem split_written (p : Bytes × Bytes) (l : List (Bytes × Bytes)) :
    split 38#8 (written p ++ l.flatMap fun p => 38#8 :: written p) = written p :: l.map written := by
  induction l generalizing p with
  | nil => rw [List.flatMap_nil, List.append_nil]; exact split_none (written_no_amp p)
  | cons q l ih =>
    rw [List.flatMap_cons, List.cons_append, split_append (written_no_amp p), ih q, List.map_cons]

theorem pairs_written (l : List (Bytes × Bytes)) :
    ((l.map written).filter (· ≠ [])).map pair = l := by
  induction l with
  | nil => rfl
  | cons p l ih =>
    rw [List.map_cons, List.filter_cons_of_pos, List.map_cons, pair_written, ih]
    have := written_length p
    simp only [ne_eq, decide_not, Bool.not_eq_eq_eq_not, Bool.not_true, decide_eq_false_iff_not]
    intro h
    rw [h] at this
    exact absurd this (by decide)

/-- The parameters that are read are those that were written. -/
theorem pairs_encodePairs (l : List (Bytes × Bytes)) : pairs (encodePairs l []) = l := by
  cases l with
  | nil => rfl
  | cons p l =>
    have h : encodePairs (p :: l) [] = written p ++ l.flatMap fun p => 38#8 :: written p := by
      rw [encodePairs, if_neg (by decide), List.nil_append, encodePairs_buf _ _ (written_length p)]
    unfold pairs
    rw [h, split_written, ← List.map_cons, pairs_written]

/-- The octets of an encoded query. -/
theorem encodePairs_octets (l : List (Bytes × Bytes)) (buf : Bytes)
    (hb : ∀ c ∈ buf, unreserved c = true ∨ c = 0x25#8 ∨ c = 0x2B#8 ∨ c = 0x26#8 ∨ c = 0x3D#8) :
    ∀ c ∈ encodePairs l buf, unreserved c = true ∨ c = 0x25#8 ∨ c = 0x2B#8 ∨ c = 0x26#8 ∨ c = 0x3D#8 := by
  induction l generalizing buf with
  | nil => exact hb
  | cons p l ih =>
    refine ih _ fun c h => ?_
    have hq : ∀ s, c ∈ queryEscape s → unreserved c = true ∨ c = 0x25#8 ∨ c = 0x2B#8 ∨ c = 0x26#8 ∨ c = 0x3D#8 := by
      intro s hs
      rcases queryEscape_octets s c hs with h | h | h
      · exact .inl h
      · exact .inr (.inl h)
      · exact .inr (.inr (.inl h))
    rcases List.mem_append.mp h with h | h
    · split at h
      · rcases List.mem_append.mp h with h | h
        · exact hb c h
        · exact .inr (.inr (.inr (.inl (List.mem_singleton.mp h))))
      · exact hb c h
    · rcases List.mem_append.mp h with h | h
      · exact hq _ h
      · rcases List.mem_cons.mp h with h | h
        · exact .inr (.inr (.inr (.inr h)))
        · exact hq _ h

/-! ## Values by key -/

theorem valuesIn_append (l l' : List (Bytes × Bytes)) (k : Bytes) :
    valuesIn (l ++ l') k = valuesIn l k ++ valuesIn l' k := by
  simp [valuesIn]

theorem valuesIn_key (key : Bytes) (xs : List Bytes) (k : Bytes) :
    valuesIn (xs.map fun x => (key, x)) k = if key = k then xs else [] := by
  by_cases h : key = k
  · rw [if_pos h]
    induction xs with
    | nil => rfl
    | cons x xs ih =>
      simp only [valuesIn, List.map_cons, h, decide_true, List.filter_cons_of_pos] at ih ⊢
      rw [ih]
  · rw [if_neg h]
    induction xs with
    | nil => rfl
    | cons x xs ih =>
      simp only [valuesIn, List.map_cons] at ih ⊢
      rw [List.filter_cons_of_neg (by simpa using h)]
      exact ih

theorem valuesIn_flat_cons (e : Bytes × List Bytes) (v : Values) (k : Bytes) :
    valuesIn (flatValues (e :: v)) k = (if e.1 = k then e.2 else []) ++ valuesIn (flatValues v) k := by
  show valuesIn (e.2.map (fun x => (e.1, x)) ++ flatValues v) k = _
  rw [valuesIn_append, valuesIn_key]

theorem bytesLe_refl (a : Bytes) : bytesLe a a = true := by
  induction a with
  | nil => rfl
  | cons c a ih => rw [bytesLe, if_pos rfl, ih]

theorem valuesIn_insertKey (e : Bytes × List Bytes) (v : Values) (k : Bytes) :
    valuesIn (flatValues (insertKey e v)) k = valuesIn (flatValues (e :: v)) k := by
  induction v with
  | nil => rfl
  | cons h v ih =>
    rw [insertKey]
    split
    · rfl
    · rename_i hle
      have hne : ¬ (e.1 = k ∧ h.1 = k) := by
        rintro ⟨h1, h2⟩
        apply hle
        rw [h1, h2]
        exact bytesLe_refl k
      rw [valuesIn_flat_cons, ih, valuesIn_flat_cons, valuesIn_flat_cons, valuesIn_flat_cons]
      by_cases h1 : e.1 = k
      · have h2 : ¬ h.1 = k := fun h2 => hne ⟨h1, h2⟩
        rw [if_neg h2, if_pos h1]
        rfl
      · rw [if_neg h1]
        rfl

theorem valuesIn_sortKeys (v : Values) (k : Bytes) : valuesIn (flatValues (sortKeys v)) k = valuesIn (flatValues v) k := by
  induction v with
  | nil => rfl
  | cons e v ih => rw [sortKeys, valuesIn_insertKey, valuesIn_flat_cons, valuesIn_flat_cons, ih]

/-- The keys of a map differ. -/
def OneEntry (v : Values) : Prop := (v.map (·.1)).Nodup

theorem keys_add (v : Values) (key value : Bytes) : ∀ k, k ∈ (v.add key value).map (·.1) → k = key ∨ k ∈ v.map (·.1) := by
  induction v with
  | nil =>
    intro k h
    exact .inl (List.mem_singleton.mp h)
  | cons e v ih =>
    obtain ⟨k', vs⟩ := e
    intro k h
    rw [Values.add] at h
    split at h
    · exact .inr h
    · rcases List.mem_cons.mp h with h | h
      · exact .inr (h ▸ List.mem_cons_self)
      · rcases ih k h with h | h
        · exact .inl h
        · exact .inr (List.mem_cons_of_mem _ h)

theorem OneEntry.add {v : Values} (h : OneEntry v) (key value : Bytes) : OneEntry (v.add key value) := by
  induction v with
  | nil => exact List.nodup_cons.mpr ⟨List.not_mem_nil, List.nodup_nil⟩
  | cons e v ih =>
    obtain ⟨k', vs⟩ := e
    have h1 := List.nodup_cons.mp h
    rw [Values.add]
    split
    · exact h
    · rename_i hne
      refine List.nodup_cons.mpr ⟨fun hm => ?_, ih h1.2⟩
      rcases keys_add v key value k' hm with e | hm
      · exact hne e
      · exact h1.1 hm

theorem valuesIn_absent {v : Values} {k : Bytes} (h : k ∉ v.map (·.1)) : valuesIn (flatValues v) k = [] := by
  induction v with
  | nil => rfl
  | cons e v ih =>
    rw [valuesIn_flat_cons, if_neg (fun he : e.1 = k => h (he ▸ List.mem_cons_self)), ih fun hm => h (List.mem_cons_of_mem _ hm)]
    rfl

theorem valuesIn_add {v : Values} (h : OneEntry v) (key value k : Bytes) :
    valuesIn (flatValues (v.add key value)) k = valuesIn (flatValues v) k ++ if key = k then [value] else [] := by
  induction v with
  | nil =>
    rw [Values.add, valuesIn_flat_cons]
    exact List.append_nil _
  | cons e v ih =>
    obtain ⟨k', vs⟩ := e
    have h1 := List.nodup_cons.mp h
    rw [Values.add]
    split
    · rename_i he
      subst he
      rw [valuesIn_flat_cons, valuesIn_flat_cons]
      by_cases hk : k' = k
      · subst hk
        simp only [if_true, valuesIn_absent h1.1, List.append_nil]
      · simp only [if_neg hk, List.nil_append, List.append_nil]
    · rw [valuesIn_flat_cons, ih h1.2, valuesIn_flat_cons, List.append_assoc]

/-! ## What `parseQuery` reads -/

/-- A parameter as `parseQuery` reads it, or none if it is dropped. -/
def readPair (s : Bytes) : Option (Bytes × Bytes) :=
  if s.contains 59#8 ∨ s = [] then none
  else
    match unescapeURL true (cutAt 61#8 s).1, unescapeURL true (cutAt 61#8 s).2 with
    | some key, some value => some (key, value)
    | _, _ => none

theorem parsePair_eq (v : Values) (s : Bytes) :
    parsePair v s = match readPair s with | some p => v.add p.1 p.2 | none => v := by
  unfold parsePair readPair
  by_cases h1 : s.contains 59#8 = true
  · rw [if_pos h1, if_pos (.inl h1)]
  · rw [if_neg h1]
    by_cases h2 : s = []
    · rw [if_pos h2, if_pos (.inr h2)]
    · rw [if_neg h2, if_neg (fun h => h.elim h1 h2)]
      cases unescapeURL true (cutAt 61#8 s).1 with
      | none => rfl
      | some key => cases unescapeURL true (cutAt 61#8 s).2 <;> rfl

theorem parseQueryLoop_eq (fuel : Nat) (query : Bytes) (v : Values) (h : query.length ≤ fuel) :
    parseQueryLoop fuel query v = (split 38#8 query).foldl parsePair v := by
  induction fuel generalizing query v with
  | zero =>
    obtain rfl : query = [] := List.length_eq_zero_iff.mp (by omega)
    rfl
  | succ fuel ih =>
    rw [parseQueryLoop]
    split
    · rename_i he
      rw [he]
      rfl
    · rename_i he
      rcases cutAt_spec 38#8 query with ⟨h1, h2⟩ | ⟨h1, h2⟩
      · rw [h2, split_none h1, ih _ _ (Nat.zero_le _)]
        rfl
      · have h3 := congrArg List.length h1
        rw [List.length_append, List.length_cons] at h3
        rw [ih _ _ (by omega)]
        conv => rhs; rw [h1, split_append h2]
        rfl

theorem foldl_parsePair (l : List Bytes) (v : Values) (h : OneEntry v) :
    OneEntry (l.foldl parsePair v) ∧
      ∀ k, valuesIn (flatValues (l.foldl parsePair v)) k = valuesIn (flatValues v) k ++ valuesIn (l.filterMap readPair) k := by
  induction l generalizing v with
  | nil => exact ⟨h, fun k => (List.append_nil _).symm⟩
  | cons s l ih =>
    rw [List.foldl_cons, parsePair_eq]
    cases hr : readPair s with
    | none =>
      obtain ⟨h1, h2⟩ := ih v h
      refine ⟨h1, fun k => ?_⟩
      rw [List.filterMap_cons_none hr]
      exact h2 k
    | some p =>
      obtain ⟨h1, h2⟩ := ih _ (h.add p.1 p.2)
      refine ⟨h1, fun k => ?_⟩
      dsimp only
      rw [List.filterMap_cons_some hr, h2 k, valuesIn_add h, List.append_assoc]
      show _ = _ ++ valuesIn ([p] ++ l.filterMap readPair) k
      rw [valuesIn_append]
      congr 2
      by_cases hp : p.1 = k <;> simp [valuesIn, hp]

/-- `unescape` decodes, if it succeeds. -/
theorem unescapeURL_decode (s : Bytes) : ∀ {r : Bytes}, unescapeURL true s = some r → decode s = r := by
  suffices h : ∀ n, ∀ s : Bytes, s.length ≤ n → ∀ {r : Bytes}, unescapeURL true s = some r → decode s = r from
    fun _ hr => h s.length s (Nat.le_refl _) hr
  intro n
  induction n with
  | zero =>
    intro s hs r h
    obtain rfl : s = [] := List.length_eq_zero_iff.mp (by omega)
    cases h
    rfl
  | succ n ih =>
    intro s hs r h
    cases s with
    | nil => cases h; rfl
    | cons c cs =>
      rw [List.length_cons] at hs
      rw [unescapeURL.eq_def] at h
      dsimp only at h
      by_cases hc : c = 37#8
      · rw [if_pos hc] at h
        subst hc
        cases cs with
        | nil => cases h
        | cons a cs =>
          cases cs with
          | nil => cases h
          | cons b rest =>
            dsimp only at h
            cases ha : unhex a with
            | none => rw [ha] at h; cases h
            | some x =>
              cases hb : unhex b with
              | none => rw [ha, hb] at h; cases h
              | some y =>
                rw [ha, hb] at h
                dsimp only at h
                obtain ⟨r', h1, h2⟩ := Option.map_eq_some_iff.mp h
                rw [decode_escape (by rw [← unhex_eq, ha]) (by rw [← unhex_eq, hb]), ih rest (by
                  simp only [List.length_cons] at hs; omega) h1, h2]
      · rw [if_neg hc] at h
        obtain ⟨r', h1, h2⟩ := Option.map_eq_some_iff.mp h
        rw [decode_cons hc, ih cs (by omega) h1, ← h2]
        simp only [true_and]

theorem readPair_pair {s : Bytes} {p : Bytes × Bytes} (h : readPair s = some p) : s ≠ [] ∧ pair s = p := by
  unfold readPair at h
  split at h
  · cases h
  · rename_i hn
    refine ⟨fun e => hn (.inr e), ?_⟩
    split at h
    · rename_i key value h1 h2
      cases h
      rw [cutAt_eq] at h1 h2
      show (decode _, decode _) = _
      rw [unescapeURL_decode _ h1, unescapeURL_decode _ h2]
    · cases h

theorem readPairs_sublist (l : List Bytes) : (l.filterMap readPair).Sublist ((l.filter (· ≠ [])).map pair) := by
  induction l with
  | nil => exact .slnil
  | cons s l ih =>
    cases hr : readPair s with
    | none =>
      rw [List.filterMap_cons_none hr]
      by_cases hs : s = []
      · rw [List.filter_cons_of_neg (by simpa using hs)]
        exact ih
      · rw [List.filter_cons_of_pos (by simpa using hs), List.map_cons]
        exact ih.cons _
    | some p =>
      obtain ⟨h1, h2⟩ := readPair_pair hr
      rw [List.filterMap_cons_some hr, List.filter_cons_of_pos (by simpa using h1), List.map_cons, h2]
      exact ih.cons_cons _

/-! ## Well-formed queries -/

theorem Form.WellFormed.append {s : Bytes} {sep : Byte} {rest : Bytes} (hsep : hexDigit? sep = none)
    (h : WellFormed (s ++ sep :: rest)) : WellFormed s ∧ WellFormed rest := by
  induction s with
  | nil => exact ⟨trivial, h.2.2⟩
  | cons c s ih =>
    obtain ⟨h1, h2, h3⟩ := h
    obtain ⟨h4, h5⟩ := ih h3
    refine ⟨⟨h1, fun hc => ?_, h4⟩, h5⟩
    obtain ⟨a, b, r, h6, h7, h8⟩ := h2 hc
    cases s with
    | nil =>
      change sep :: rest = _ at h6
      cases h6
      rw [hsep] at h7
      cases h7
    | cons a' s =>
      cases s with
      | nil =>
        change a' :: sep :: rest = _ at h6
        cases h6
        rw [hsep] at h8
        cases h8
      | cons b' s =>
        change a' :: b' :: (s ++ sep :: rest) = _ at h6
        cases h6
        exact ⟨a, b, s, rfl, h7, h8⟩

theorem Form.WellFormed.split {q : Bytes} (h : WellFormed q) : ∀ s ∈ split 38#8 q, WellFormed s := by
  suffices hn : ∀ n, ∀ q : Bytes, q.length ≤ n → WellFormed q → ∀ s ∈ Form.split 38#8 q, WellFormed s from
    hn q.length q (Nat.le_refl _) h
  intro n
  induction n with
  | zero =>
    intro q hq hw s hs
    obtain rfl : q = [] := List.length_eq_zero_iff.mp (by omega)
    cases List.mem_singleton.mp hs
    trivial
  | succ n ih =>
    intro q hq hw s hs
    rcases cutAt_spec 38#8 q with ⟨h1, h2⟩ | ⟨h1, h2⟩
    · rw [split_none h1] at hs
      cases List.mem_singleton.mp hs
      exact hw
    · have h3 := congrArg List.length h1
      rw [List.length_append, List.length_cons] at h3
      rw [h1] at hw hs
      rw [split_append h2] at hs
      obtain ⟨h4, h5⟩ := hw.append (by decide)
      rcases List.mem_cons.mp hs with rfl | hs
      · exact h4
      · exact ih _ (by omega) h5 s hs

theorem Form.WellFormed.unescape {s : Bytes} (h : WellFormed s) : ∃ r, unescapeURL true s = some r := by
  suffices hn : ∀ n, ∀ s : Bytes, s.length ≤ n → WellFormed s → ∃ r, unescapeURL true s = some r from
    hn s.length s (Nat.le_refl _) h
  intro n
  induction n with
  | zero =>
    intro s hs hw
    obtain rfl : s = [] := List.length_eq_zero_iff.mp (by omega)
    exact ⟨[], rfl⟩
  | succ n ih =>
    intro s hs hw
    cases s with
    | nil => exact ⟨[], rfl⟩
    | cons c cs =>
      obtain ⟨h1, h2, h3⟩ := hw
      rw [List.length_cons] at hs
      by_cases hc : c = 37#8
      · obtain ⟨a, b, r, rfl, h4, h5⟩ := h2 hc
        obtain ⟨r', h6⟩ := ih r (by simp only [List.length_cons] at hs; omega) h3.2.2.2.2
        obtain ⟨x, hx⟩ := Option.isSome_iff_exists.mp h4
        obtain ⟨y, hy⟩ := Option.isSome_iff_exists.mp h5
        rw [← unhex_eq] at hx hy
        refine ⟨BitVec.ofNat 8 (16 * x + y) :: r', ?_⟩
        rw [unescapeURL.eq_def]
        dsimp only
        rw [if_pos hc, hx, hy]
        dsimp only
        rw [h6]
        rfl
      · obtain ⟨r', h6⟩ := ih cs (by omega) h3
        refine ⟨(if true = true ∧ c = 43#8 then 32#8 else c) :: r', ?_⟩
        rw [unescapeURL.eq_def]
        dsimp only
        rw [if_neg hc, h6]
        rfl

theorem Form.WellFormed.no_semicolon {s : Bytes} (h : WellFormed s) : 59#8 ∉ s := by
  induction s with
  | nil => exact List.not_mem_nil
  | cons c s ih =>
    intro hm
    rcases List.mem_cons.mp hm with e | hm
    · exact h.1 e.symm
    · exact ih h.2.2 hm

theorem Form.WellFormed.read {s : Bytes} (h : WellFormed s) (hs : s ≠ []) : readPair s = some (pair s) := by
  have h1 : ∃ x y, unescapeURL true (cutAt 61#8 s).1 = some x ∧ unescapeURL true (cutAt 61#8 s).2 = some y := by
    rcases cutAt_spec 61#8 s with ⟨h1, h2⟩ | ⟨h1, h2⟩
    · obtain ⟨x, hx⟩ := h.unescape
      exact ⟨x, [], by rw [h2]; exact hx, by rw [h2]; rfl⟩
    · rw [h1] at h
      obtain ⟨h3, h4⟩ := h.append (by decide)
      obtain ⟨x, hx⟩ := h3.unescape
      obtain ⟨y, hy⟩ := h4.unescape
      exact ⟨x, y, hx, hy⟩
  obtain ⟨x, y, hx, hy⟩ := h1
  have h2 : readPair s = some (x, y) := by
    unfold readPair
    rw [if_neg, hx, hy]
    rintro (h3 | h3)
    · exact h.no_semicolon (List.contains_iff_mem.mp h3)
    · exact hs h3
  rw [h2, (readPair_pair h2).2]

theorem Form.WellFormed.readPairs {l : List Bytes} (h : ∀ s ∈ l, WellFormed s) :
    l.filterMap readPair = (l.filter (· ≠ [])).map pair := by
  induction l with
  | nil => rfl
  | cons s l ih =>
    have ih := ih fun s hs => h s (List.mem_cons_of_mem _ hs)
    by_cases hs : s = []
    · rw [List.filter_cons_of_neg (by simpa using hs), List.filterMap_cons_none (by subst hs; rfl), ih]
    · rw [List.filter_cons_of_pos (by simpa using hs), List.map_cons,
        List.filterMap_cons_some ((h s List.mem_cons_self).read hs), ih]

end Goe2ee
