import Verif.Model.Reader

/-!
# Helper lemmas about readers

Reference semantics of the read effects on the flat sequence of bytes and errors, and the proof
that the segmented transport agrees with it.
-/

set_option autoImplicit false

namespace Goe2ee

abbrev Item := Byte ⊕ Err

/-- Reference `io.ReadFull` on a flat sequence. -/
def readFullI : List Item → Nat → Except Err Bytes × List Item
  | s, 0 => (.ok [], s)
  | [], _ + 1 => (.error .eof, [])
  | .inr e :: s, _ + 1 => (.error e, s)
  | .inl b :: s, n + 1 =>
    match readFullI s n with
    | (.ok bs, s') => (.ok (b :: bs), s')
    | (.error e, s') => (.error (if e = .eof then .unexpectedEOF else e), s')

/-- Reference `io.Copy` from a limited reader on a flat sequence. -/
def copyLimitI : List Item → Nat → (Bytes × Option Err) × List Item
  | s, 0 => (([], none), s)
  | [], _ + 1 => (([], none), [])
  | .inr e :: s, _ + 1 => (([], if e = .eof then none else some e), s)
  | .inl b :: s, n + 1 =>
    match copyLimitI s n with
    | ((bs, e), s') => ((b :: bs, e), s')

/-- Reference interpretation of the read effects. -/
def itemInterp : Interp RSig (List Item)
  | .alloc _, s => ((), s)
  | .readFull n, s => readFullI s n
  | .copyLimit n, s => copyLimitI s n.toNat

abbrev runI {α : Type} (p : RProg α) (s : List Item) : Res α × List Item := p.run itemInterp s

theorem readEv_spec (evs : List Ev) (k : Nat) (hk : 0 < k) :
    (flatten evs = [] ∧ readEv evs k = (([], some .eof), [])) ∨
    (∃ e evs', flatten evs = .inr e :: flatten evs' ∧ readEv evs k = (([], some e), evs')) ∨
    (∃ bs evs', bs ≠ [] ∧ bs.length ≤ k ∧ flatten evs = bs.map Sum.inl ++ flatten evs' ∧
      readEv evs k = ((bs, none), evs')) := by
  induction evs with
  | nil => left; simp [flatten, readEv]
  | cons ev r ih =>
    cases ev with
    | fail e => right; left; exact ⟨e, r, by simp [flatten], by simp [readEv]⟩
    | data bs =>
      cases bs with
      | nil => simpa [flatten, readEv] using ih
      | cons b bs =>
        right; right
        refine ⟨(b :: bs).take k, if (b :: bs).length ≤ k then r else .data ((b :: bs).drop k) :: r,
          ?_, ?_, ?_, ?_⟩
        · cases k with
          | zero => omega
          | succ k => simp
        · simp only [List.length_take]; omega
        · split
          · rename_i h
            rw [List.take_of_length_le h]; simp [flatten]
          · simp only [flatten]
            rw [← List.append_assoc, ← List.map_append, List.take_append_drop]
        · simp [readEv]

/-- The reader `rd` delivers the sequence `abs s`, in any segmentation. -/
structure Stream {σ : Type} (rd : ReadFn σ) (abs : σ → List Item) : Prop where
  spec : ∀ s k, 0 < k →
    (abs s = [] ∧ ∃ s', abs s' = [] ∧ rd s k = (([], some .eof), s')) ∨
    (∃ e s', abs s = .inr e :: abs s' ∧ rd s k = (([], some e), s')) ∨
    (∃ bs s', bs ≠ [] ∧ bs.length ≤ k ∧ abs s = bs.map Sum.inl ++ abs s' ∧ rd s k = ((bs, none), s'))

theorem stream_ev : Stream readEv flatten where
  spec evs k hk := by
    rcases readEv_spec evs k hk with ⟨h1, h2⟩ | h | h
    · exact .inl ⟨h1, [], rfl, h2⟩
    · exact .inr (.inl h)
    · exact .inr (.inr h)

theorem readFullI_full (bs : Bytes) (s : List Item) :
    readFullI (bs.map Sum.inl ++ s) bs.length = (.ok bs, s) := by
  induction bs with
  | nil => cases s <;> simp [readFullI]
  | cons b bs ih => simp [readFullI, ih]

theorem readFullI_append (bs : Bytes) (s : List Item) (n : Nat) (h : bs ≠ []) :
    readFullI (bs.map Sum.inl ++ s) (bs.length + n) =
      match readFullI s n with
      | (.ok cs, s') => (.ok (bs ++ cs), s')
      | (.error e, s') => (.error (if e = .eof then .unexpectedEOF else e), s') := by
  induction bs with
  | nil => exact absurd rfl h
  | cons b bs ih =>
    have e1 : (b :: bs).length + n = (bs.length + n) + 1 := by simp; omega
    rw [e1]
    simp only [List.map_cons, List.cons_append, readFullI]
    cases bs with
    | nil =>
      simp only [List.map_nil, List.nil_append, List.length_nil, Nat.zero_add]
    | cons c cs =>
      rw [ih (by simp)]
      cases readFullI s n with
      | mk r s' => cases r <;> simp <;> split <;> simp_all

section
variable {σ : Type} {rd : ReadFn σ} {abs : σ → List Item} (H : Stream rd abs)
include H

theorem readFullLoop_stream (n : Nat) : ∀ (fuel : Nat) (acc : Bytes) (s : σ), n ≤ fuel →
    ((readFullLoop rd fuel n acc s).1, abs (readFullLoop rd fuel n acc s).2) =
      match readFullI (abs s) n with
      | (.ok bs, s') => (.ok (acc ++ bs), s')
      | (.error e, s') => (.error (if acc ≠ [] ∧ e = .eof then .unexpectedEOF else e), s') := by
  induction n using Nat.strongRecOn with
  | _ n ih =>
  intro fuel acc evs hf
  cases n with
  | zero => cases fuel <;> simp [readFullLoop, readFullI]
  | succ n =>
    cases fuel with
    | zero => omega
    | succ fuel =>
      rcases H.spec evs (n + 1) (by omega) with ⟨h1, s', h3, h2⟩ | ⟨e, evs', h1, h2⟩ |
        ⟨bs, evs', hne, hle, h1, h2⟩
      · simp [readFullLoop, h1, h2, h3, readFullI]
      · simp [readFullLoop, h1, h2, readFullI]
      · rw [readFullLoop, h2]
        by_cases hfull : n + 1 ≤ bs.length
        · have : bs.length = n + 1 := by omega
          rw [h1, ← this, readFullI_full]; simp
        · obtain ⟨m, hm⟩ : ∃ m, n + 1 = bs.length + m := ⟨n + 1 - bs.length, by omega⟩
          have hpos : 0 < bs.length := List.length_pos_iff.mpr hne
          simp only [hfull, if_false]
          have hm' : n + 1 - bs.length = m := by omega
          rw [hm', ih m (by omega) fuel (acc ++ bs) evs' (by omega), h1, hm,
            readFullI_append bs _ m hne]
          cases readFullI (abs evs') m with
          | mk r s' => cases r <;> simp [hne] <;> split <;> simp_all

theorem readFull_stream (n : Nat) (s : σ) :
    ((readFull rd n s).1, abs (readFull rd n s).2) = readFullI (abs s) n := by
  rw [readFull, readFullLoop_stream H n n [] s (Nat.le_refl _)]
  cases readFullI (abs s) n with
  | mk r s' => cases r <;> simp

omit H in
theorem copyLimitI_append (bs : Bytes) (s : List Item) (n : Nat) :
    copyLimitI (bs.map Sum.inl ++ s) (bs.length + n) =
      ((bs ++ (copyLimitI s n).1.1, (copyLimitI s n).1.2), (copyLimitI s n).2) := by
  induction bs with
  | nil => simp
  | cons b bs ih =>
    have e1 : (b :: bs).length + n = (bs.length + n) + 1 := by simp; omega
    rw [e1]
    simp only [List.map_cons, List.cons_append, copyLimitI, ih]

theorem copyLoop_stream (n : Nat) : ∀ (fuel : Nat) (acc : Bytes) (s : σ), n ≤ fuel →
    ((copyLoop rd fuel n acc s).1, abs (copyLoop rd fuel n acc s).2) =
      ((acc ++ (copyLimitI (abs s) n).1.1, (copyLimitI (abs s) n).1.2),
        (copyLimitI (abs s) n).2) := by
  induction n using Nat.strongRecOn with
  | _ n ih =>
  intro fuel acc evs hf
  cases n with
  | zero => cases fuel <;> simp [copyLoop, copyLimitI]
  | succ n =>
    cases fuel with
    | zero => omega
    | succ fuel =>
      rcases H.spec evs (n + 1) (by omega) with ⟨h1, s', h3, h2⟩ | ⟨e, evs', h1, h2⟩ |
        ⟨bs, evs', hne, hle, h1, h2⟩
      · simp [copyLoop, h1, h2, h3, copyLimitI]
      · rw [copyLoop, h2, h1]
        cases e <;> simp [copyLimitI]
      · have hpos : 0 < bs.length := List.length_pos_iff.mpr hne
        obtain ⟨m, hm⟩ : ∃ m, n + 1 = bs.length + m := ⟨n + 1 - bs.length, by omega⟩
        rw [copyLoop, h2]
        have hm' : n + 1 - bs.length = m := by omega
        simp only [hm']
        rw [ih m (by omega) fuel (acc ++ bs) evs' (by omega), h1, hm, copyLimitI_append]
        simp

theorem copyLimit_stream (n : Int) (s : σ) :
    ((copyLimit rd n s).1, abs (copyLimit rd n s).2) = copyLimitI (abs s) n.toNat := by
  rw [copyLimit, copyLoop_stream H _ _ [] s (Nat.le_refl _)]
  simp

/-- The segmented transport computes what the flat reference computes. -/
theorem run_stream {α : Type} (p : RProg α) (s : σ) :
    ((p.run (readInterp rd) s).1, abs (p.run (readInterp rd) s).2) = runI p (abs s) := by
  induction p generalizing s with
  | ret a => rfl
  | panic m => rfl
  | op o k ih =>
    simp only [Prog.run]
    cases o with
    | alloc n => exact ih _ _
    | readFull n =>
      have h := readFull_stream H n s
      simp only [itemInterp, readInterp]
      rw [← h]; exact ih _ _
    | copyLimit n =>
      have h := copyLimit_stream H n s
      simp only [itemInterp, readInterp]
      rw [← h]; exact ih _ _

end

theorem readFull_flatten (n : Nat) (evs : List Ev) :
    ((readFull readEv n evs).1, flatten (readFull readEv n evs).2) = readFullI (flatten evs) n :=
  readFull_stream stream_ev n evs

theorem copyLimit_flatten (n : Int) (evs : List Ev) :
    ((copyLimit readEv n evs).1, flatten (copyLimit readEv n evs).2) =
      copyLimitI (flatten evs) n.toNat :=
  copyLimit_stream stream_ev n evs

theorem runEv_flatten {α : Type} (p : RProg α) (evs : List Ev) :
    ((runEv p evs).1, flatten (runEv p evs).2) = runI p (flatten evs) :=
  run_stream stream_ev p evs

theorem runEv_fst {α : Type} (p : RProg α) (evs : List Ev) :
    (runEv p evs).1 = (runI p (flatten evs)).1 := by rw [← runEv_flatten]

theorem runEv_snd {α : Type} (p : RProg α) (evs : List Ev) :
    flatten (runEv p evs).2 = (runI p (flatten evs)).2 := by rw [← runEv_flatten]

end Goe2ee
