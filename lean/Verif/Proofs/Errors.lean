import Verif.Spec.Errors
import Verif.Proofs.Parsers

/-!
# Helper lemmas about the errors that parsers return
-/

set_option autoImplicit false

namespace Goe2ee

/-! ## `errors.Is` -/

theorem Err.is_wrap_iff {m : String} {e target : Err} :
    (Err.wrap m e).Is target ↔ target = .wrap m e ∨ e.Is target := by
  constructor
  · intro h
    cases h with
    | self => exact .inl rfl
    | wrap _ _ _ h => exact .inr h
  · rintro (rfl | h)
    · exact .self _
    · exact .wrap _ _ _ h

/-- `errors.Is(err, os.ErrDeadlineExceeded)`. -/
theorem Err.isDeadline_iff (e : Err) : e.isDeadline = true ↔ e.Is .timeout := by
  induction e with
  | wrap m e ih => rw [Err.isDeadline, ih, Err.is_wrap_iff]; simp
  | timeout => exact ⟨fun _ => .self _, fun _ => rfl⟩
  | _ => exact ⟨fun h => (nomatch h), fun h => (nomatch h)⟩

theorem Err.Is.trans {a b c : Err} (h : a.Is b) (h' : b.Is c) : a.Is c := by
  induction h with
  | self => exact h'
  | wrap m e t _ ih => exact .wrap _ _ _ (ih h')

/-! ## Reading from a connection that fails -/

theorem runI_read {α : Type} (o : ROp) (k : o.Ret → RProg α) (s : List Item) :
    runI (.op o k) s = runI (k (itemInterp o s).1) (itemInterp o s).2 := rfl

theorem readFullI_fails (bs : Bytes) (e : Err) (rest : List Item) (n : Nat) (he : e ≠ .eof) :
    readFullI (bs.map Sum.inl ++ .inr e :: rest) n =
      if n ≤ bs.length then (.ok (bs.take n), (bs.drop n).map Sum.inl ++ .inr e :: rest) else (.error e, rest) := by
  induction bs generalizing n with
  | nil => cases n <;> simp [readFullI]
  | cons b bs ih =>
    cases n with
    | zero => simp [readFullI]
    | succ n =>
      rw [List.map_cons, List.cons_append, readFullI, ih]
      by_cases h : n ≤ bs.length
      · rw [if_pos h, if_pos (by simpa using h)]; simp
      · rw [if_neg h, if_neg (by simpa using h)]; simp [he]

theorem copyLimitI_fails (bs : Bytes) (e : Err) (rest : List Item) (n : Nat) (he : e ≠ .eof) :
    copyLimitI (bs.map Sum.inl ++ .inr e :: rest) n =
      if n ≤ bs.length then ((bs.take n, none), (bs.drop n).map Sum.inl ++ .inr e :: rest)
      else ((bs, some e), rest) := by
  induction bs generalizing n with
  | nil => cases n <;> simp [copyLimitI, he]
  | cons b bs ih =>
    cases n with
    | zero => simp [copyLimitI]
    | succ n =>
      rw [List.map_cons, List.cons_append, copyLimitI, ih]
      by_cases h : n ≤ bs.length
      · rw [if_pos h, if_pos (by simpa using h)]; simp
      · rw [if_neg h, if_neg (by simpa using h)]

/-- The parser hands on the error of the connection: if the connection fails, the parser is done before that, or its
error wraps that of the connection. -/
def HandsOn {α : Type} (p : RProg (Except Err α)) : Prop :=
  ∀ (bs : Bytes) (e : Err) (rest : List Item) (r : Except Err α) (s' : List Item), e ≠ .eof →
    runI p (bs.map Sum.inl ++ .inr e :: rest) = (.val r, s') →
    (∃ bs' : Bytes, s' = bs'.map Sum.inl ++ .inr e :: rest) ∨ (∃ err, r = .error err ∧ err.Is e ∧ s' = rest)

namespace HandsOn
variable {α : Type}

theorem ret (r : Except Err α) : HandsOn (.ret r) := by
  intro bs e rest r s' _ h
  cases h
  exact .inl ⟨bs, rfl⟩

theorem readField {n : Nat} {what : String} {k : Bytes → RProg (Except Err α)} (hk : ∀ bs, HandsOn (k bs)) :
    HandsOn (Goe2ee.readField n what k) := by
  intro bs e rest r s' he h
  change runI (match (itemInterp (.readFull n) _).1 with
    | .ok bs => k bs
    | .error .unexpectedEOF => .ret (.error .unexpectedEOF)
    | .error e => .ret (.error (.wrap ("failed to read " ++ what) e))) (readFullI _ n).2 = _ at h
  rw [show itemInterp (.readFull n) (bs.map Sum.inl ++ .inr e :: rest) =
    readFullI (bs.map Sum.inl ++ .inr e :: rest) n from rfl, readFullI_fails _ _ _ _ he] at h
  by_cases hn : n ≤ bs.length
  · rw [if_pos hn] at h
    exact hk _ _ _ _ _ _ he h
  · rw [if_neg hn] at h
    refine .inr ?_
    dsimp only at h
    split at h
    · rename_i heq; cases heq
    · rename_i heq; cases heq; cases h; exact ⟨_, rfl, .self _, rfl⟩
    · rename_i heq; cases heq; cases h; exact ⟨_, rfl, .wrap _ _ _ (.self _), rfl⟩

theorem readOctet {what : String} {k : Byte → RProg (Except Err α)} (hk : ∀ b, HandsOn (k b)) :
    HandsOn (Goe2ee.readOctet what k) := by
  intro bs e rest r s' he h
  cases bs with
  | nil =>
    have h2 : runI (Goe2ee.readOctet what k) (List.map Sum.inl [] ++ .inr e :: rest) =
        (.val (.error (.wrap ("failed to read " ++ what) e)), rest) := by
      have h1 : copyLimitI (.inr e :: rest) 1 = (([], some e), rest) := by simp [copyLimitI, he]
      change runI (match (copyLimitI (.inr e :: rest) 1).1 with
        | (bs, some e) => _
        | ([], none) => _
        | ([b], none) => _
        | (_, none) => _) (copyLimitI (.inr e :: rest) 1).2 = _
      rw [h1]
      dsimp only
      rw [if_pos he]
      rfl
    rw [h2] at h
    cases h
    exact .inr ⟨_, rfl, .wrap _ _ _ (.self _), rfl⟩
  | cons b bs =>
    have h2 : runI (Goe2ee.readOctet what k) (List.map Sum.inl (b :: bs) ++ .inr e :: rest) =
        runI (k b) (bs.map Sum.inl ++ .inr e :: rest) := by
      cases bs <;> rfl
    rw [h2] at h
    exact hk _ _ _ _ _ _ he h

theorem alloc {n : Nat} {k : RProg (Except Err α)} (hk : HandsOn k) : HandsOn (allocThen n k) :=
  fun bs e rest r s' he h => hk bs e rest r s' he h

theorem ite {c : Prop} [Decidable c] {p q : RProg (Except Err α)} (hp : HandsOn p) (hq : HandsOn q) :
    HandsOn (if c then p else q) := by
  split
  · exact hp
  · exact hq

theorem responseCommon : HandsOn parseResponseCommon := readOctet fun _ => ret _

theorem processResponse (c : ResponseCommon) : HandsOn (parseProcessResponse c) :=
  readField fun _ => readField fun _ => ite (ret _) (alloc (readField fun _ => ret _))

theorem errorResponse (c : ResponseCommon) : HandsOn (parseErrorResponse c) := by
  refine readField fun _ => readField fun sizeBs => ite (ret _) ?_
  intro bs e rest r s' he h
  generalize hsz : (BitVec.ofNat 64 (beDec sizeBs)).toInt = size at h
  change runI _ (copyLimitI (bs.map Sum.inl ++ .inr e :: rest) size.toNat).2 = _ at h
  rw [show itemInterp (.copyLimit size) (bs.map Sum.inl ++ .inr e :: rest) =
    copyLimitI (bs.map Sum.inl ++ .inr e :: rest) size.toNat from rfl, copyLimitI_fails _ _ _ _ he] at h
  by_cases hn : size.toNat ≤ bs.length
  · rw [if_pos hn] at h
    refine .inl ⟨bs.drop size.toNat, ?_⟩
    dsimp only at h
    split at h <;> cases h <;> rfl
  · rw [if_neg hn] at h
    refine .inr ?_
    dsimp only at h
    rw [if_pos he] at h
    cases h
    exact ⟨_, rfl, .wrap _ _ _ (.self _), rfl⟩

end HandsOn

/-- The parser reports an expired deadline only if the connection did. -/
def NoOwnDeadline {α : Type} (p : RProg (Except Err α)) : Prop :=
  ∀ (s : List Item) (err : Err) (s' : List Item), runI p s = (.val (.error err), s') → err.isDeadline = true →
    ∃ e, .inr e ∈ s ∧ e.isDeadline = true

theorem readFullI_error {s : List Item} {n : Nat} {e : Err} {s' : List Item} (h : readFullI s n = (.error e, s')) :
    e = .eof ∨ e = .unexpectedEOF ∨ .inr e ∈ s := by
  induction s generalizing n e with
  | nil => cases n <;> cases h; exact .inl rfl
  | cons x s ih =>
    cases n with
    | zero => cases x <;> cases h
    | succ n =>
      cases x with
      | inr e' => cases h; exact .inr (.inr (List.mem_cons_self ..))
      | inl b =>
        rw [readFullI] at h
        cases hr : readFullI s n with
        | mk r s₁ =>
          rw [hr] at h
          cases r with
          | ok bs => cases h
          | error e' =>
            dsimp only at h
            cases h
            by_cases he : e' = .eof
            · rw [if_pos he]; exact .inr (.inl rfl)
            · rw [if_neg he]
              rcases ih hr with h | h | h
              · exact .inl h
              · exact .inr (.inl h)
              · exact .inr (.inr (List.mem_cons_of_mem _ h))

theorem copyLimitI_error {s : List Item} {n : Nat} {bs : Bytes} {e : Err} {s' : List Item}
    (h : copyLimitI s n = ((bs, some e), s')) : .inr e ∈ s := by
  induction s generalizing n bs with
  | nil => cases n <;> cases h
  | cons x s ih =>
    cases n with
    | zero => cases x <;> cases h
    | succ n =>
      cases x with
      | inr e' =>
        rw [copyLimitI] at h
        by_cases he : e' = .eof
        · rw [if_pos he] at h; cases h
        · rw [if_neg he] at h; cases h; exact List.mem_cons_self ..
      | inl b =>
        rw [copyLimitI] at h
        cases hr : copyLimitI s n with
        | mk r s₁ =>
          obtain ⟨bs₁, e₁⟩ := r
          rw [hr] at h
          cases h
          exact List.mem_cons_of_mem _ (ih hr)

namespace NoOwnDeadline
variable {α : Type}

theorem mem_of_suffix {s c s' : List Item} {e : Err} (hs : s = c ++ s') (h : Sum.inr e ∈ s') : Sum.inr e ∈ s := by
  rw [hs]; exact List.mem_append_right _ h

theorem ok (a : α) : NoOwnDeadline (.ret (.ok a)) := fun _ _ _ h => by cases h

theorem error (e : Err) (he : e.isDeadline = false) : NoOwnDeadline (α := α) (.ret (.error e)) := by
  intro s err s' h hd
  cases h
  rw [he] at hd
  cases hd

theorem readField {n : Nat} {what : String} {k : Bytes → RProg (Except Err α)} (hk : ∀ bs, NoOwnDeadline (k bs)) :
    NoOwnDeadline (Goe2ee.readField n what k) := by
  intro s err s' h hd
  obtain ⟨c, hc⟩ := readFullI_suffix s n
  cases hr : readFullI s n with
  | mk r s₁ =>
    rw [hr] at hc
    cases r with
    | ok bs =>
      have h2 : runI (Goe2ee.readField n what k) s = runI (k bs) s₁ := by
        rw [Goe2ee.readField, runI_read, show itemInterp (.readFull n) s = (.ok bs, s₁) from hr]
      rw [h2] at h
      obtain ⟨e, h1, h2⟩ := hk _ _ _ _ h hd
      exact ⟨e, mem_of_suffix hc h1, h2⟩
    | error e =>
      have h2 : runI (Goe2ee.readField n what k) s = (.val (.error (if e = .unexpectedEOF then .unexpectedEOF
          else .wrap ("failed to read " ++ what) e)), s₁) := by
        rw [Goe2ee.readField, runI_read, show itemInterp (.readFull n) s = (.error e, s₁) from hr]
        cases e <;> rfl
      rw [h2] at h
      cases h
      by_cases he : e = .unexpectedEOF
      · rw [if_pos he] at hd; cases hd
      · rw [if_neg he] at hd
        rcases readFullI_error hr with rfl | h | h
        · cases hd
        · exact absurd h he
        · exact ⟨e, h, hd⟩

theorem readOctet {what : String} {k : Byte → RProg (Except Err α)} (hk : ∀ b, NoOwnDeadline (k b)) :
    NoOwnDeadline (Goe2ee.readOctet what k) := by
  intro s err s' h hd
  cases s with
  | nil => cases h; cases hd
  | cons x s =>
    cases x with
    | inl b =>
      have h2 : runI (Goe2ee.readOctet what k) (.inl b :: s) = runI (k b) s := by cases s <;> rfl
      rw [h2] at h
      obtain ⟨e, h1, h2⟩ := hk _ _ _ _ h hd
      exact ⟨e, List.mem_cons_of_mem _ h1, h2⟩
    | inr e =>
      by_cases he : e = .eof
      · subst he; cases h; cases hd
      · have h2 : runI (Goe2ee.readOctet what k) (.inr e :: s) =
            (.val (.error (.wrap ("failed to read " ++ what) e)), s) := by
          have h1 : copyLimitI (.inr e :: s) 1 = (([], some e), s) := by simp [copyLimitI, he]
          change runI (match (copyLimitI (.inr e :: s) 1).1 with
            | (bs, some e) => _
            | ([], none) => _
            | ([b], none) => _
            | (_, none) => _) (copyLimitI (.inr e :: s) 1).2 = _
          rw [h1]
          dsimp only
          rw [if_pos he]
          rfl
        rw [h2] at h
        cases h
        exact ⟨e, List.mem_cons_self .., hd⟩

theorem alloc {n : Nat} {k : RProg (Except Err α)} (hk : NoOwnDeadline k) : NoOwnDeadline (allocThen n k) :=
  fun s err s' h hd => hk s err s' h hd

theorem ite {c : Prop} [Decidable c] {p q : RProg (Except Err α)} (hp : NoOwnDeadline p) (hq : NoOwnDeadline q) :
    NoOwnDeadline (if c then p else q) := by
  split
  · exact hp
  · exact hq

theorem responseCommon : NoOwnDeadline parseResponseCommon := readOctet fun _ => ok _

theorem processResponse (c : ResponseCommon) : NoOwnDeadline (parseProcessResponse c) :=
  readField fun _ => readField fun _ => ite (error _ rfl) (alloc (readField fun _ => ok _))

theorem errorResponse (c : ResponseCommon) : NoOwnDeadline (parseErrorResponse c) := by
  refine readField fun _ => readField fun sizeBs => ite (ok _) ?_
  intro s err s' h hd
  generalize hsz : (BitVec.ofNat 64 (beDec sizeBs)).toInt = size at h
  change runI _ (copyLimitI s size.toNat).2 = _ at h
  rw [show itemInterp (.copyLimit size) s = copyLimitI s size.toNat from rfl] at h
  cases hr : copyLimitI s size.toNat with
  | mk r s₁ =>
    obtain ⟨bs, oe⟩ := r
    rw [hr] at h
    cases oe with
    | none =>
      dsimp only at h
      split at h <;> cases h
      cases hd
    | some e =>
      dsimp only at h
      split at h
      · cases h; exact ⟨e, copyLimitI_error hr, hd⟩
      · split at h <;> cases h
        cases hd

end NoOwnDeadline

end Goe2ee
