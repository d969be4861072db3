import Verif.Proofs.Codec

/-!
# Helper lemmas: syntactic properties of parser programs
-/

set_option autoImplicit false

namespace Goe2ee

/-! ## Allocations -/

/-- Every buffer the program can allocate, whatever is read, has at most `L` bytes. -/
def AllocsLe {α : Type} (L : Nat) : RProg α → Prop
  | .ret _ => True
  | .panic _ => True
  | .op (.alloc n) k => n ≤ L ∧ ∀ r, AllocsLe L (k r)
  | .op (.readFull n) k => n ≤ L ∧ ∀ r, AllocsLe L (k r)
  | .op (.copyLimit _) k => ∀ r, AllocsLe L (k r)

theorem allocations_le {α : Type} {L : Nat} {p : RProg α} (h : AllocsLe L p) (evs : List Ev) :
    ∀ n ∈ allocations p evs, n ≤ L := by
  induction p generalizing evs with
  | ret a => simp [allocations, Prog.trace]
  | panic m => simp [allocations, Prog.trace]
  | op o k ih =>
    intro n hn
    cases o with
    | alloc m =>
      simp only [allocations, Prog.trace, List.filterMap_cons, List.mem_cons] at hn
      rcases hn with rfl | hn
      · exact h.1
      · exact ih _ (h.2 _) _ n hn
    | readFull m =>
      simp only [allocations, Prog.trace, List.filterMap_cons, List.mem_cons] at hn
      rcases hn with rfl | hn
      · exact h.1
      · exact ih _ (h.2 _) _ n hn
    | copyLimit m =>
      simp only [allocations, Prog.trace, List.filterMap_cons] at hn
      exact ih _ (h _) _ n hn

theorem AllocsLe.readField {α : Type} {L n : Nat} {w : String} {k : Bytes → RProg (Except Err α)}
    (hn : n ≤ L) (hk : ∀ bs, AllocsLe L (k bs)) : AllocsLe L (readField n w k) := by
  refine ⟨hn, fun r => ?_⟩
  cases r with
  | ok bs => exact hk bs
  | error e => cases e <;> exact trivial

theorem AllocsLe.readOctet {α : Type} {L : Nat} {w : String} {k : Byte → RProg (Except Err α)}
    (hk : ∀ b, AllocsLe L (k b)) : AllocsLe L (readOctet w k) := by
  intro r
  dsimp only
  split
  · split
    · exact trivial
    · split
      · exact trivial
      · exact hk _
      · exact trivial
  · exact trivial
  · exact hk _
  · exact trivial

theorem AllocsLe.requestCommon {L : Nat} : AllocsLe L parseRequestCommon :=
  AllocsLe.readOctet fun _ => trivial

theorem AllocsLe.responseCommon {L : Nat} : AllocsLe L parseResponseCommon :=
  AllocsLe.readOctet fun _ => trivial

theorem AllocsLe.alloc {α : Type} {L n : Nat} {k : RProg α} (hn : n ≤ L) (hk : AllocsLe L k) :
    AllocsLe L (allocThen n k) := ⟨hn, fun _ => hk⟩

theorem AllocsLe.ite {α : Type} {L : Nat} {c : Prop} [Decidable c] {p q : RProg α}
    (hp : c → AllocsLe L p) (hq : ¬ c → AllocsLe L q) : AllocsLe L (if c then p else q) := by
  split
  · exact hp ‹_›
  · exact hq ‹_›

theorem AllocsLe.epub {α : Type} {L : Nat} {C : Crypto} {bs : Bytes}
    {k : C.EPub → RProg (Except Err α)} (hk : ∀ pk, AllocsLe L (k pk)) :
    AllocsLe L (parseEPub C bs k) := by
  unfold parseEPub
  split
  · exact trivial
  · exact trivial
  · exact hk _

theorem AllocsLe.andThen {α β : Type} {L : Nat} {p : RProg (Except Err α)}
    {q : α → RProg (Except Err β)} (hp : AllocsLe L p) (hq : ∀ a, AllocsLe L (q a)) :
    AllocsLe L (andThen p q) := by
  unfold Goe2ee.andThen
  induction p with
  | ret a => cases a with
    | ok a => exact hq a
    | error e => exact trivial
  | panic m => exact trivial
  | op o k ih =>
    cases o with
    | alloc m => exact ⟨hp.1, fun r => ih r (hp.2 r)⟩
    | readFull m => exact ⟨hp.1, fun r => ih r (hp.2 r)⟩
    | copyLimit m => exact fun r => ih r (hp r)

/-! ## The trace on a segmented stream is the trace on the flat stream -/

theorem trace_flatten {α : Type} (p : RProg α) (evs : List Ev) :
    p.trace (readInterp readEv) evs = p.trace itemInterp (flatten evs) := by
  induction p generalizing evs with
  | ret a => rfl
  | panic m => rfl
  | op o k ih =>
    simp only [Prog.trace]
    cases o with
    | alloc n => exact congrArg _ (ih _ _)
    | readFull n =>
      have h := readFull_flatten n evs
      simp only [itemInterp, readInterp]
      rw [← h]; exact congrArg _ (ih _ _)
    | copyLimit n =>
      have h := copyLimit_flatten n evs
      simp only [itemInterp, readInterp]
      rw [← h]; exact congrArg _ (ih _ _)

/-- Allocations on the flat stream. -/
def allocsI {α : Type} (p : RProg α) (s : List Item) : List Nat :=
  (p.trace itemInterp s).filterMap fun
    | ⟨.alloc n, _⟩ => some n
    | ⟨.readFull n, _⟩ => some n
    | ⟨.copyLimit _, _⟩ => none

theorem allocations_flatten {α : Type} (p : RProg α) (evs : List Ev) :
    allocations p evs = allocsI p (flatten evs) := by
  unfold allocations allocsI
  rw [trace_flatten]
  rfl

theorem allocsI_readField {α : Type} (n : Nat) (what : String) (k : Bytes → RProg (Except Err α))
    (bs : Bytes) (s : List Item) (h : bs.length = n) :
    allocsI (readField n what k) (bs.map Sum.inl ++ s) = n :: allocsI (k bs) s := by
  subst h
  simp only [allocsI, readField, Prog.trace, itemInterp, readFullI_full, List.filterMap_cons]

theorem allocsI_alloc {α : Type} (n : Nat) (k : RProg α) (s : List Item) :
    allocsI (allocThen n k) s = n :: allocsI k s := rfl

theorem allocsI_readOctet {α : Type} (what : String) (k : Byte → RProg (Except Err α))
    (b : Byte) (s : List Item) :
    allocsI (readOctet what k) (Sum.inl b :: s) = allocsI (k b) s := by
  simp [allocsI, readOctet, Prog.trace, itemInterp, copyLimitI]

theorem allocsI_andThen_readOctet {α β : Type} (w : String) (k : Byte → RProg (Except Err α))
    (q : α → RProg (Except Err β)) (b : Byte) (s : List Item) :
    allocsI (andThen (readOctet w k) q) (Sum.inl b :: s) = allocsI (andThen (k b) q) s := by
  simp [allocsI, andThen, readOctet, Prog.trace, itemInterp, copyLimitI]

theorem allocsI_request {β : Type} (q : RequestCommon → RProg (Except Err β)) (b : Byte)
    (s : List Item) :
    allocsI (andThen parseRequestCommon q) (Sum.inl b :: s) =
      allocsI (q { version := (b &&& 0xF0#8) >>> 4, action := b &&& 0x0F#8 }) s :=
  allocsI_andThen_readOctet _ _ q b s

theorem allocsI_response {β : Type} (q : ResponseCommon → RProg (Except Err β)) (b : Byte)
    (s : List Item) :
    allocsI (andThen parseResponseCommon q) (Sum.inl b :: s) =
      allocsI (q { success := (b >>> 7) == 1#8, reserved := (b <<< 1) >>> 1 }) s :=
  allocsI_andThen_readOctet _ _ q b s

/-! ## Stopping at the first failed read -/

/-- The program reports an error as soon as a read does not deliver what was asked for. -/
def FailStop {α : Type} : RProg (Except Err α) → Prop
  | .ret _ => True
  | .panic _ => True
  | .op (.alloc _) k => ∀ r, FailStop (k r)
  | .op (.readFull _) k =>
    (∀ e, ∃ e', k (.error e) = .ret (.error e')) ∧ ∀ bs, FailStop (k (.ok bs))
  | .op (.copyLimit n) k =>
    (∀ bs e, e ≠ .eof → ∃ e', k (bs, some e) = .ret (.error e')) ∧
    (∀ bs, bs.length < n → ∃ e', k (bs, none) = .ret (.error e')) ∧
    ∀ bs, FailStop (k (bs, none))

/-- The rest of a connection after a cut: nothing, or a transport error. -/
def Cut (tail : List Item) : Prop := tail = [] ∨ ∃ e t, tail = .inr e :: t

theorem readFullI_cut (pre : Bytes) (tail : List Item) (ht : Cut tail) (n : Nat)
    (h : pre.length < n) :
    ∃ e s, readFullI (pre.map Sum.inl ++ tail) n = (.error e, s) := by
  induction pre generalizing n with
  | nil =>
    cases n with
    | zero => simp at h
    | succ n =>
      rcases ht with rfl | ⟨e, t, rfl⟩
      · exact ⟨_, _, rfl⟩
      · exact ⟨_, _, rfl⟩
  | cons b pre ih =>
    cases n with
    | zero => simp at h
    | succ n =>
      obtain ⟨e, s, h1⟩ := ih n (by simpa using h)
      simp only [List.map_cons, List.cons_append, readFullI, h1]
      exact ⟨_, _, rfl⟩

theorem readFullI_ok_inv (s : List Item) (n : Nat) (bs : Bytes) (s' : List Item)
    (h : readFullI s n = (.ok bs, s')) : s = bs.map Sum.inl ++ s' ∧ bs.length = n := by
  induction n generalizing s bs with
  | zero =>
    cases s <;> simp [readFullI] at h <;> obtain ⟨rfl, rfl⟩ := h <;> simp
  | succ n ih =>
    cases s with
    | nil => simp [readFullI] at h
    | cons i s =>
      cases i with
      | inr e => simp [readFullI] at h
      | inl b =>
        simp only [readFullI] at h
        split at h
        · rename_i bs2 s2 h2
          simp only [Prod.mk.injEq, Except.ok.injEq] at h
          obtain ⟨rfl, rfl⟩ := h
          obtain ⟨h3, h4⟩ := ih s bs2 h2
          rw [h3]; simp [h4]
        · simp at h

theorem copyLimitI_cut (pre : Bytes) (tail : List Item) (ht : Cut tail) (n : Nat)
    (h : pre.length < n) :
    ∃ e s, copyLimitI (pre.map Sum.inl ++ tail) n = ((pre, e), s) ∧ e ≠ some .eof := by
  induction pre generalizing n with
  | nil =>
    cases n with
    | zero => simp at h
    | succ n =>
      rcases ht with rfl | ⟨e, t, rfl⟩
      · exact ⟨none, _, rfl, by simp⟩
      · refine ⟨if e = .eof then none else some e, t, rfl, ?_⟩
        split <;> simp_all
  | cons b pre ih =>
    cases n with
    | zero => simp at h
    | succ n =>
      obtain ⟨e, s, h1, h2⟩ := ih n (by simpa using h)
      simp only [List.map_cons, List.cons_append, copyLimitI, h1]
      exact ⟨_, _, rfl, h2⟩

theorem copyLimitI_inv (s : List Item) (n : Nat) (bs : Bytes) (e : Option Err) (s' : List Item)
    (h : copyLimitI s n = ((bs, e), s')) :
    bs.length ≤ n ∧ e ≠ some .eof ∧ (e = none → bs.length = n → s = bs.map Sum.inl ++ s') := by
  induction n generalizing s bs with
  | zero =>
    cases s <;> simp [copyLimitI] at h <;> obtain ⟨⟨rfl, rfl⟩, rfl⟩ := h <;> simp
  | succ n ih =>
    cases s with
    | nil => simp [copyLimitI] at h; obtain ⟨⟨rfl, rfl⟩, rfl⟩ := h; simp
    | cons i s =>
      cases i with
      | inr e' =>
        simp only [copyLimitI, Prod.mk.injEq] at h; obtain ⟨⟨rfl, rfl⟩, rfl⟩ := h
        simp
      | inl b =>
        cases h2 : copyLimitI s n with
        | mk x s2 =>
          obtain ⟨bs2, e2⟩ := x
          simp only [copyLimitI, h2, Prod.mk.injEq] at h
          obtain ⟨⟨rfl, rfl⟩, rfl⟩ := h
          obtain ⟨h3, h4, h5⟩ := ih s bs2 h2
          refine ⟨by simpa using h3, h4, fun he hl => ?_⟩
          rw [h5 he (by simpa using hl)]; simp

theorem map_inl_injective {as bs : Bytes}
    (h : as.map (Sum.inl (β := Err)) = bs.map Sum.inl) : as = bs := by
  induction as generalizing bs with
  | nil => cases bs <;> simp_all
  | cons a as ih =>
    cases bs with
    | nil => simp at h
    | cons b bs =>
      simp only [List.map_cons, List.cons.injEq, Sum.inl.injEq] at h
      rw [h.1, ih h.2]

theorem readFullI_suffix (s : List Item) (n : Nat) : ∃ c, s = c ++ (readFullI s n).2 := by
  induction n generalizing s with
  | zero => cases s <;> exact ⟨[], by simp [readFullI]⟩
  | succ n ih =>
    cases s with
    | nil => exact ⟨[], by simp [readFullI]⟩
    | cons i s =>
      cases i with
      | inr e => exact ⟨[.inr e], by simp [readFullI]⟩
      | inl b =>
        obtain ⟨c, hc⟩ := ih s
        refine ⟨.inl b :: c, ?_⟩
        simp only [readFullI]
        split <;> rename_i h2 <;> rw [h2] at hc <;> simp [← hc]

theorem copyLimitI_suffix (s : List Item) (n : Nat) : ∃ c, s = c ++ (copyLimitI s n).2 := by
  induction n generalizing s with
  | zero => cases s <;> exact ⟨[], by simp [copyLimitI]⟩
  | succ n ih =>
    cases s with
    | nil => exact ⟨[], by simp [copyLimitI]⟩
    | cons i s =>
      cases i with
      | inr e => exact ⟨[.inr e], by simp [copyLimitI]⟩
      | inl b =>
        obtain ⟨c, hc⟩ := ih s
        exact ⟨.inl b :: c, by simp [copyLimitI, ← hc]⟩

/-- What is left unread is a suffix of the stream. -/
theorem runI_suffix {α : Type} (p : RProg α) (s : List Item) : ∃ c, s = c ++ (runI p s).2 := by
  induction p generalizing s with
  | ret a => exact ⟨[], rfl⟩
  | panic m => exact ⟨[], rfl⟩
  | op o k ih =>
    simp only [runI, Prog.run]
    obtain ⟨c2, h2⟩ := ih (itemInterp o s).1 (itemInterp o s).2
    have : ∃ c1, s = c1 ++ (itemInterp o s).2 := by
      cases o with
      | alloc n => exact ⟨[], rfl⟩
      | readFull n => exact readFullI_suffix s n
      | copyLimit n => exact copyLimitI_suffix s n.toNat
    obtain ⟨c1, h1⟩ := this
    refine ⟨c1 ++ c2, ?_⟩
    rw [List.append_assoc, ← h2]; exact h1

theorem item_split {full bs : Bytes} {rest s1 c : List Item}
    (h1 : full.map Sum.inl ++ rest = bs.map Sum.inl ++ s1) (h2 : s1 = c ++ rest) :
    ∃ full', full = bs ++ full' ∧ s1 = full'.map Sum.inl ++ rest := by
  subst h2
  rw [← List.append_assoc] at h1
  have h3 := List.append_cancel_right h1
  have h4 : full.take bs.length = bs := by
    apply map_inl_injective
    rw [List.map_take, h3, List.take_left' (by simp)]
  refine ⟨full.drop bs.length, ?_, ?_⟩
  · have := List.take_append_drop bs.length full
    rw [h4] at this; exact this.symm
  · rw [List.map_drop, h3, List.drop_left' (by simp)]

theorem prefix_split {pre bs rest : Bytes} (hp : pre <+: bs ++ rest) (hne : pre ≠ bs ++ rest) :
    pre.length < bs.length ∨ ∃ pre', pre = bs ++ pre' ∧ pre' <+: rest ∧ pre' ≠ rest := by
  by_cases hl : pre.length < bs.length
  · exact .inl hl
  · right
    obtain ⟨q, hq⟩ := hp
    have h1 : pre.take bs.length = bs := by
      have := congrArg (List.take bs.length) hq
      rw [List.take_append_of_le_length (by omega), List.take_left' rfl] at this
      exact this
    have h2 : pre = bs ++ pre.drop bs.length := by
      have := List.take_append_drop bs.length pre
      rw [h1] at this; exact this.symm
    refine ⟨pre.drop bs.length, h2, ⟨q, ?_⟩, ?_⟩
    · have := congrArg (List.drop bs.length) hq
      rw [List.drop_append_of_le_length (by omega), List.drop_left' rfl] at this
      exact this
    · intro h3
      rw [h3] at h2
      exact hne h2

/-- If `p` succeeds having consumed exactly `full`, then on every strict prefix of `full` followed
by the end of the stream or a transport error it reports an error. -/
theorem truncated {α : Type} {p : RProg (Except Err α)} (hp : FailStop p) {full : Bytes}
    {rest : List Item} {x : α} (h : runI p (full.map Sum.inl ++ rest) = (.val (.ok x), rest))
    {pre : Bytes} (hpre : pre <+: full) (hne : pre ≠ full) {tail : List Item} (ht : Cut tail) :
    ∃ e s, runI p (pre.map Sum.inl ++ tail) = (.val (.error e), s) := by
  induction p generalizing full pre with
  | ret a =>
    simp only [runI, Prog.run, Prod.mk.injEq] at h
    have : full = [] := by
      have h2 := congrArg List.length h.2
      simp at h2; exact h2
    subst this
    exact absurd (List.prefix_nil.mp hpre) hne
  | panic m => simp [runI, Prog.run] at h
  | op o k ih =>
    cases o with
    | alloc n => exact ih _ (hp _) h hpre hne
    | readFull n =>
      simp only [runI, Prog.run, itemInterp] at h ⊢
      cases hr : readFullI (full.map Sum.inl ++ rest) n with
      | mk r s1 =>
        rw [hr] at h
        cases r with
        | error e =>
          obtain ⟨e', he'⟩ := hp.1 e
          dsimp only at h
          rw [he'] at h; simp [Prog.run] at h
        | ok bs =>
          obtain ⟨h1, h2⟩ := readFullI_ok_inv _ _ _ _ hr
          dsimp only at h
          obtain ⟨c, hc⟩ := runI_suffix (k (.ok bs)) s1
          rw [show runI (k (.ok bs)) s1 = _ from h] at hc
          obtain ⟨full', rfl, rfl⟩ := item_split h1 hc
          rcases prefix_split hpre hne with hlt | ⟨pre', rfl, hpp, hnn⟩
          · obtain ⟨e, s, he⟩ := readFullI_cut pre tail ht n (by omega)
            rw [he]
            obtain ⟨e', he'⟩ := hp.1 e
            dsimp only
            rw [he']
            exact ⟨_, _, rfl⟩
          · rw [map_inl_append, ← h2, readFullI_full]
            exact ih _ (hp.2 bs) h hpp hnn
    | copyLimit n =>
      simp only [runI, Prog.run, itemInterp] at h ⊢
      cases hr : copyLimitI (full.map Sum.inl ++ rest) n.toNat with
      | mk r s1 =>
        rw [hr] at h
        obtain ⟨bs, e⟩ := r
        obtain ⟨h1, h2, h3⟩ := copyLimitI_inv _ _ _ _ _ hr
        dsimp only at h
        cases e with
        | some e =>
          obtain ⟨e', he'⟩ := hp.1 bs e (by simpa using h2)
          rw [he'] at h; simp [Prog.run] at h
        | none =>
          by_cases hl : (bs.length : Int) < n
          · obtain ⟨e', he'⟩ := hp.2.1 bs hl
            rw [he'] at h; simp [Prog.run] at h
          · have h4 : bs.length = n.toNat := by omega
            obtain ⟨c, hc⟩ := runI_suffix (k (bs, none)) s1
            rw [show runI (k (bs, none)) s1 = _ from h] at hc
            obtain ⟨full', rfl, rfl⟩ := item_split (h3 rfl h4) hc
            rcases prefix_split hpre hne with hlt | ⟨pre', rfl, hpp, hnn⟩
            · obtain ⟨e, s, he, hee⟩ := copyLimitI_cut pre tail ht n.toNat (by omega)
              rw [he]
              dsimp only
              cases e with
              | none =>
                obtain ⟨e', he'⟩ := hp.2.1 pre (by omega)
                rw [he']; exact ⟨_, _, rfl⟩
              | some e =>
                obtain ⟨e', he'⟩ := hp.1 pre e (by simpa using hee)
                rw [he']; exact ⟨_, _, rfl⟩
            · rw [map_inl_append, ← h4, copyLimitI_full]
              exact ih _ (hp.2.2 bs) h hpp hnn

theorem FailStop.readField {α : Type} {n : Nat} {w : String} {k : Bytes → RProg (Except Err α)}
    (hk : ∀ bs, FailStop (k bs)) : FailStop (readField n w k) := by
  refine ⟨fun e => ?_, fun bs => hk bs⟩
  cases e <;> exact ⟨_, rfl⟩

theorem FailStop.readOctet {α : Type} {w : String} {k : Byte → RProg (Except Err α)}
    (hk : ∀ b, FailStop (k b)) : FailStop (readOctet w k) := by
  refine ⟨fun bs e he => ?_, fun bs hbs => ?_, fun bs => ?_⟩
  · simp [he]
  · have : bs = [] := by
      apply List.length_eq_zero_iff.mp; omega
    subst this
    exact ⟨_, rfl⟩
  · dsimp only
    split
    · rename_i heq; simp at heq
    · exact trivial
    · exact hk _
    · exact trivial

theorem FailStop.alloc {α : Type} {n : Nat} {k : RProg (Except Err α)} (hk : FailStop k) :
    FailStop (allocThen n k) := fun _ => hk

theorem FailStop.ite {α : Type} {c : Prop} [Decidable c] {p q : RProg (Except Err α)}
    (hp : FailStop p) (hq : FailStop q) : FailStop (if c then p else q) := by
  split
  · exact hp
  · exact hq

theorem FailStop.epub {α : Type} {C : Crypto} {bs : Bytes}
    {k : C.EPub → RProg (Except Err α)} (hk : ∀ pk, FailStop (k pk)) :
    FailStop (parseEPub C bs k) := by
  unfold parseEPub
  split
  · exact trivial
  · exact trivial
  · exact hk _

theorem FailStop.andThen {α β : Type} {p : RProg (Except Err α)}
    {q : α → RProg (Except Err β)} (hp : FailStop p) (hq : ∀ a, FailStop (q a)) :
    FailStop (andThen p q) := by
  unfold Goe2ee.andThen
  induction p with
  | ret a => cases a with
    | ok a => exact hq a
    | error e => exact trivial
  | panic m => exact trivial
  | op o k ih =>
    cases o with
    | alloc m => exact fun r => ih r (hp r)
    | readFull m =>
      refine ⟨fun e => ?_, fun bs => ih _ (hp.2 bs)⟩
      obtain ⟨e', he'⟩ := hp.1 e
      exact ⟨e', by dsimp only; rw [he']; rfl⟩
    | copyLimit m =>
      refine ⟨fun bs e he => ?_, fun bs hb => ?_, fun bs => ih _ (hp.2.2 bs)⟩
      · obtain ⟨e', he'⟩ := hp.1 bs e he
        exact ⟨e', by dsimp only; rw [he']; rfl⟩
      · obtain ⟨e', he'⟩ := hp.2.1 bs hb
        exact ⟨e', by dsimp only; rw [he']; rfl⟩

theorem FailStop.requestCommon : FailStop parseRequestCommon := FailStop.readOctet fun _ => trivial
theorem FailStop.responseCommon : FailStop parseResponseCommon :=
  FailStop.readOctet fun _ => trivial

theorem FailStop.setupRequest (C : Crypto) (c : RequestCommon) : FailStop (parseSetupRequest C c) :=
  .readField fun _ => .readField fun _ => .ite trivial <| .alloc <| .readField fun _ =>
    .epub fun _ => trivial

theorem FailStop.setupResponse (C : Crypto) (c : ResponseCommon) :
    FailStop (parseSetupResponse C c) :=
  .readField fun _ => .ite trivial <| .alloc <| .readField fun _ =>
    .epub fun _ => .readField fun _ => .readField fun _ => .ite trivial <| .alloc <|
    .readField fun _ => trivial

theorem FailStop.processRequest (c : RequestCommon) : FailStop (parseProcessRequest c) :=
  .readOctet fun _ => .readField fun _ => .readField fun _ => .readField fun _ =>
    .ite trivial <| .alloc <| .readField fun _ => trivial

theorem FailStop.processResponse (c : ResponseCommon) : FailStop (parseProcessResponse c) :=
  .readField fun _ => .readField fun _ => .ite trivial <| .alloc <| .readField fun _ => trivial

theorem FailStop.fetchKeyResponse (c : ResponseCommon) : FailStop (parseFetchKeyResponse c) :=
  .readField fun _ => .readField fun _ => .ite trivial <| .alloc <| .readField fun _ => trivial

theorem FailStop.errorResponse (c : ResponseCommon) : FailStop (parseErrorResponse c) := by
  refine .readField fun _ => .readField fun sizeBs => .ite trivial ⟨fun bs e he => ?_,
    fun bs hb => ?_, fun bs => ?_⟩
  · simp [he]
  · dsimp only
    rw [if_pos (by omega)]
    exact ⟨_, rfl⟩
  · dsimp only
    split <;> exact trivial

end Goe2ee
