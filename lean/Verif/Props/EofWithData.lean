import Verif.Model.Reader

/-!
# C11: the end of the stream may come together with the last octets

The contract of `io.Reader` lets a reader return its last octets together with `io.EOF`, or return
`0, io.EOF` by the next call.  `net.TCPConn` does the latter, `tls.Conn` may do the former.  The
parsers see no difference.
-/

set_option autoImplicit false

namespace Goe2ee

/-- A reader over the same deliveries as `readEv` that may report the end of the stream together
with the last octets: after a call that leaves nothing, `eager` decides whether it does. -/
def readEager (eager : List Ev → Nat → Bool) : ReadFn (List Ev) := fun evs k =>
  match readEv evs k with
  | ((bs, none), []) => ((bs, if eager evs k then some .eof else none), [])
  | r => r

/-- A call of `readEager` is one of `readEv`, or adds the end of the stream to the last octets. -/
theorem readEager_cases (eager : List Ev → Nat → Bool) (evs : List Ev) (k : Nat) :
    readEager eager evs k = readEv evs k ∨
      ∃ bs, readEv evs k = ((bs, none), []) ∧ readEager eager evs k = ((bs, some .eof), []) := by
  unfold readEager
  split
  · rename_i bs h
    by_cases he : eager evs k = true
    · right
      exact ⟨bs, h, by simp [he]⟩
    · left
      simp [he, h]
  · left
    rfl

/-- `readEv` without an error returns at least one octet. -/
theorem readEv_progress (evs : List Ev) (k : Nat) (bs : Bytes) (rest : List Ev)
    (h : readEv evs (k + 1) = ((bs, none), rest)) : 1 ≤ bs.length := by
  induction evs with
  | nil => simp [readEv] at h
  | cons e r ih =>
    cases e with
    | fail e => simp [readEv] at h
    | data d =>
      cases d with
      | nil => exact ih (by simpa [readEv] using h)
      | cons b d =>
        simp only [readEv, Prod.mk.injEq] at h
        rw [← h.1.1]
        simp

/-- `io.ReadFull` sees no difference. -/
theorem readFullLoop_eager (eager : List Ev → Nat → Bool) (fuel remaining : Nat)
    (hf : remaining ≤ fuel) (acc : Bytes) (evs : List Ev) :
    readFullLoop (readEager eager) fuel remaining acc evs =
      readFullLoop readEv fuel remaining acc evs := by
  induction fuel generalizing remaining acc evs with
  | zero =>
    obtain rfl : remaining = 0 := by omega
    simp [readFullLoop]
  | succ fuel ih =>
    cases remaining with
    | zero => simp [readFullLoop]
    | succ r =>
      simp only [readFullLoop]
      rcases readEager_cases eager evs (r + 1) with h | ⟨bs, h, h'⟩
      · rw [h]
        rcases hr : readEv evs (r + 1) with ⟨⟨bs, err⟩, rest⟩
        cases err with
        | some e => rfl
        | none =>
          have := readEv_progress evs r bs rest hr
          simp only []
          rw [ih _ (by omega)]
      · rw [h, h']
        have := readEv_progress evs r bs [] h
        simp only []
        by_cases hl : r + 1 ≤ bs.length
        · simp [hl]
        · obtain ⟨q, hq⟩ : ∃ q, r + 1 - bs.length = q + 1 := ⟨r - bs.length, by omega⟩
          obtain ⟨g, rfl⟩ : ∃ g, fuel = g + 1 := ⟨fuel - 1, by omega⟩
          have hb : bs ≠ [] := by
            rintro rfl
            simp at this
          simp [hl, hq, readFullLoop, readEv, hb]

/-- `io.Copy` with a limit sees no difference. -/
theorem copyLoop_eager (eager : List Ev → Nat → Bool) (fuel remaining : Nat)
    (hf : remaining ≤ fuel) (acc : Bytes) (evs : List Ev) :
    copyLoop (readEager eager) fuel remaining acc evs =
      copyLoop readEv fuel remaining acc evs := by
  induction fuel generalizing remaining acc evs with
  | zero =>
    obtain rfl : remaining = 0 := by omega
    simp [copyLoop]
  | succ fuel ih =>
    cases remaining with
    | zero => simp [copyLoop]
    | succ r =>
      simp only [copyLoop]
      rcases readEager_cases eager evs (r + 1) with h | ⟨bs, h, h'⟩
      · rw [h]
        rcases hr : readEv evs (r + 1) with ⟨⟨bs, err⟩, rest⟩
        cases err with
        | some e => cases e <;> rfl
        | none =>
          have := readEv_progress evs r bs rest hr
          simp only []
          rw [ih _ (by omega)]
      · rw [h, h']
        have := readEv_progress evs r bs [] h
        simp only []
        rcases hq : r + 1 - bs.length with _ | q
        · cases fuel <;> simp [copyLoop]
        · obtain ⟨g, rfl⟩ : ∃ g, fuel = g + 1 := ⟨fuel - 1, by omega⟩
          simp [copyLoop, readEv]

/-- C11: a parser returns the same, and leaves the same unread, whether the transport reports the
end of the stream together with the last octets or by a call of its own. -/
theorem C11_end_with_data {α : Type} (eager : List Ev → Nat → Bool) (p : RProg α)
    (evs : List Ev) :
    p.run (readInterp (readEager eager)) evs = p.run (readInterp readEv) evs := by
  have h : readInterp (readEager eager) = readInterp readEv := by
    funext op s
    cases op with
    | alloc n => rfl
    | readFull n => exact readFullLoop_eager eager n n (Nat.le_refl n) [] s
    | copyLimit n => exact copyLoop_eager eager n.toNat n.toNat (Nat.le_refl _) [] s
  rw [h]

/-- The last two octets of a stream come with its end; the copy keeps them. -/
example :
    readEager (fun _ _ => true) [.data [1, 2]] 5 = (([1, 2], some .eof), []) ∧
      copyLimit (readEager fun _ _ => true) 5 [.data [1, 2]] = (([1, 2], none), []) ∧
      copyLimit readEv 5 [.data [1, 2]] = (([1, 2], none), []) := by
  decide +kernel

end Goe2ee
