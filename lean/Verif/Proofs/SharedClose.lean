import Verif.Spec.SharedClose
import Verif.Proofs.SharedOnce
import Verif.Proofs.Handshake

/-!
# Closing a client while other goroutines use it
-/

set_option autoImplicit false

namespace Goe2ee

/-! ## Once the connection is closed -/

/-- What the effects answer once the connection is closed (and, if `empty`, nothing is buffered).  What follows the
end of a call does not matter. -/
def ClosedAnswer (empty : Bool) : (o : CloseOp) → o.Ret → Prop
  | .shared .setReadDeadline, (r : Option Err) => r = some errNetClosed
  | .shared .setWriteDeadline, (r : Option Err) => r = some errNetClosed
  | .shared (.connRead _), (r : Bytes × Option Err) => r = ([], some errNetClosed)
  | .shared (.connWrite _), (r : Nat × Option Err) => r = (0, some errNetClosed)
  | .shared .bufLen, (r : Nat) => empty = true → r = 0
  | .connClose, (r : Option Err) => r = some errNetClosed
  | .ended _ _ _, _ => False
  | _, _ => True

/-- Calls that end do so with an error and without data; nothing is added to the buffer. -/
def CloseOp.failing : CloseOp → Prop
  | .ended _ data err => data = [] ∧ err.isSome = true
  | .shared (.bufWrite _) => False
  | _ => True

/-- With such answers, the call in progress fails. -/
def Doomed (empty : Bool) {α : Type} (Q : α → Prop) : CloseProg α → Prop
  | .ret a => Q a
  | .panic _ => True
  | .op o k => o.failing ∧ ∀ r, ClosedAnswer empty o r → Doomed empty Q (k r)

theorem Doomed.bind {empty : Bool} {α β : Type} {p : CloseProg α} {f : α → CloseProg β} {Q : β → Prop}
    (h : Doomed empty (fun a => Doomed empty Q (f a)) p) : Doomed empty Q (p.bind f) := by
  induction p with
  | ret a => exact h
  | panic m => trivial
  | op o k ih => exact ⟨h.1, fun r hr => ih r (h.2 r hr)⟩

theorem Doomed.mono {empty : Bool} {α : Type} {p : CloseProg α} {Q Q' : α → Prop} (h : Doomed empty Q p)
    (hQ : ∀ a, Q a → Q' a) : Doomed empty Q' p := by
  induction p with
  | ret a => exact hQ _ h
  | panic m => trivial
  | op o k ih => exact ⟨h.1, fun r hr => ih r (h.2 r hr)⟩

theorem onShared_bind {α β : Type} (p : DProg α) (f : α → DProg β) :
    onShared (p.bind f) = (onShared p).bind fun a => onShared (f a) := by
  induction p with
  | ret a => rfl
  | panic m => rfl
  | op o k ih =>
    show Prog.op (S := CloseSig) (CloseOp.shared o) _ = Prog.op (CloseOp.shared o) _
    congr 1
    funext r
    exact ih r

theorem doomed_firstOctet {empty : Bool} {α : Type} {w : String} {k : Byte → RProg (Except Err α)}
    {Q : Except Err α → Prop} (he : ∀ e, Q (.error e)) :
    Doomed empty Q (onShared (onSharedConn (readOctet w k))) := by
  refine ⟨trivial, fun got (hgot : got = ([], some errNetClosed)) => ?_⟩
  subst hgot
  exact he _

section
variable {C : Crypto} {c : Client}

/-- An error without data. -/
def FailedRead (r : Bytes × Option Err) : Prop := r.1 = [] ∧ r.2.isSome = true

theorem doomed_read {empty : Bool} (h : empty = true ∨ c.readTimeout > 0) (n : Nat) :
    Doomed empty FailedRead (onShared (sharedRead C c n)) := by
  rw [sharedRead]
  by_cases ht : c.readTimeout > 0
  · rw [if_pos ht]
    refine ⟨trivial, fun r (hr : r = some errNetClosed) => ?_⟩
    subst hr
    exact ⟨rfl, rfl⟩
  · rw [if_neg ht]
    obtain rfl : empty = true := h.resolve_right ht
    refine ⟨trivial, fun (r : Nat) (hr : true = true → r = 0) => ?_⟩
    rw [hr rfl]
    show Doomed true FailedRead (onShared ((onSharedConn parseResponseCommon).bind _))
    rw [onShared_bind]
    exact Doomed.bind (doomed_firstOctet fun e => ⟨rfl, rfl⟩)

theorem doomed_write {empty : Bool} (p : Bytes) :
    Doomed empty (fun r => r.2.isSome = true) (onShared (sharedWrite C c p)) := by
  rw [sharedWrite]
  by_cases ht : c.writeTimeout > 0
  · rw [if_pos ht]
    refine ⟨trivial, fun r (hr : r = some errNetClosed) => ?_⟩
    subst hr
    rfl
  · rw [if_neg ht]
    show Doomed empty _ (onShared (match c.session with | none => _ | some session => _))
    split
    · trivial
    · split
      · rfl
      · refine ⟨trivial, fun (counter : BitVec 64) _ => ?_⟩
        show Doomed empty _ (onShared (if counter = 0 then _ else _))
        split
        · rfl
        · refine ⟨trivial, fun _ _ => ?_⟩
          show Doomed empty _ (onShared ((ofSharedRes _).bind _))
          rw [show gcmNonceSize = 12 from rfl, C12_nonce_layout]
          refine ⟨trivial, fun sealed _ => ⟨trivial, fun r (hr : r = (0, some errNetClosed)) => ?_⟩⟩
          subst hr
          rfl

theorem doomed_close {empty : Bool} : Doomed empty (fun r => r.isSome = true) sharedClose := by
  refine ⟨trivial, fun r (hr : r = some errNetClosed) => ?_⟩
  subst hr
  rfl

end

/-! ## The last event of a goroutine -/

/-- The last event of goroutine `i`. -/
def lastOf (i : Nat) (log : List HEvent) : Option HEvent := (log.filter fun ev => ev.who = i).getLast?

theorem lastOf_append (i : Nat) (a b : List HEvent) : lastOf i (a ++ b) = (lastOf i b).or (lastOf i a) := by
  rw [lastOf, List.filter_append, List.getLast?_append]
  rfl

theorem lastOf_cons (i : Nat) (ev : HEvent) (b : List HEvent) :
    lastOf i (ev :: b) = (lastOf i b).or (if ev.who = i then some ev else none) := by
  rw [show ev :: b = [ev] ++ b from rfl, lastOf_append]
  congr 1
  by_cases h : ev.who = i <;> simp [lastOf, h]

theorem lastOf_none {i : Nat} {log : List HEvent} : lastOf i log = none ↔ ∀ ev ∈ log, ev.who ≠ i := by
  simp [lastOf, List.getLast?_eq_none_iff, List.filter_eq_nil_iff]

theorem lastOf_some {i : Nat} {log : List HEvent} {ev : HEvent} :
    lastOf i log = some ev ↔ ev.who = i ∧ ∃ x y, log = x ++ ev :: y ∧ ∀ e ∈ y, e.who ≠ i := by
  constructor
  · intro h
    induction log with
    | nil => cases h
    | cons a log ih =>
      rw [lastOf_cons] at h
      cases hl : lastOf i log with
      | some e =>
        rw [hl] at h
        cases h
        obtain ⟨h1, x, y, rfl, h2⟩ := ih hl
        exact ⟨h1, a :: x, y, rfl, h2⟩
      | none =>
        rw [hl] at h
        by_cases ha : a.who = i
        · rw [if_pos ha] at h
          cases h
          exact ⟨ha, [], log, rfl, lastOf_none.mp hl⟩
        · rw [if_neg ha] at h
          cases h
  · rintro ⟨h1, x, y, rfl, h2⟩
    rw [lastOf_append, lastOf_cons, lastOf_none.mpr h2, if_pos h1]
    rfl

theorem readOpen_iff {log : List HEvent} {i : Nat} :
    ReadOpen log i ↔ ∃ n, lastOf i log = some (.called i (.read n)) := by
  constructor
  · rintro ⟨n, x, y, h, hy⟩
    exact ⟨n, lastOf_some.mpr ⟨rfl, x, y, h, hy⟩⟩
  · rintro ⟨n, h⟩
    obtain ⟨-, x, y, h, hy⟩ := lastOf_some.mp h
    exact ⟨n, x, y, h, hy⟩

/-- Appending an event: where the event at a position in the middle is. -/
theorem append_one {log x y : List HEvent} {ev e : HEvent} (h : log ++ [ev] = x ++ e :: y) :
    (y = [] ∧ x = log ∧ e = ev) ∨ ∃ y', y = y' ++ [ev] ∧ log = x ++ e :: y' := by
  rcases List.eq_nil_or_concat y with rfl | ⟨y', a, rfl⟩
  · left
    obtain ⟨h1, h2⟩ := List.append_inj' h rfl
    exact ⟨rfl, h1.symm, (by cases h2; rfl)⟩
  · right
    have h' : log ++ [ev] = (x ++ e :: y') ++ [a] := by simpa using h
    obtain ⟨h1, h2⟩ := List.append_inj' h' rfl
    cases h2
    exact ⟨y', List.concat_eq_append, h1⟩

/-- No call of `Read` is in progress after `x`, nor begins in `y`. -/
def CalmIn (x y : List HEvent) : Prop := (∀ i, ¬ ReadOpen x i) ∧ ∀ i n, .called i (.read n) ∉ y

/-- The last event of `i` in `z` is the beginning of a call. -/
def OpenIn (z : List HEvent) (i : Nat) : Prop := ∃ call, lastOf i z = some (.called i call)

theorem CalmIn.not_open {x y : List HEvent} {j : Nat} (h : CalmIn x y) (i : Nat) :
    ¬ ReadOpen (x ++ .called j .close :: y) i := by
  intro ho
  obtain ⟨n, hn⟩ := readOpen_iff.mp ho
  rw [lastOf_append, lastOf_cons] at hn
  cases hy : lastOf i y with
  | some e =>
    rw [hy] at hn
    cases hn
    obtain ⟨-, u, v, rfl, -⟩ := lastOf_some.mp hy
    exact h.2 i n (by simp)
  | none =>
    rw [hy] at hn
    by_cases hj : j = i
    · subst hj
      simp [HEvent.who] at hn
    · rw [if_neg (show ¬ (HEvent.called j .close).who = i from hj)] at hn
      exact h.1 i (readOpen_iff.mpr ⟨n, hn⟩)

theorem CalmIn.open_in {x y z : List HEvent} {j : Nat} {d : Bytes} {err : Option Err} (h : CalmIn x y) {i : Nat}
    (ho : ReadOpen (x ++ .called j .close :: (y ++ .ended j .close d err :: z)) i) : OpenIn z i := by
  obtain ⟨n, hn⟩ := readOpen_iff.mp ho
  rw [show x ++ HEvent.called j .close :: (y ++ HEvent.ended j .close d err :: z) =
    (x ++ HEvent.called j .close :: y) ++ HEvent.ended j .close d err :: z by simp, lastOf_append, lastOf_cons] at hn
  cases hz : lastOf i z with
  | some e =>
    rw [hz] at hn
    cases hn
    exact ⟨_, hz⟩
  | none =>
    rw [hz] at hn
    by_cases hj : j = i
    · subst hj
      simp [HEvent.who] at hn
    · rw [if_neg (show ¬ (HEvent.ended j .close d err).who = i from hj)] at hn
      exact absurd (readOpen_iff.mpr ⟨n, hn⟩) (h.not_open i)

/-! ## Conditions on programs -/

/-- Nothing bad happens before the program stops to matter. -/
def Until (stop bad : CloseOp → Prop) {α : Type} : CloseProg α → Prop
  | .ret _ => True
  | .panic _ => True
  | .op o k => stop o ∨ (¬ bad o ∧ ∀ r, Until stop bad (k r))

theorem Until.shared {stop bad : CloseOp → Prop} {α β : Type} {p : DProg α} {f : α → CloseProg β} {P : DOp → Prop}
    (hp : Uses (S := DSig) P p) (hb : ∀ o, P o → ¬ bad (.shared o)) (hf : ∀ a, Until stop bad (f a)) :
    Until stop bad ((onShared p).bind f) := by
  induction p with
  | ret a => exact hf a
  | panic m => trivial
  | op o k ih => exact .inr ⟨hb o hp.1, fun r => ih r (hp.2 r)⟩

/-- Nothing is added to the buffer before `Read` is called. -/
abbrev QuietBuf : CloseProg (List SCall) → Prop :=
  Until (fun o => ∃ n, o = .called (.read n)) fun o => ∃ bs, o = .shared (.bufWrite bs)

/-- Before the connection is closed, the buffer is not reset and no `Close` returns. -/
abbrev Virgin : CloseProg (List SCall) → Prop :=
  Until (fun o => o = .connClose) fun o => o = .bufReset ∨ ∃ d err, o = .ended .close d err

/-- Before the buffer is reset, no `Close` succeeds. -/
abbrev Unreset : CloseProg (List SCall) → Prop :=
  Until (fun o => o = .bufReset) fun o => ∃ d, o = .ended .close d none

/-- `P` holds wherever the program is. -/
def Always {α : Type} (P : (o : CloseOp) → (o.Ret → CloseProg α) → Prop) : CloseProg α → Prop
  | .ret _ => True
  | .panic _ => True
  | .op o k => P o k ∧ ∀ r, Always P (k r)

theorem Always.shared {α β : Type} {P : (o : CloseOp) → (o.Ret → CloseProg β) → Prop} {p : DProg α} {f : α → CloseProg β}
    (hP : ∀ o k, P (.shared o) k) (hf : ∀ a, Always P (f a)) : Always P ((onShared p).bind f) := by
  induction p with
  | ret a => exact hf a
  | panic m => trivial
  | op o k ih => exact ⟨hP _ _, fun r => ih r⟩

/-- Calls that fail after `Close`, whatever the buffer holds. -/
def FailsLate (c : Client) : SCall → Prop
  | .read _ => c.readTimeout > 0
  | _ => True

/-- How calls begin and end. -/
def nodeOK (c : Client) : (o : CloseOp) → (o.Ret → CloseProg (List SCall)) → Prop
  | .called call, k =>
    (FailsLate c call → Doomed false (fun _ => False) (k ())) ∧ Doomed true (fun _ => False) (k ()) ∧
    ((∀ n, call ≠ .read n) → QuietBuf (k ())) ∧ (call = .close → Unreset (k ()))
  | .ended _ _ _, k => QuietBuf (k ())
  | _, _ => True

section
variable {C : Crypto} {c : Client}

/-- Everything but adding to the buffer. -/
def DOp.noBufWrite : DOp → Prop
  | .bufWrite _ => False
  | _ => True

theorem noBufWrite_write (p : Bytes) : Uses (S := DSig) DOp.noBufWrite (sharedWrite C c p) := by
  rw [sharedWrite]
  refine Uses.bind ?_ fun r => ?_
  · split
    · exact ⟨trivial, fun _ => trivial⟩
    · trivial
  · cases r with
    | some e => trivial
    | none =>
      show Uses _ (match c.session with | none => _ | some session => _)
      split
      · trivial
      · split
        · trivial
        · refine ⟨trivial, fun (counter : BitVec 64) => ?_⟩
          show Uses _ (if counter = 0 then _ else _)
          split
          · trivial
          · refine ⟨trivial, fun _ => ?_⟩
            rw [show gcmNonceSize = 12 from rfl, C12_nonce_layout]
            exact ⟨trivial, fun _ => ⟨trivial, fun _ => trivial⟩⟩

theorem uses_true {S : Sig} {α : Type} (p : Prog S α) : Uses (fun _ => True) p := by
  induction p with
  | ret a => trivial
  | panic m => trivial
  | op o k ih => exact ⟨trivial, ih⟩

theorem nodes_calls (l : List SCall) : Always (nodeOK c) (closingCalls C c l) := by
  match l with
  | [] => trivial
  | .read n :: rest =>
    refine ⟨⟨fun h => ?_, ?_, fun h => absurd rfl (h n), fun h => by cases h⟩, fun _ => ?_⟩
    · exact Doomed.bind (Doomed.mono (doomed_read (.inr h) n) fun r hr => ⟨hr, fun _ h => h.elim⟩)
    · exact Doomed.bind (Doomed.mono (doomed_read (.inl rfl) n) fun r hr => ⟨hr, fun _ h => h.elim⟩)
    · exact Always.shared (fun _ _ => trivial) fun _ => ⟨trivial, fun _ => trivial⟩
  | .write p :: rest =>
    refine ⟨⟨fun h => ?_, ?_, fun h => ?_, fun h => by cases h⟩, fun _ => ?_⟩
    · exact Doomed.bind (Doomed.mono (doomed_write p) fun r hr => ⟨⟨rfl, hr⟩, fun _ h => h.elim⟩)
    · exact Doomed.bind (Doomed.mono (doomed_write p) fun r hr => ⟨⟨rfl, hr⟩, fun _ h => h.elim⟩)
    · refine Until.shared (noBufWrite_write p) ?_ fun _ => .inr ⟨?_, fun _ => trivial⟩
      · rintro o ho ⟨bs, hb⟩
        cases hb
        exact ho
      · rintro ⟨bs, hb⟩
        cases hb
    · exact Always.shared (fun _ _ => trivial) fun _ => ⟨trivial, fun _ => trivial⟩
  | .close :: rest =>
    refine ⟨⟨fun h => ?_, ?_, fun h => ?_, fun h => ?_⟩, fun _ => ?_⟩
    · exact Doomed.bind (Doomed.mono doomed_close fun r hr => ⟨⟨rfl, hr⟩, fun _ h => h.elim⟩)
    · exact Doomed.bind (Doomed.mono doomed_close fun r hr => ⟨⟨rfl, hr⟩, fun _ h => h.elim⟩)
    · refine .inr ⟨?_, fun (r : Option Err) => ?_⟩
      · rintro ⟨bs, hb⟩; cases hb
      · cases r with
        | some e => exact .inr ⟨(by rintro ⟨bs, hb⟩; cases hb), fun _ => trivial⟩
        | none =>
          refine .inr ⟨(by rintro ⟨bs, hb⟩; cases hb), fun _ => ?_⟩
          exact .inr ⟨(by rintro ⟨bs, hb⟩; cases hb), fun _ => trivial⟩
    · refine .inr ⟨?_, fun (r : Option Err) => ?_⟩
      · rintro ⟨bs, hb⟩; cases hb
      · cases r with
        | some e => exact .inr ⟨(by rintro ⟨bs, hb⟩; cases hb), fun _ => trivial⟩
        | none => exact .inl rfl
    · refine ⟨trivial, fun (r : Option Err) => ?_⟩
      cases r with
      | some e => exact ⟨trivial, fun _ => trivial⟩
      | none => exact ⟨trivial, fun _ => ⟨trivial, fun _ => trivial⟩⟩

theorem quiet_calls (l : List SCall) : QuietBuf (closingCalls C c l) := by
  match l with
  | [] => trivial
  | .read n :: rest => exact .inl ⟨n, rfl⟩
  | .write p :: rest =>
    exact .inr ⟨(by rintro ⟨bs, hb⟩; cases hb), fun _ => (nodes_calls (C := C) (c := c) (.write p :: rest)).1.2.2.1
      (fun n h => by cases h)⟩
  | .close :: rest =>
    exact .inr ⟨(by rintro ⟨bs, hb⟩; cases hb), fun _ => (nodes_calls (C := C) (c := c) (.close :: rest)).1.2.2.1
      (fun n h => by cases h)⟩

theorem virgin_calls (l : List SCall) : Virgin (closingCalls C c l) := by
  match l with
  | [] => trivial
  | .read n :: rest =>
    refine .inr ⟨(by rintro (hb | ⟨d, err, hb⟩) <;> cases hb), fun _ => ?_⟩
    refine Until.shared (uses_true _) (fun o _ => by rintro (hb | ⟨d, err, hb⟩) <;> cases hb) fun _ => ?_
    exact .inr ⟨(by rintro (hb | ⟨d, err, hb⟩) <;> cases hb), fun _ => trivial⟩
  | .write p :: rest =>
    refine .inr ⟨(by rintro (hb | ⟨d, err, hb⟩) <;> cases hb), fun _ => ?_⟩
    refine Until.shared (uses_true _) (fun o _ => by rintro (hb | ⟨d, err, hb⟩) <;> cases hb) fun _ => ?_
    exact .inr ⟨(by rintro (hb | ⟨d, err, hb⟩) <;> cases hb), fun _ => trivial⟩
  | .close :: rest =>
    refine .inr ⟨(by rintro (hb | ⟨d, err, hb⟩) <;> cases hb), fun _ => .inl rfl⟩

theorem fresh_calls (l : List SCall) : Unreset (closingCalls C c l) := by
  match l with
  | [] => trivial
  | .read n :: rest =>
    refine .inr ⟨(by rintro ⟨d, hb⟩; cases hb), fun _ => ?_⟩
    refine Until.shared (uses_true _) (fun o _ => by rintro ⟨d, hb⟩; cases hb) fun _ => ?_
    exact .inr ⟨(by rintro ⟨d, hb⟩; cases hb), fun _ => trivial⟩
  | .write p :: rest =>
    refine .inr ⟨(by rintro ⟨d, hb⟩; cases hb), fun _ => ?_⟩
    refine Until.shared (uses_true _) (fun o _ => by rintro ⟨d, hb⟩; cases hb) fun _ => ?_
    exact .inr ⟨(by rintro ⟨d, hb⟩; cases hb), fun _ => trivial⟩
  | .close :: rest =>
    exact .inr ⟨(by rintro ⟨d, hb⟩; cases hb), fun _ => (nodes_calls (C := C) (c := c) (.close :: rest)).1.2.2.2 rfl⟩

/-! ## Effects -/

theorem hexec_shared {e : HEnv} {i : Nat} {o : DOp} {w w' : HWorld} {r : o.Ret}
    (h : hexec C e i (.shared o) w = some (r, w')) :
    w'.log = w.log ∧ w'.closed = w.closed ∧
    ((∀ bs, o ≠ .bufWrite bs) → w.client.buffer = [] → w'.client.buffer = []) := by
  cases o with
  | setReadDeadline =>
    simp only [hexec, dexec, Option.map_some] at h
    split at h <;> cases h <;> exact ⟨rfl, rfl, fun _ h => h⟩
  | setWriteDeadline =>
    simp only [hexec, dexec, Option.map_some] at h
    split at h <;> cases h <;> exact ⟨rfl, rfl, fun _ h => h⟩
  | connRead k =>
    simp only [hexec, dexec] at h
    split at h
    · cases h; exact ⟨rfl, rfl, fun _ h => h⟩
    · split at h <;> cases h
      exact ⟨rfl, rfl, fun _ h => h⟩
  | connWrite bs =>
    simp only [hexec, dexec, Option.map_some] at h
    split at h
    · cases h; exact ⟨rfl, rfl, fun _ h => h⟩
    · split at h <;> cases h
      exact ⟨rfl, rfl, fun _ h => h⟩
  | bufWrite bs =>
    simp only [hexec, dexec, Option.map_some] at h
    cases h
    exact ⟨rfl, rfl, fun h => absurd rfl (h bs)⟩
  | bufRead n =>
    simp only [hexec, dexec, Option.map_some] at h
    cases h
    refine ⟨rfl, rfl, fun _ h => ?_⟩
    simp only [takeBuffer]
    split
    · exact h
    · simp [h]
  | _ =>
    simp only [hexec, dexec, Option.map_some] at h
    cases h
    exact ⟨rfl, rfl, fun _ h => h⟩

theorem hexec_answer {empty : Bool} {e : HEnv} {i : Nat} {o : CloseOp} {w w' : HWorld} {r : o.Ret}
    (h : hexec C e i o w = some (r, w')) (hc : w.closed = true) (he : empty = true → w.client.buffer = [])
    (ho : ∀ call d err, o ≠ .ended call d err) : ClosedAnswer empty o r := by
  cases o with
  | ended call d err => exact absurd rfl (ho _ _ _)
  | called call => trivial
  | bufReset => trivial
  | connClose =>
    simp only [hexec, hc, if_true] at h
    cases h
    rfl
  | shared o =>
    cases o with
    | setReadDeadline => simp only [hexec, hc, if_true] at h; cases h; rfl
    | setWriteDeadline => simp only [hexec, hc, if_true] at h; cases h; rfl
    | connRead k => simp only [hexec, hc, if_true] at h; cases h; rfl
    | connWrite bs => simp only [hexec, hc, if_true] at h; cases h; rfl
    | bufLen =>
      simp only [hexec, dexec, Option.map_some] at h
      cases h
      intro hemp
      simp [he hemp]
    | _ => trivial

/-- A closed connection lets nobody wait. -/
theorem hexec_moves (e : HEnv) (i : Nat) (o : CloseOp) {w : HWorld} (hc : w.closed = true) :
    ∃ r w', hexec C e i o w = some (r, w') := by
  cases o with
  | shared o => cases o <;> simp only [hexec, dexec, hc, if_true, Option.map_some] <;> exact ⟨_, _, rfl⟩
  | _ => simp only [hexec, hc, if_true] <;> exact ⟨_, _, rfl⟩

/-! ## The invariant -/

/-- A call that fails after `Close` is in progress and began after `Close` had returned. -/
def LateOpen (c : Client) (log : List HEvent) (i : Nat) : Prop :=
  ∃ call x y, FailsLate c call ∧ log = x ++ .called i call :: y ∧ (∀ ev ∈ y, ev.who ≠ i) ∧
    ∃ j d, .ended j .close d none ∈ x

structure ShutInv (c : Client) (s : HSys) : Prop where
  nodes : ∀ (i : Nat) (p : CloseProg (List SCall)), s.threads[i]? = some p → Always (nodeOK c) p
  virgin : s.world.closed = false → ∀ (i : Nat) (p : CloseProg (List SCall)), s.threads[i]? = some p → Virgin p
  shut : ∀ j d err, .ended j .close d err ∈ s.world.log → s.world.closed = true
  late : ∀ (i : Nat) (p : CloseProg (List SCall)), s.threads[i]? = some p → LateOpen c s.world.log i →
    Doomed false (fun _ => False) p
  ends : ∀ i call data err, FailsLate c call → LateCall s.world.log i call data err → data = [] ∧ err.isSome = true
  quiet : ∀ (i : Nat) (p : CloseProg (List SCall)), s.threads[i]? = some p → ¬ ReadOpen s.world.log i → QuietBuf p
  closing : ∀ x y j (p : CloseProg (List SCall)), s.world.log = x ++ .called j .close :: y → (∀ ev ∈ y, ev.who ≠ j) →
    CalmIn x y → s.threads[j]? = some p → Unreset p ∨ (s.world.closed = true ∧ s.world.client.buffer = [])
  calm : ∀ x y z j d, s.world.log = x ++ .called j .close :: (y ++ .ended j .close d none :: z) →
    (∀ ev ∈ y, ev.who ≠ j) → CalmIn x y → s.world.closed = true ∧ s.world.client.buffer = [] ∧
    ∀ (i : Nat) (p : CloseProg (List SCall)), s.threads[i]? = some p → OpenIn z i → Doomed true (fun _ => False) p
  calmEnds : ∀ i call data err, LateCallCalm s.world.log i call data err → data = [] ∧ err.isSome = true

theorem set_some {α : Type} {l : List α} {i j : Nat} {a b : α} (h : (l.set i a)[j]? = some b) :
    (i = j ∧ b = a) ∨ (i ≠ j ∧ l[j]? = some b) := by
  by_cases hij : i = j
  · subst hij
    have hlt : i < l.length := by
      have := (List.getElem?_eq_some_iff.mp h).1
      simpa using this
    rw [List.getElem?_set_self hlt] at h
    cases h
    exact .inl ⟨rfl, rfl⟩
  · rw [List.getElem?_set_ne hij] at h
    exact .inr ⟨hij, h⟩

/-- A step that is not seen from outside. -/
theorem ShutInv.silent {s : HSys} (h : ShutInv c s) {i : Nat} {p p' : CloseProg (List SCall)} {w' : HWorld}
    (hp : s.threads[i]? = some p) (hlog : w'.log = s.world.log)
    (hclosed : s.world.closed = true → w'.closed = true) (hnodes : Always (nodeOK c) p')
    (hvirgin : w'.closed = false → Virgin p')
    (hlate : s.world.closed = true → Doomed false (fun _ => False) p → Doomed false (fun _ => False) p')
    (hquiet : QuietBuf p → QuietBuf p')
    (hfresh : Unreset p → Unreset p' ∨ (w'.closed = true ∧ w'.client.buffer = []))
    (hbuf : QuietBuf p ∨ Doomed true (fun _ => False) p → s.world.client.buffer = [] → w'.client.buffer = [])
    (hdoom : s.world.closed = true → s.world.client.buffer = [] → Doomed true (fun _ => False) p →
      Doomed true (fun _ => False) p') :
    ShutInv c { world := w', threads := s.threads.set i p' } where
  nodes j q hq := by
    rcases set_some hq with ⟨rfl, rfl⟩ | ⟨-, hq⟩
    · exact hnodes
    · exact h.nodes j q hq
  virgin hc j q hq := by
    rcases set_some hq with ⟨rfl, rfl⟩ | ⟨-, hq⟩
    · exact hvirgin hc
    · refine h.virgin ?_ j q hq
      cases hs : s.world.closed with
      | false => rfl
      | true => exact absurd (hclosed hs) (by rw [show w'.closed = false from hc]; decide)
  shut j d err hm := hclosed (h.shut j d err (by rw [← hlog]; exact hm))
  late j q hq hl := by
    have hl' : LateOpen c s.world.log j := by rw [← hlog]; exact hl
    rcases set_some hq with ⟨rfl, rfl⟩ | ⟨-, hq⟩
    · have hc : s.world.closed = true := by
        obtain ⟨call, x, y, -, hxy, -, k, d, hk⟩ := hl'
        exact h.shut k d _ (by rw [hxy]; exact List.mem_append_left _ hk)
      exact hlate hc (h.late _ _ hp hl')
    · exact h.late j q hq hl'
  ends := by rw [show (Loops.mk w' _ : HSys).world.log = s.world.log from hlog]; exact h.ends
  quiet j q hq ho := by
    have ho' : ¬ ReadOpen s.world.log j := by rw [← hlog]; exact ho
    rcases set_some hq with ⟨rfl, rfl⟩ | ⟨-, hq⟩
    · exact hquiet (h.quiet _ _ hp ho')
    · exact h.quiet j q hq ho'
  closing x y j q hxy hy hcalm hq := by
    have hxy' : s.world.log = x ++ .called j .close :: y := by rw [← hlog]; exact hxy
    have hb : s.world.client.buffer = [] → w'.client.buffer = [] := by
      refine hbuf (.inl (h.quiet i p hp ?_))
      rw [hxy']
      exact hcalm.not_open i
    rcases set_some hq with ⟨rfl, rfl⟩ | ⟨-, hq⟩
    · rcases h.closing x y _ p hxy' hy hcalm hp with hf | hcb
      · exact hfresh hf
      · exact .inr ⟨hclosed hcb.1, hb hcb.2⟩
    · rcases h.closing x y j q hxy' hy hcalm hq with hf | hcb
      · exact .inl hf
      · exact .inr ⟨hclosed hcb.1, hb hcb.2⟩
  calm x y z j d hxy hy hcalm := by
    have hxy' : s.world.log = x ++ .called j .close :: (y ++ .ended j .close d none :: z) := by rw [← hlog]; exact hxy
    obtain ⟨hc, hb, hd⟩ := h.calm x y z j d hxy' hy hcalm
    refine ⟨hclosed hc, hbuf ?_ hb, fun k q hq ho => ?_⟩
    · by_cases hr : ReadOpen s.world.log i
      · exact .inr (hd i p hp (hcalm.open_in (by rw [← hxy']; exact hr)))
      · exact .inl (h.quiet i p hp hr)
    · rcases set_some hq with ⟨rfl, rfl⟩ | ⟨-, hq⟩
      · exact hdoom hc hb (hd _ _ hp ho)
      · exact hd k q hq ho
  calmEnds := by rw [show (Loops.mk w' _ : HSys).world.log = s.world.log from hlog]; exact h.calmEnds

theorem lastOf_other {i : Nat} {log : List HEvent} {ev : HEvent} (h : ev.who ≠ i) :
    lastOf i (log ++ [ev]) = lastOf i log := by
  rw [lastOf_append, lastOf_cons, if_neg h]
  rfl

theorem readOpen_other {i : Nat} {log : List HEvent} {ev : HEvent} (h : ev.who ≠ i) :
    ReadOpen (log ++ [ev]) i ↔ ReadOpen log i := by
  rw [readOpen_iff, readOpen_iff, lastOf_other h]

theorem not_mem_append_one {P : HEvent → Prop} {y : List HEvent} {ev : HEvent} (h : ∀ e ∈ y ++ [ev], P e) :
    (∀ e ∈ y, P e) ∧ P ev :=
  ⟨fun e he => h e (List.mem_append_left _ he), h ev (by simp)⟩

/-- A call begins. -/
theorem ShutInv.begins {s : HSys} (h : ShutInv c s) {i : Nat} {call : SCall} {k : Unit → CloseProg (List SCall)}
    (hp : s.threads[i]? = some (.op (.called call) k)) :
    ShutInv c { world := { s.world with log := s.world.log ++ [.called i call] }, threads := s.threads.set i (k ()) } := by
  have hn := h.nodes i _ hp
  refine ⟨fun j q hq => ?_, fun hc j q hq => ?_, fun j d err'' hm => ?_, fun j q hq hl => ?_, fun j call' data err hf hl => ?_,
    fun j q hq ho => ?_, fun x y j q hxy hy hcalm hq => ?_, fun x y z j d hxy hy hcalm => ?_,
    fun j call' data err hl => ?_⟩
  · rcases set_some hq with ⟨rfl, rfl⟩ | ⟨-, hq⟩
    · exact hn.2 ()
    · exact h.nodes j q hq
  · rcases set_some hq with ⟨rfl, rfl⟩ | ⟨-, hq⟩
    · rcases h.virgin hc _ _ hp with hv | hv
      · cases hv
      · exact hv.2 ()
    · exact h.virgin hc j q hq
  · refine h.shut j d err'' ?_
    rcases List.mem_append.mp hm with hm | hm
    · exact hm
    · simp at hm
  · obtain ⟨call', x, y, hf, hxy, hy, hx⟩ := hl
    rcases append_one hxy with ⟨rfl, rfl, he⟩ | ⟨y', rfl, hlog⟩
    · cases he
      rcases set_some hq with ⟨-, rfl⟩ | ⟨hij, -⟩
      · exact hn.1.1 hf
      · exact absurd rfl hij
    · obtain ⟨hy, hij⟩ := not_mem_append_one (P := fun e => e.who ≠ j) hy
      rcases set_some hq with ⟨rfl, -⟩ | ⟨-, hq⟩
      · exact absurd rfl hij
      · exact h.late j q hq ⟨call', x, y', hf, hlog, hy, hx⟩
  · obtain ⟨x, y, z, hxyz, hy, hx⟩ := hl
    rcases append_one (x := x ++ .called j call' :: y) (y := z) (e := .ended j call' data err) (by simpa using hxyz)
      with ⟨-, -, he⟩ | ⟨z', rfl, hlog⟩
    · cases he
    · exact h.ends j call' data err hf ⟨x, y, z', by simpa using hlog, hy, hx⟩
  · rcases set_some hq with ⟨rfl, rfl⟩ | ⟨hij, hq⟩
    · refine hn.1.2.2.1 fun n hn' => ho ?_
      subst hn'
      exact readOpen_iff.mpr ⟨n, lastOf_some.mpr ⟨rfl, s.world.log, [], rfl, fun _ h => by cases h⟩⟩
    · exact h.quiet j q hq fun hr => ho ((readOpen_other (ev := .called i call) hij).mpr hr)
  · rcases append_one hxy with ⟨rfl, rfl, he⟩ | ⟨y', rfl, hlog⟩
    · cases he
      rcases set_some hq with ⟨-, rfl⟩ | ⟨hij, -⟩
      · exact .inl (hn.1.2.2.2 rfl)
      · exact absurd rfl hij
    · obtain ⟨hy, hij⟩ := not_mem_append_one (P := fun e => e.who ≠ j) hy
      rcases set_some hq with ⟨rfl, -⟩ | ⟨-, hq⟩
      · exact absurd rfl hij
      · exact h.closing x y' j q hlog hy ⟨hcalm.1, fun i n hm => hcalm.2 i n (List.mem_append_left _ hm)⟩ hq
  · rcases append_one (x := x ++ .called j .close :: y) (y := z) (e := .ended j .close d none) (by simpa using hxy)
      with ⟨-, -, he⟩ | ⟨z', rfl, hlog⟩
    · cases he
    · obtain ⟨hc, hb, hd⟩ := h.calm x y z' j d (by simpa using hlog) hy hcalm
      refine ⟨hc, hb, fun l q hq ho => ?_⟩
      rcases set_some hq with ⟨rfl, rfl⟩ | ⟨hij, hq⟩
      · exact hn.1.2.1
      · refine hd l q hq ?_
        obtain ⟨call', hl⟩ := ho
        exact ⟨call', by rwa [lastOf_other (ev := .called i call) hij] at hl⟩
  · obtain ⟨before, during, after, j', d, hfull, h1, h2, h3, x, y, z, rfl, hy⟩ := hl
    rcases append_one (x := before ++ .called j' .close :: (during ++ .ended j' .close d none :: (x ++ .called j call' :: y)))
      (y := z) (e := .ended j call' data err) (by simpa using hfull) with ⟨-, -, he⟩ | ⟨z', rfl, hlog⟩
    · cases he
    · exact h.calmEnds j call' data err ⟨before, during, _, j', d, by simpa using hlog, h1, h2, h3, x, y, z', rfl, hy⟩

/-- A call ends. -/
theorem ShutInv.finishes {s : HSys} (h : ShutInv c s) {i : Nat} {call : SCall} {data : Bytes} {err : Option Err}
    {k : Unit → CloseProg (List SCall)} (hp : s.threads[i]? = some (.op (.ended call data err) k)) :
    ShutInv c { world := { s.world with log := s.world.log ++ [.ended i call data err] },
                 threads := s.threads.set i (k ()) } := by
  have hn := h.nodes i _ hp
  refine ⟨fun j q hq => ?_, fun hc j q hq => ?_, fun j d err'' hm => ?_, fun j q hq hl => ?_, fun j call' data' err' hf hl => ?_,
    fun j q hq ho => ?_, fun x y j q hxy hy hcalm hq => ?_, fun x y z j d hxy hy hcalm => ?_,
    fun j call' data' err' hl => ?_⟩
  · rcases set_some hq with ⟨rfl, rfl⟩ | ⟨-, hq⟩
    · exact hn.2 ()
    · exact h.nodes j q hq
  · rcases set_some hq with ⟨rfl, rfl⟩ | ⟨-, hq⟩
    · rcases h.virgin hc _ _ hp with hv | hv
      · cases hv
      · exact hv.2 ()
    · exact h.virgin hc j q hq
  · rcases List.mem_append.mp hm with hm | hm
    · exact h.shut j d err'' hm
    · rw [List.mem_singleton] at hm
      cases hm
      cases hc : s.world.closed with
      | true => rfl
      | false =>
        rcases h.virgin hc _ _ hp with hv | hv
        · cases hv
        · exact absurd (.inr ⟨_, _, rfl⟩) hv.1
  · obtain ⟨call', x, y, hf, hxy, hy, hx⟩ := hl
    rcases append_one hxy with ⟨rfl, rfl, he⟩ | ⟨y', rfl, hlog⟩
    · cases he
    · obtain ⟨hy, hij⟩ := not_mem_append_one (P := fun e => e.who ≠ j) hy
      rcases set_some hq with ⟨rfl, -⟩ | ⟨-, hq⟩
      · exact absurd rfl hij
      · exact h.late j q hq ⟨call', x, y', hf, hlog, hy, hx⟩
  · obtain ⟨x, y, z, hxyz, hy, hx⟩ := hl
    rcases append_one (x := x ++ .called j call' :: y) (y := z) (e := .ended j call' data' err') (by simpa using hxyz)
      with ⟨-, hlog, he⟩ | ⟨z', rfl, hlog⟩
    · cases he
      exact (h.late i _ hp ⟨call, x, y, hf, hlog.symm, hy, hx⟩).1
    · exact h.ends j call' data' err' hf ⟨x, y, z', by simpa using hlog, hy, hx⟩
  · rcases set_some hq with ⟨rfl, rfl⟩ | ⟨hij, hq⟩
    · exact hn.1
    · exact h.quiet j q hq fun hr => ho ((readOpen_other (ev := .ended i call data err) hij).mpr hr)
  · rcases append_one hxy with ⟨rfl, rfl, he⟩ | ⟨y', rfl, hlog⟩
    · cases he
    · obtain ⟨hy, hij⟩ := not_mem_append_one (P := fun e => e.who ≠ j) hy
      rcases set_some hq with ⟨rfl, -⟩ | ⟨-, hq⟩
      · exact absurd rfl hij
      · exact h.closing x y' j q hlog hy ⟨hcalm.1, fun i n hm => hcalm.2 i n (List.mem_append_left _ hm)⟩ hq
  · rcases append_one (x := x ++ .called j .close :: y) (y := z) (e := .ended j .close d none) (by simpa using hxy)
      with ⟨rfl, hlog, he⟩ | ⟨z', rfl, hlog⟩
    · cases he
      rcases h.closing x y i _ hlog.symm hy hcalm hp with hf | hf
      · rcases hf with hf | hf
        · cases hf
        · exact absurd ⟨_, rfl⟩ hf.1
      · refine ⟨hf.1, hf.2, fun l q hq ho => ?_⟩
        obtain ⟨call', ho⟩ := ho
        cases ho
    · obtain ⟨hc, hb, hd⟩ := h.calm x y z' j d (by simpa using hlog) hy hcalm
      refine ⟨hc, hb, fun l q hq ho => ?_⟩
      obtain ⟨call', hl⟩ := ho
      rcases set_some hq with ⟨rfl, rfl⟩ | ⟨hij, hq⟩
      · rw [lastOf_append, lastOf_cons, if_pos (by rfl)] at hl
        cases hl
      · exact hd l q hq ⟨call', by rwa [lastOf_other (ev := .ended i call data err) hij] at hl⟩
  · obtain ⟨before, during, after, j', d, hfull, h1, h2, h3, x, y, z, rfl, hy⟩ := hl
    rcases append_one (x := before ++ .called j' .close :: (during ++ .ended j' .close d none :: (x ++ .called j call' :: y)))
      (y := z) (e := .ended j call' data' err') (by simpa using hfull) with ⟨-, hlog, he⟩ | ⟨z', rfl, hlog⟩
    · cases he
      obtain ⟨-, -, hd⟩ := h.calm before during _ j' d hlog.symm h1 ⟨h2, h3⟩
      exact (hd i _ hp ⟨call, lastOf_some.mpr ⟨rfl, x, y, rfl, hy⟩⟩).1
    · exact h.calmEnds j call' data' err' ⟨before, during, _, j', d, by simpa using hlog, h1, h2, h3, x, y, z', rfl, hy⟩

theorem ShutInv.step {s : HSys} (h : ShutInv c s) (act : Nat × HEnv) :
    ShutInv c (Loops.step (closingCalls C c) (hexec C) s act) := by
  unfold Loops.step
  split
  · rename_i l hl
    exact h.silent (w' := s.world) hl rfl id (nodes_calls l) (fun _ => virgin_calls l) (fun _ hd => hd.elim)
      (fun _ => quiet_calls l) (fun _ => .inl (fresh_calls l)) (fun _ hb => hb) fun _ _ hd => hd.elim
  · rename_i o k hk
    split
    · rename_i r hr
      obtain ⟨r, w'⟩ := r
      have hn := h.nodes _ _ hk
      cases o with
      | called call =>
        cases hr
        exact h.begins hk
      | ended call data err =>
        cases hr
        exact h.finishes hk
      | connClose =>
        have hs : w'.log = s.world.log ∧ w'.closed = true ∧ w'.client = s.world.client := by
          simp only [hexec] at hr
          split at hr
          · rename_i hc
            cases hr
            exact ⟨rfl, hc, rfl⟩
          · cases hr
            exact ⟨rfl, rfl, rfl⟩
        refine h.silent hk hs.1 (fun _ => hs.2.1) (hn.2 r) (fun hc => ?_) (fun hc hd => ?_) (fun hq => ?_) (fun hf => ?_)
          (fun _ hb => by rw [hs.2.2]; exact hb) (fun hc hb hd => ?_)
        · rw [hs.2.1] at hc; cases hc
        · exact hd.2 r (hexec_answer hr hc (fun h => by cases h) fun _ _ _ h => by cases h)
        · rcases hq with ⟨n, hq⟩ | hq
          · cases hq
          · exact hq.2 r
        · rcases hf with hf | hf
          · cases hf
          · exact .inl (hf.2 r)
        · exact hd.2 r (hexec_answer hr hc (fun _ => hb) fun _ _ _ h => by cases h)
      | bufReset =>
        have hc : s.world.closed = true := by
          cases hc : s.world.closed with
          | true => rfl
          | false =>
            rcases h.virgin hc _ _ hk with hv | hv
            · cases hv
            · exact absurd (.inl rfl) hv.1
        cases hr
        refine h.silent hk rfl id (hn.2 ()) (fun hc' => ?_) (fun hc hd => hd.2 () trivial) (fun hq => ?_)
          (fun hf => .inr ⟨hc, rfl⟩) (fun _ _ => rfl) (fun hc hb hd => hd.2 () trivial)
        · rw [show s.world.closed = false from hc'] at hc; cases hc
        · rcases hq with ⟨n, hq⟩ | hq
          · cases hq
          · exact hq.2 ()
      | shared o =>
        obtain ⟨hlog, hclosed, hbuf⟩ := hexec_shared hr
        refine h.silent hk hlog (fun hc => hclosed.trans hc) (hn.2 r) (fun hc => ?_) (fun hc hd => ?_) (fun hq => ?_)
          (fun hf => ?_) (fun hq hb => ?_) (fun hc hb hd => ?_)
        · rcases h.virgin (hclosed.symm.trans hc) _ _ hk with hv | hv
          · cases hv
          · exact hv.2 r
        · exact hd.2 r (hexec_answer hr hc (fun h => by cases h) fun _ _ _ h => by cases h)
        · rcases hq with ⟨n, hq⟩ | hq
          · cases hq
          · exact hq.2 r
        · rcases hf with hf | hf
          · cases hf
          · exact .inl (hf.2 r)
        · refine hbuf (fun bs hbs => ?_) hb
          subst hbs
          rcases hq with (⟨n, hq⟩ | hq) | hq
          · cases hq
          · exact hq.1 ⟨bs, rfl⟩
          · exact hq.1
        · exact hd.2 r (hexec_answer hr hc (fun _ => hb) fun _ _ _ h => by cases h)
    · exact h
  · exact h

theorem shutInv_start (v : BitVec 64) (calls : List (List SCall)) : ShutInv c (HSys.start c v calls) := by
  have ht : ∀ (i : Nat) (p : CloseProg (List SCall)), (HSys.start c v calls).threads[i]? = some p → ∃ l, p = .ret l := by
    intro i p hp
    simp only [HSys.start, List.getElem?_map, Option.map_eq_some_iff] at hp
    obtain ⟨l, -, rfl⟩ := hp
    exact ⟨l, rfl⟩
  have hnil : ∀ {x y : List HEvent} {e : HEvent}, ¬ (HSys.start c v calls).world.log = x ++ e :: y :=
    fun h => by simp [HSys.start] at h
  refine ⟨fun i p hp => ?_, fun _ i p hp => ?_, fun j d err hm => (by cases hm), fun i p hp hl => ?_, ?_, fun i p hp _ => ?_,
    fun x y j p hxy => absurd hxy hnil, fun x y z j d hxy => absurd hxy hnil, ?_⟩
  · obtain ⟨l, rfl⟩ := ht i p hp; trivial
  · obtain ⟨l, rfl⟩ := ht i p hp; trivial
  · obtain ⟨call, x, y, -, hxy, -⟩ := hl
    exact absurd hxy hnil
  · rintro i call data err - ⟨x, y, z, hxy, -⟩
    exact absurd hxy hnil
  · obtain ⟨l, rfl⟩ := ht i p hp; trivial
  · rintro i call data err ⟨x, y, z, j, d, hxy, -⟩
    exact absurd hxy hnil

theorem shutInv_run (v : BitVec 64) (calls : List (List SCall)) (acts : List (Nat × HEnv)) :
    ShutInv c (HSys.run C c (HSys.start c v calls) acts) := by
  have h := shutInv_start (c := c) v calls
  revert h
  generalize HSys.start c v calls = s
  induction acts generalizing s with
  | nil => exact fun h => h
  | cons act acts ih => exact fun h => ih _ (h.step act)

end

end Goe2ee
