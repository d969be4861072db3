import Verif.Proofs.SharedCloseEnds
import Verif.Props.SharedClient

/-!
# C144, C145: closing a client that other goroutines use
-/

set_option autoImplicit false

namespace Goe2ee

namespace CloseExample
open SharedExample

/-- `n` steps of goroutine `i`; nothing arrives. -/
def turns (i n : Nat) : List (Nat × HEnv) := List.replicate n (i, { })

/-- A step of goroutine `i`; this arrives before. -/
def comes (i : Nat) (bs : Bytes) : List (Nat × HEnv) := [(i, { shared := { arrives := [.data bs] } })]

/-- A message is sent and its reply read octet by octet; meanwhile another goroutine closes the client. -/
def closeCalls : List (List SCall) := [[.write (str "ping"), .read 1, .read 1], [.close]]

/-- The reply has been read and decrypted when the client is closed. -/
def closeActs : List (Nat × HEnv) :=
  turns 0 9 ++ comes 0 (reply 1 (str "pong")) ++ turns 0 5 ++ turns 1 5 ++ turns 0 10

end CloseExample

/-- **C144** as the documentation of `net.Conn` has it: once `Close` of the client has returned, every call of
`Read`, `Write` and `Close` that any goroutine makes afterwards returns an error and no data (and nobody waits any
more, see `C144_unblocked_partial`). -/
def C144_claim : Prop :=
  ∀ (C : Crypto) (c : Client) (session : ClientSession) (v : BitVec 64) (calls : List (List SCall))
    (acts : List (Nat × HEnv)), C.Lawful → c.session = some session → c.buffer = [] →
    ∀ i call data err, LateCall (HSys.run C c (HSys.start c v calls) acts).world.log i call data err →
      data = [] ∧ err.isSome = true

open CloseExample SharedExample in
theorem CloseExample.log_eq : (HSys.run Toy.crypto client (HSys.start client 0 closeCalls) closeActs).world.log =
    [.called 0 (.write (str "ping")), .ended 0 (.write (str "ping")) [] none, .called 0 (.read 1), .called 1 .close,
     .ended 1 .close [] none, .ended 0 (.read 1) (str "p") none, .called 0 (.read 1),
     .ended 0 (.read 1) (str "o") none] := by
  decide +kernel

open CloseExample SharedExample in
/-- **C144 is refuted**, for a client without read timeout: a call of `Read` that had received the reply when the
client was closed stores it in the buffer after the buffer was emptied; the next call of `Read`, made after `Close`
had returned, returns data and no error. -/
theorem C144_refuted : ¬ C144_claim := by
  intro h
  have hl : LateCall (HSys.run Toy.crypto client (HSys.start client 0 closeCalls) closeActs).world.log 0 (.read 1) (str "o")
      none := by
    rw [log_eq]
    exact ⟨[.called 0 (.write (str "ping")), .ended 0 (.write (str "ping")) [] none, .called 0 (.read 1),
      .called 1 .close, .ended 1 .close [] none, .ended 0 (.read 1) (str "p") none], [], [], rfl,
      fun _ h => (by cases h), 1, [], by simp⟩
  have he := (h Toy.crypto client session 0 closeCalls closeActs Toy.lawful rfl rfl 0 (.read 1) (str "o") none hl).2
  exact absurd he (by decide)

section
variable {C : Crypto}

/-- **C144**, what holds: `Write` and `Close` fail after `Close`, and so does `Read` if the client has a read timeout,
as it has by default.  For any number of goroutines, calls, interleavings, whatever arrives and whatever was buffered. -/
theorem C144_late_partial (c : Client) (v : BitVec 64) (calls : List (List SCall)) (acts : List (Nat × HEnv))
    (i : Nat) (call : SCall) (data : Bytes) (err : Option Err) (hcall : c.readTimeout > 0 ∨ ∀ n, call ≠ .read n)
    (h : LateCall (HSys.run C c (HSys.start c v calls) acts).world.log i call data err) :
    data = [] ∧ err.isSome = true := by
  refine (shutInv_run (C := C) (c := c) v calls acts).ends i call data err ?_ h
  cases call with
  | read n => exact hcall.resolve_right fun h => h n rfl
  | _ => trivial

open CloseExample SharedExample in
/-- After `Close`, another goroutine writes and reads, and closes once more. -/
example :
    (HSys.run Toy.crypto { client with readTimeout := 5 } (HSys.start client 0
      [[.close], [.write (str "ping"), .read 10, .close]]) (turns 0 5 ++ turns 1 20)).world.log =
    [.called 0 .close, .ended 0 .close [] none, .called 1 (.write (str "ping")),
     .ended 1 (.write (str "ping")) [] (some errNetClosed), .called 1 (.read 10),
     .ended 1 (.read 10) [] (some (.wrap "failed to set connection read deadline" errNetClosed)),
     .called 1 .close, .ended 1 .close [] (some (.wrap "failed to close connection" errNetClosed))] := by
  decide +kernel

/-- **C144**, what holds without a read timeout: every call fails that is made after a `Close` during which no call of
`Read` was in progress. -/
theorem C144_calm_partial (c : Client) (v : BitVec 64) (calls : List (List SCall)) (acts : List (Nat × HEnv))
    (i : Nat) (call : SCall) (data : Bytes) (err : Option Err)
    (h : LateCallCalm (HSys.run C c (HSys.start c v calls) acts).world.log i call data err) :
    data = [] ∧ err.isSome = true :=
  (shutInv_run (C := C) (c := c) v calls acts).calmEnds i call data err h

open CloseExample SharedExample in
/-- A part of the reply is unread when the client is closed: it is gone. -/
example :
    (HSys.run Toy.crypto client (HSys.start client 0 [[.write (str "ping"), .read 1, .close, .read 1]])
      (turns 0 9 ++ comes 0 (reply 1 (str "pong")) ++ turns 0 20)).world.log =
    [.called 0 (.write (str "ping")), .ended 0 (.write (str "ping")) [] none, .called 0 (.read 1),
     .ended 0 (.read 1) (str "p") none, .called 0 .close, .ended 0 .close [] none, .called 0 (.read 1),
     .ended 0 (.read 1) [] (some (.wrap "failed to parse response" (.wrap "failed to read flags" errNetClosed)))] := by
  decide +kernel

/-- **C144**, what holds for calls in progress: once any call of `Close` has returned, with whatever outcome, every
goroutine that gets its turns again and again completes all of its calls, those it was waiting in and those it still
makes, whatever the peer and the other goroutines do. -/
theorem C144_unblocked_partial (c : Client) (session : ClientSession) (hs : c.session = some session) (v : BitVec 64)
    (calls : List (List SCall)) (acts : List (Nat × HEnv)) (sched : Nat → Nat × HEnv) (i : Nat) (cs : List SCall)
    (hclose : ∃ j d err, .ended j .close d err ∈ (HSys.run C c (HSys.start c v calls) acts).world.log)
    (hcs : calls[i]? = some cs) (hfair : ∀ k, ∃ k', k ≤ k' ∧ (sched k').1 = i) :
    ∃ k, endedCalls i (HSys.after C c (HSys.run C c (HSys.start c v calls) acts) sched k).world.log = cs := by
  obtain ⟨j, d, err, hj⟩ := hclose
  have hc := (shutInv_run (C := C) (c := c) v calls acts).shut j d err hj
  have hinv := (endsInv_start (c := c) v calls).run (C := C) hs acts
  generalize HSys.run C c (HSys.start c v calls) acts = s at hc hinv
  obtain ⟨p, rest, hp, he, -⟩ := hinv i cs hcs
  obtain ⟨k1, l, h1, -⟩ := call_returns (sched := sched) hc hfair p 0 hp (he.leaves (Nat.le_refl _))
  obtain ⟨k, hk⟩ := all_return hs hc hfair l k1 h1
  refine ⟨k, ?_⟩
  obtain ⟨p, rest, hp, he, hcat⟩ := hinv.run hs ((List.range k).map sched) i cs hcs
  rw [show (HSys.run C c s ((List.range k).map sched)).threads[i]? = _ from hk] at hp
  cases hp
  cases he
  rw [List.append_nil] at hcat
  exact hcat

open CloseExample SharedExample in
/-- One goroutine waits in `Read`, another in `Write`, because the peer neither sends nor reads; both return after the
client was closed. -/
example :
    let blocked : List (Nat × HEnv) := List.replicate 10 (1, { blocked := true })
    let before := HSys.run Toy.crypto client (HSys.start client 0 [[.read 5], [.write (str "ping")], [.close]])
      (turns 0 10 ++ blocked)
    before.world.log = [.called 0 (.read 5), .called 1 (.write (str "ping"))] ∧
    (HSys.run Toy.crypto client before (turns 2 5 ++ turns 1 2 ++ turns 0 5)).world.log =
    [.called 0 (.read 5), .called 1 (.write (str "ping")), .called 2 .close, .ended 2 .close [] none,
     .ended 1 (.write (str "ping")) [] (some errNetClosed),
     .ended 0 (.read 5) [] (some (.wrap "failed to parse response" (.wrap "failed to read flags" errNetClosed)))] := by
  decide +kernel

end

/-! ## C145 -/

/-- **C145**: a goroutine that calls `Close` does not race with one that reads or one that writes. -/
def C145_claim : Prop :=
  ∀ (C : Crypto) (c : Client) (session : ClientSession) (v : BitVec 64) (others : List SCall) (closes : Nat)
    (acts : List (Nat × HEnv)), C.Lawful → c.session = some session → .close ∉ others →
    ¬ (HSys.run C c (HSys.start c v [others, List.replicate closes .close]) acts).Race

open CloseExample SharedExample in
/-- **C145 is refuted**: `Read` is about to store the reply in the buffer that `Close` is about to reset. -/
theorem C145_refuted : ¬ C145_claim := fun h =>
  h Toy.crypto client session 0 [.write (str "ping"), .read 1, .read 1] 1 (closeActs.take 18) Toy.lawful rfl
    (by decide +kernel) ⟨0, 1, "buffer", true, true, by decide, by decide +kernel, by decide +kernel, rfl⟩

/-- What a goroutine with this role does: only `Close`, or only `Write`. -/
def roleAuto : Auto CloseSig Bool where
  pre o closes := ∀ a, o.access = some a → a.1 = if closes then "buffer" else "lastSentCounter"
  next _ _ closes := closes

/-- The calls of a goroutine with this role. -/
def InRole (l : List SCall) (closes : Bool) : Prop := ∀ call ∈ l, if closes then call = .close else ∃ p, call = .write p

section
variable {C : Crypto} {c : Client}

/-- No access to the buffer. -/
def DOp.offBuffer : DOp → Prop
  | .bufLen => False
  | .bufRead _ => False
  | .bufWrite _ => False
  | _ => True

theorem offBuffer_write (p : Bytes) : Uses (S := DSig) DOp.offBuffer (sharedWrite C c p) := by
  rw [sharedWrite]
  refine Uses.bind ?_ fun r => ?_
  · split
    · exact ⟨trivial, fun _ => trivial⟩
    · trivial
  · cases r with
    | some e => trivial
    | none =>
      show Uses _ (match c.session with | none => _ | some session => _)
      split
      · trivial
      · split
        · trivial
        · refine ⟨trivial, fun (counter : BitVec 64) => ?_⟩
          show Uses _ (if counter = 0 then _ else _)
          split
          · trivial
          · refine ⟨trivial, fun _ => ?_⟩
            rw [show gcmNonceSize = 12 from rfl, C12_nonce_layout]
            exact ⟨trivial, fun _ => ⟨trivial, fun _ => trivial⟩⟩

theorem role_shared {α : Type} {p : DProg α} {f : α → CloseProg (List SCall)} (hp : Uses (S := DSig) DOp.offBuffer p)
    (hf : ∀ a, SafeE roleAuto (f a) false InRole fun _ _ => True) :
    SafeE roleAuto ((onShared p).bind f) false InRole fun _ _ => True := by
  induction p with
  | ret a => exact hf a
  | panic m => trivial
  | op o k ih =>
    refine ⟨fun a ha => ?_, fun r => ih r (hp.2 r)⟩
    have ho := hp.1
    cases o <;> cases ha <;> first | rfl | exact ho.elim

theorem role_calls (l : List SCall) (closes : Bool) (h : InRole l closes) :
    SafeE roleAuto (closingCalls C c l) closes InRole fun _ _ => True := by
  cases l with
  | nil => exact h
  | cons call rest =>
    have hrest : InRole rest closes := fun x hx => h x (List.mem_cons_of_mem _ hx)
    have hcall := h call (List.mem_cons_self ..)
    cases closes with
    | true =>
      obtain rfl : call = .close := hcall
      refine ⟨fun a ha => (by cases ha), fun _ => ⟨fun a ha => (by cases ha), fun (r : Option Err) => ?_⟩⟩
      cases r with
      | some e => exact ⟨fun a ha => (by cases ha), fun _ => hrest⟩
      | none => exact ⟨fun a ha => (by cases ha; rfl), fun _ => ⟨fun a ha => (by cases ha), fun _ => hrest⟩⟩
    | false =>
      obtain ⟨p, rfl⟩ : ∃ p, call = .write p := hcall
      exact ⟨fun a ha => (by cases ha), fun _ => role_shared (offBuffer_write p) fun r =>
        ⟨fun a ha => (by cases ha), fun _ => hrest⟩⟩

/-- **C145**, what holds: one goroutine writes, another closes the client. -/
theorem C145_write_partial (c : Client) (v : BitVec 64) (ps : List Bytes) (closes : Nat) (acts : List (Nat × HEnv)) :
    ¬ (HSys.run C c (HSys.start c v [ps.map .write, List.replicate closes .close]) acts).Race := by
  have h0 : LoopsOK roleAuto InRole (fun _ _ => True) (fun _ gs => gs = [false, true])
      (HSys.start c v [ps.map .write, List.replicate closes .close]) [false, true] := by
    refine ⟨rfl, fun i p g hp hg => ?_, rfl⟩
    match i with
    | 0 =>
      cases hp; cases hg
      intro call hc
      obtain ⟨p, -, rfl⟩ := List.mem_map.mp hc
      exact ⟨p, rfl⟩
    | 1 =>
      cases hp; cases hg
      exact fun call hc => List.eq_of_mem_replicate hc
    | i + 2 => cases hp
  obtain ⟨gs, h⟩ := h0.run (body := closingCalls C c) (exec := hexec C) (fun l g hl => role_calls l g hl)
    (fun e i o w gs g r w' hg _ hgs _ => by
      subst hgs
      show [false, true].set i g = _
      match i with
      | 0 => cases hg; rfl
      | 1 => cases hg; rfl
      | i + 2 => cases hg) acts
  obtain rfl := h.inv
  have hone : ∀ i a, HSys.touches (HSys.run C c (HSys.start c v [ps.map .write, List.replicate closes .close]) acts) i =
      some a → (i = 0 ∧ a.1 = "lastSentCounter") ∨ (i = 1 ∧ a.1 = "buffer") := by
    intro i a ha
    rw [HSys.touches] at ha
    split at ha
    · rename_i o k hk
      match i with
      | 0 => exact .inl ⟨rfl, (h.safe 0 _ false hk rfl).1 a ha⟩
      | 1 => exact .inr ⟨rfl, (h.safe 1 _ true hk rfl).1 a ha⟩
      | i + 2 =>
        have := (List.getElem?_eq_some_iff.mp hk).1
        rw [show (HSys.run C c _ acts).threads.length = 2 from h.len.symm] at this
        omega
    · cases ha
  rintro ⟨i, j, f, w, w', hij, h1, h2, -⟩
  rcases hone i _ h1 with ⟨rfl, hf⟩ | ⟨rfl, hf⟩ <;> rcases hone j _ h2 with ⟨rfl, hf'⟩ | ⟨rfl, hf'⟩
  · exact hij rfl
  · exact absurd (hf.symm.trans hf') (by decide)
  · exact absurd (hf.symm.trans hf') (by decide)
  · exact hij rfl

open CloseExample SharedExample in
/-- Both are about to access a field of the client, and the connection is closed already. -/
example :
    let s := HSys.run Toy.crypto client (HSys.start client 0 [[.write (str "ping")], [.close]]) (turns 0 3 ++ turns 1 3)
    s.touches 0 = some ("lastSentCounter", true) ∧ s.touches 1 = some ("buffer", true) ∧ s.world.closed = true := by
  decide +kernel

end

end Goe2ee
