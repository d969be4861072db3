import Verif.Proofs.SharedClose

/-!
# Closing a client while other goroutines use it: every call returns
-/

set_option autoImplicit false

namespace Goe2ee

/-- The call that this effect ends. -/
def CloseOp.endsCall : CloseOp → Option SCall
  | .ended call _ _ => some call
  | _ => none

/-- The program does not panic and ends these calls, some of them later. -/
def EndsCalls : CloseProg (List SCall) → List SCall → Prop
  | .ret l, cs => l = cs
  | .panic _, _ => False
  | .op o k, cs => ∃ cs', cs = o.endsCall.toList ++ cs' ∧ ∀ r, EndsCalls (k r) cs'

theorem EndsCalls.shared {α : Type} {p : DProg α} {f : α → CloseProg (List SCall)} {cs : List SCall} (hp : NoPanic p)
    (hf : ∀ a, EndsCalls (f a) cs) : EndsCalls ((onShared p).bind f) cs := by
  induction p with
  | ret a => exact hf a
  | panic m => exact hp.elim
  | op o k ih => exact ⟨cs, rfl, fun r => ih r (hp r)⟩

theorem noPanic_readFullFrom : ∀ (fuel r : Nat) (acc : Bytes), NoPanic (readFullFrom fuel r acc)
  | fuel, 0, acc => by cases fuel <;> trivial
  | 0, r + 1, acc => trivial
  | fuel + 1, r + 1, acc => by
    intro got
    show NoPanic (if _ then _ else _)
    split
    · trivial
    · rcases got with ⟨bs, _ | e⟩
      · exact noPanic_readFullFrom fuel _ _
      · trivial

theorem noPanic_copyFrom : ∀ (fuel r : Nat) (acc : Bytes), NoPanic (copyFrom fuel r acc)
  | fuel, 0, acc => by cases fuel <;> trivial
  | 0, r + 1, acc => trivial
  | fuel + 1, r + 1, acc => by
    intro got
    rcases got with ⟨bs, _ | e⟩
    · exact noPanic_copyFrom fuel _ _
    · cases e <;> trivial

theorem noPanic_onSharedConn {α : Type} {p : RProg α} (hp : NoPanic p) : NoPanic (onSharedConn p) := by
  induction p with
  | ret a => trivial
  | panic m => exact hp
  | op o k ih =>
    refine NoPanic.bind (p := sharedReads o) ?_ fun r => ih r (hp r)
    cases o with
    | alloc n => trivial
    | readFull n => exact noPanic_readFullFrom _ _ _
    | copyLimit n => exact noPanic_copyFrom _ _ _

section
variable {C : Crypto} {c : Client}

theorem noPanic_sharedReadBuffer (n : Nat) : NoPanic (sharedReadBuffer n) := by
  rintro ⟨d, _ | e⟩
  · exact fun _ => trivial
  · trivial

theorem noPanic_sharedRead {session : ClientSession} (hs : c.session = some session) (n : Nat) :
    NoPanic (sharedRead C c n) := by
  rw [sharedRead]
  refine NoPanic.bind ?_ fun r => ?_
  · split
    · exact fun _ => trivial
    · trivial
  · cases r with
    | some e => trivial
    | none =>
      intro (len : Nat)
      show NoPanic (if len > 0 then _ else _)
      split
      · exact noPanic_sharedReadBuffer n
      · refine NoPanic.bind (noPanic_onSharedConn .responseCommon) fun parsed => ?_
        cases parsed with
        | error e => trivial
        | ok common =>
          show NoPanic (if _ then _ else _)
          split
          · refine NoPanic.bind (noPanic_onSharedConn (.errorResponse _)) fun parsed => ?_
            cases parsed <;> trivial
          · refine NoPanic.bind (noPanic_onSharedConn (.processResponse _)) fun parsed => ?_
            cases parsed with
            | error e => trivial
            | ok response =>
              intro (last : BitVec 64)
              show NoPanic (if response.counter ≠ last then _ else _)
              split
              · trivial
              · rw [hs]
                dsimp only
                split
                · trivial
                · rw [show gcmNonceSize = 12 from rfl, C12_nonce_layout]
                  dsimp only [ofSharedRes, Prog.ret_bind]
                  split
                  · trivial
                  · exact fun _ => noPanic_sharedReadBuffer n

theorem noPanic_sharedWrite {session : ClientSession} (hs : c.session = some session) (p : Bytes) :
    NoPanic (sharedWrite C c p) := by
  rw [sharedWrite]
  refine NoPanic.bind ?_ fun r => ?_
  · split
    · exact fun _ => trivial
    · trivial
  · cases r with
    | some e => trivial
    | none =>
      rw [hs]
      dsimp only
      split
      · trivial
      · intro (counter : BitVec 64)
        show NoPanic (if counter = 0 then _ else _)
        split
        · trivial
        · intro _
          show NoPanic ((ofSharedRes _).bind _)
          rw [show gcmNonceSize = 12 from rfl, C12_nonce_layout]
          exact fun _ _ => trivial

theorem ends_calls {session : ClientSession} (hs : c.session = some session) (l : List SCall) :
    EndsCalls (closingCalls C c l) l := by
  match l with
  | [] => rfl
  | .read n :: rest =>
    exact ⟨_, rfl, fun _ => EndsCalls.shared (noPanic_sharedRead hs n) fun r => ⟨rest, rfl, fun _ => rfl⟩⟩
  | .write p :: rest =>
    exact ⟨_, rfl, fun _ => EndsCalls.shared (noPanic_sharedWrite hs p) fun r => ⟨rest, rfl, fun _ => rfl⟩⟩
  | .close :: rest =>
    refine ⟨_, rfl, fun _ => ⟨_, rfl, fun (r : Option Err) => ?_⟩⟩
    cases r with
    | some e => exact ⟨rest, rfl, fun _ => rfl⟩
    | none => exact ⟨_, rfl, fun _ => ⟨rest, rfl, fun _ => rfl⟩⟩

theorem hexec_ended {e : HEnv} {i : Nat} {o : CloseOp} {w w' : HWorld} {r : o.Ret}
    (h : hexec C e i o w = some (r, w')) (j : Nat) :
    endedCalls j w'.log = endedCalls j w.log ++ if i = j then o.endsCall.toList else [] := by
  cases o with
  | shared o => rw [(hexec_shared h).1]; simp [CloseOp.endsCall]
  | connClose =>
    simp only [hexec] at h
    split at h <;> cases h <;> simp [CloseOp.endsCall]
  | bufReset => cases h; simp [CloseOp.endsCall]
  | called call => cases h; simp [CloseOp.endsCall, endedCalls]
  | ended call data err =>
    cases h
    by_cases hij : i = j <;> simp [CloseOp.endsCall, endedCalls, hij]

/-- The calls that have returned and those still to come are the calls of the goroutine. -/
def EndsInv (calls : List (List SCall)) (s : HSys) : Prop :=
  ∀ (i : Nat) (cs : List SCall), calls[i]? = some cs → ∃ (p : CloseProg (List SCall)) (rest : List SCall),
    s.threads[i]? = some p ∧ EndsCalls p rest ∧ endedCalls i s.world.log ++ rest = cs

theorem EndsInv.step {session : ClientSession} (hs : c.session = some session) {calls : List (List SCall)} {s : HSys}
    (h : EndsInv calls s) (act : Nat × HEnv) :
    EndsInv calls (Loops.step (closingCalls C c) (hexec C) s act) := by
  intro i cs hcs
  obtain ⟨p, rest, hp, he, hcat⟩ := h i cs hcs
  unfold Loops.step
  split
  · rename_i l hl
    by_cases hi : act.1 = i
    · subst hi
      rw [hp] at hl
      cases hl
      obtain rfl : l = rest := he
      exact ⟨_, l, List.getElem?_set_self (List.getElem?_eq_some_iff.mp hp).1, ends_calls hs l, hcat⟩
    · exact ⟨p, rest, by simp [List.getElem?_set_ne hi, hp], he, hcat⟩
  · rename_i o k hk
    split
    · rename_i r hr
      obtain ⟨r, w'⟩ := r
      have hlog := hexec_ended hr i
      by_cases hi : act.1 = i
      · subst hi
        rw [hp] at hk
        cases hk
        obtain ⟨rest', rfl, hrest⟩ := he
        refine ⟨_, rest', List.getElem?_set_self (List.getElem?_eq_some_iff.mp hp).1, hrest r, ?_⟩
        rw [show endedCalls act.1 w'.log = _ from hlog, if_pos rfl, List.append_assoc]
        exact hcat
      · refine ⟨p, rest, by simp [List.getElem?_set_ne hi, hp], he, ?_⟩
        rw [show endedCalls i w'.log = _ from hlog, if_neg hi, List.append_nil]
        exact hcat
    · exact ⟨p, rest, hp, he, hcat⟩
  · exact ⟨p, rest, hp, he, hcat⟩

theorem endsInv_start (v : BitVec 64) (calls : List (List SCall)) : EndsInv calls (HSys.start c v calls) := by
  intro i cs hcs
  exact ⟨.ret cs, cs, by simp [HSys.start, hcs], rfl, rfl⟩

theorem EndsInv.run {session : ClientSession} (hs : c.session = some session) {calls : List (List SCall)}
    (acts : List (Nat × HEnv)) {s : HSys} (h : EndsInv calls s) : EndsInv calls (HSys.run C c s acts) := by
  induction acts generalizing s with
  | nil => exact h
  | cons act acts ih => exact ih (h.step hs act)

theorem step_closed {s : HSys} (h : s.world.closed = true) (act : Nat × HEnv) :
    (Loops.step (closingCalls C c) (hexec C) s act).world.closed = true := by
  unfold Loops.step
  split
  · exact h
  · rename_i o k hk
    split
    · rename_i r hr
      obtain ⟨r, w'⟩ := r
      cases o with
      | shared o => exact (hexec_shared hr).2.1.trans h
      | connClose =>
        simp only [hexec, h, if_true] at hr
        cases hr
        exact h
      | _ => cases hr; exact h
    · exact h
  · exact h

theorem closing_step_other {s : HSys} {i : Nat} {act : Nat × HEnv} (h : act.1 ≠ i) :
    (Loops.step (closingCalls C c) (hexec C) s act).threads[i]? = s.threads[i]? := by
  unfold Loops.step
  split
  · exact List.getElem?_set_ne h
  · split
    · exact List.getElem?_set_ne h
    · rfl
  · rfl

variable {s : HSys} {sched : Nat → Nat × HEnv}

theorem after_succ (k : Nat) : HSys.after C c s sched (k + 1) =
    Loops.step (closingCalls C c) (hexec C) (HSys.after C c s sched k) (sched k) := by
  simp [HSys.after, HSys.run, Loops.run, List.range_succ]

theorem after_closed (h : s.world.closed = true) (k : Nat) : (HSys.after C c s sched k).world.closed = true := by
  induction k with
  | zero => exact h
  | succ k ih => rw [after_succ]; exact step_closed ih _

/-- The next step of goroutine `i`. -/
theorem next_move {i : Nat} {p : CloseProg (List SCall)} (hfair : ∀ k, ∃ k', k ≤ k' ∧ (sched k').1 = i) (k : Nat)
    (hp : (HSys.after C c s sched k).threads[i]? = some p) :
    ∃ k', k ≤ k' ∧ (sched k').1 = i ∧ (HSys.after C c s sched k').threads[i]? = some p := by
  obtain ⟨k', hk, hi⟩ := hfair k
  obtain ⟨d, rfl⟩ := Nat.exists_eq_add_of_le hk
  clear hk
  induction d generalizing k with
  | zero => exact ⟨k, Nat.le_refl _, hi, hp⟩
  | succ d ih =>
    by_cases h : (sched k).1 = i
    · exact ⟨k, Nat.le_refl _, h, hp⟩
    · have hp' : (HSys.after C c s sched (k + 1)).threads[i]? = some p := by
        rw [after_succ, closing_step_other h]; exact hp
      obtain ⟨k', h1, h2, h3⟩ := ih (k + 1) hp' (by rw [show k + 1 + d = k + (d + 1) by omega]; exact hi)
      exact ⟨k', by omega, h2, h3⟩

/-- The program does not panic, and where it ends, `Q` holds. -/
def LeavesIn (Q : List SCall → Prop) : CloseProg (List SCall) → Prop
  | .ret l => Q l
  | .panic _ => False
  | .op _ k => ∀ r, LeavesIn Q (k r)

theorem EndsCalls.leaves {p : CloseProg (List SCall)} {rest : List SCall} {m : Nat} (h : EndsCalls p rest) (hm : rest.length ≤ m) :
    LeavesIn (fun l => l.length ≤ m) p := by
  induction p generalizing rest with
  | ret l => cases h; exact hm
  | panic m => exact h.elim
  | op o k ih =>
    obtain ⟨rest', rfl, hrest⟩ := h
    exact fun r => ih r (hrest r) (by simp at hm; omega)

theorem LeavesIn.shared {α : Type} {p : DProg α} {f : α → CloseProg (List SCall)} {Q : List SCall → Prop} (hp : NoPanic p)
    (hf : ∀ a, LeavesIn Q (f a)) : LeavesIn Q ((onShared p).bind f) := by
  induction p with
  | ret a => exact hf a
  | panic m => exact hp.elim
  | op o k ih => exact fun r => ih r (hp r)

theorem leaves_calls {session : ClientSession} (hs : c.session = some session) (call : SCall) (l : List SCall) :
    LeavesIn (fun l' => l' = l) (closingCalls C c (call :: l)) := by
  cases call with
  | read n => exact fun _ => LeavesIn.shared (noPanic_sharedRead hs n) fun r _ => rfl
  | write p => exact fun _ => LeavesIn.shared (noPanic_sharedWrite hs p) fun r _ => rfl
  | close =>
    intro _ (r : Option Err)
    cases r with
    | some e => exact fun _ => rfl
    | none => exact fun _ _ => rfl

/-- The rest of a call. -/
theorem call_returns {i : Nat} {Q : List SCall → Prop} (hc : s.world.closed = true)
    (hfair : ∀ k, ∃ k', k ≤ k' ∧ (sched k').1 = i) (p : CloseProg (List SCall)) :
    ∀ k : Nat, (HSys.after C c s sched k).threads[i]? = some p → LeavesIn Q p →
    ∃ k' l, (HSys.after C c s sched k').threads[i]? = some (.ret l) ∧ Q l := by
  induction p with
  | ret l => intro k hp he; exact ⟨k, _, hp, he⟩
  | panic m => intro k hp he; exact he.elim
  | op o kk ih =>
    intro k hp he
    obtain ⟨k', -, hi, hp'⟩ := next_move hfair k hp
    obtain ⟨r, w', hr⟩ := hexec_moves (C := C) (sched k').2 i o (after_closed (C := C) (c := c) (sched := sched) hc k')
    have hnext : (HSys.after C c s sched (k' + 1)).threads[i]? = some (kk r) := by
      rw [after_succ, Loops.step, hi, hp']
      simp only [hr]
      exact List.getElem?_set_self (List.getElem?_eq_some_iff.mp hp').1
    exact ih r (k' + 1) hnext (he r)

/-- All calls of the goroutine. -/
theorem all_return {session : ClientSession} {i : Nat} (hs : c.session = some session) (hc : s.world.closed = true)
    (hfair : ∀ k, ∃ k', k ≤ k' ∧ (sched k').1 = i) (l : List SCall) :
    ∀ k : Nat, (HSys.after C c s sched k).threads[i]? = some (.ret l) →
    ∃ k', (HSys.after C c s sched k').threads[i]? = some (.ret []) := by
  induction l with
  | nil => exact fun k h => ⟨k, h⟩
  | cons call l ih =>
    intro k hp
    obtain ⟨k2, -, hi, hp2⟩ := next_move hfair k hp
    have hnext : (HSys.after C c s sched (k2 + 1)).threads[i]? = some (closingCalls C c (call :: l)) := by
      rw [after_succ, Loops.step, hi, hp2]
      exact List.getElem?_set_self (List.getElem?_eq_some_iff.mp hp2).1
    obtain ⟨k3, l', h1, rfl⟩ := call_returns hc hfair _ (k2 + 1) hnext (leaves_calls hs call l)
    exact ih k3 h1

end

end Goe2ee
