import Verif.Proofs.Counter
import Verif.Spec.EndToEnd

/-!
# How often the clients of a process encrypt a message
-/

set_option autoImplicit false

namespace Goe2ee

section
variable (C : Crypto)

/-- The message is encrypted with the key only if the quota allows; nonces have direction 0. -/
def quotaA (key m : Bytes) : Auto (CSig C) Nat where
  pre
    | .aead k n p, g => (k = key ∧ p = m → 0 < g) ∧ ∃ v : BitVec 64, n = Wire.nonce12 0 v.toNat
    | _, _ => True
  next
    | .aead k _ p, _, g => if k = key ∧ p = m then g - 1 else g
    | _, _, g => g

variable {C} {key m : Bytes}

theorem quota_readDeadline {timeout : Int} {g : Nat} {F : Option Err → Nat → Prop}
    (hF : ∀ r, F r g) : Safe (quotaA C key m)
      (if timeout > 0 then .op .setReadDeadline .ret else .ret none : CProg C (Option Err)) g F := by
  split
  · exact ⟨trivial, fun r => hF r⟩
  · exact hF none

theorem quota_writeDeadline {timeout : Int} {g : Nat} {F : Option Err → Nat → Prop}
    (hF : ∀ r, F r g) : Safe (quotaA C key m)
      (if timeout > 0 then .op .setWriteDeadline .ret else .ret none : CProg C (Option Err)) g F := by
  split
  · exact ⟨trivial, fun r => hF r⟩
  · exact hF none

theorem quota_read (c : Client) (n : Nat) (session : ClientSession) (hs : c.session = some session)
    (g : Nat) : Safe (quotaA C key m) (c.read n) g (fun r g' => r.2.session = some session ∧ g' = g) := by
  have hconn : ∀ {α : Type} (p : RProg α) {Q : α → Nat → Prop}, (∀ a, Q a g) →
      Safe (quotaA C key m) (onClientConn p) g Q := by
    intro α p Q hQ
    refine Safe.of_uses (reading_onClientConn p) ?_ ?_ hQ
    · intro o g h; cases o <;> first | trivial | exact h.elim
    · intro o r g h; cases o <;> first | rfl | exact h.elim
  have hbuf : ∀ c : Client, c.session = some session → (readBuffer c n).2.session = some session := by
    intro c h
    rw [readBuffer]
    split <;> exact h
  unfold Client.read
  refine Safe.bind (quota_readDeadline fun r => ?_)
  cases r with
  | some e => exact ⟨hs, rfl⟩
  | none =>
  dsimp only
  split
  · exact ⟨hbuf c hs, rfl⟩
  refine Safe.bind (hconn _ fun parsed => ?_)
  rcases parsed with _ | common
  · exact ⟨hs, rfl⟩
  dsimp only
  split
  · refine Safe.bind (hconn _ fun parsed => ?_)
    cases parsed <;> exact ⟨hs, rfl⟩
  refine Safe.bind (hconn _ fun parsed => ?_)
  rcases parsed with _ | response
  · exact ⟨hs, rfl⟩
  dsimp only
  split
  · exact ⟨hs, rfl⟩
  split
  · trivial
  split
  · exact ⟨hs, rfl⟩
  rw [show gcmNonceSize = 12 from rfl, C12_nonce_layout]
  dsimp only [ofClientRes, Prog.ret_bind]
  split
  · exact ⟨hs, rfl⟩
  · exact ⟨hbuf _ hs, rfl⟩

theorem quota_write (c : Client) (p : Bytes) (session : ClientSession) (hs : c.session = some session)
    (g n : Nat)
    (hg : (if (deriveKey C session.secret kdfInfo aesKeySize).toOption = some key ∧ p = m then 1 else 0) + n ≤ g) :
    Safe (quotaA C key m) (c.write p) g (fun r g' => r.2.session = some session ∧ n ≤ g') := by
  unfold Client.write
  refine Safe.bind (quota_writeDeadline fun r => ?_)
  cases r with
  | some e => exact ⟨hs, by omega⟩
  | none =>
  dsimp only
  rw [hs]
  dsimp only
  cases hn : newGCM C session.secret with
  | error e => exact ⟨hs, by omega⟩
  | ok k =>
  refine ⟨trivial, fun (v : BitVec 64) => ?_⟩
  dsimp only
  by_cases hv : v = 0
  · rw [if_pos hv]
    exact ⟨hs, show n ≤ g by omega⟩
  · rw [if_neg hv, show gcmNonceSize = 12 from rfl, C12_nonce_layout]
    dsimp only [ofClientRes, Prog.ret_bind]
    rw [newGCM_key hn] at hg
    simp only [Except.toOption, Option.some.injEq] at hg
    refine ⟨⟨fun h => ?_, v, rfl⟩, fun _ => ⟨trivial, fun _ => ⟨rfl, ?_⟩⟩⟩
    · rw [if_pos h] at hg
      show 0 < g
      omega
    · show n ≤ if k = key ∧ p = m then g - 1 else g
      split
      · rename_i h
        rw [if_pos h] at hg
        omega
      · omega

theorem quota_calls (calls : List CCall) (c : Client) (session : ClientSession)
    (hs : c.session = some session) (g : Nat)
    (hg : (if (deriveKey C session.secret kdfInfo aesKeySize).toOption = some key then
      calls.countP fun
        | .write p => p = m
        | .read _ => false
      else 0) ≤ g) : Safe (quotaA C key m) (c.calls calls) g (fun _ _ => True) := by
  induction calls generalizing c g with
  | nil => trivial
  | cons call calls ih =>
    refine Safe.bind ?_
    cases call with
    | write p =>
      refine Safe.bind ((quota_write c p session hs g _ ?_).mono fun r g' ⟨h1, h2⟩ => ih _ h1 g' h2)
      rw [List.countP_cons] at hg
      by_cases hk : (deriveKey C session.secret kdfInfo aesKeySize).toOption = some key
      · by_cases hp : p = m
        · simp [hk, hp] at hg ⊢
          omega
        · simp [hk, hp] at hg ⊢
          omega
      · simp [hk] at hg ⊢
    | read n =>
      refine Safe.bind ((quota_read c n session hs g).mono ?_)
      rintro r g' ⟨h1, rfl⟩
      refine ih _ h1 g' ?_
      simpa [List.countP_cons] using hg

/-- Is it an encryption of the message with the key? -/
def isSealing (key m : Bytes) (e : Bytes × Bytes × Bytes) : Bool := e.1 = key ∧ e.2.2 = m

/-- The invariant: encryptions made and allowed. -/
structure QuotaHolds (s : CSys C) (gs : List Nat) (key m : Bytes) (total : Nat) : Prop where
  len : gs.length = s.threads.length
  safe : ∀ (i : Nat) (t : CThread C) (g : Nat), s.threads[i]? = some t → gs[i]? = some g →
    Safe (quotaA C key m) t.prog g (fun _ _ => True)
  count : s.shared.sealed.countP (isSealing key m) + gs.sum ≤ total
  nonces : ∀ e ∈ s.shared.sealed, ∃ v : BitVec 64, e.2.1 = Wire.nonce12 0 v.toNat

theorem sum_set_nat {gs : List Nat} {i g : Nat} (h : gs[i]? = some g) (g' : Nat) :
    (gs.set i g').sum + g = gs.sum + g' := by
  induction gs generalizing i with
  | nil => simp at h
  | cons x gs ih =>
    cases i with
    | zero =>
      simp only [List.getElem?_cons_zero, Option.some.injEq] at h
      subst h
      simp only [List.set_cons_zero, List.sum_cons]
      omega
    | succ i =>
      have := ih (i := i) (by simpa using h)
      simp only [List.set_cons_succ, List.sum_cons]
      omega

theorem exec_sealed (env : CEnv C) (o : COp) (c : CConn) (w : CShared) :
    (cexec env o (c, w)).2.2.sealed = w.sealed ++ match o with
      | .aead k n p => [(k, n, p)]
      | _ => [] := by
  cases o with
  | close => simp only [cexec]; split <;> simp
  | _ => simp [cexec]

theorem quota_step (s : CSys C) {gs : List Nat} {total : Nat} (h : QuotaHolds s gs key m total)
    (act : Nat × CEnv C) : ∃ gs', QuotaHolds (s.step act) gs' key m total := by
  unfold CSys.step
  split
  · exact ⟨gs, h⟩
  · rename_i t ht
    have hi : act.1 < gs.length := by
      rw [h.len]; exact (List.getElem?_eq_some_iff.mp ht).1
    have hg : gs[act.1]? = some gs[act.1] := List.getElem?_eq_getElem hi
    have hsafe := h.safe act.1 t _ ht hg
    split
    · rename_i o kont hprog
      rw [hprog] at hsafe
      refine ⟨gs.set act.1 ((quotaA C key m).next o (cexec act.2 o (t.conn, s.shared)).1 gs[act.1]),
        ?_, ?_, ?_, ?_⟩
      · simp [h.len]
      · intro j t' g' hj hgj
        by_cases hij : act.1 = j
        · subst hij
          rw [List.getElem?_set_self (by rw [← h.len]; exact hi)] at hj
          rw [List.getElem?_set_self hi] at hgj
          cases hj; cases hgj
          exact hsafe.2 _
        · rw [List.getElem?_set_ne hij] at hj hgj
          exact h.safe j t' g' hj hgj
      · have hsum := sum_set_nat hg ((quotaA C key m).next o (cexec act.2 o (t.conn, s.shared)).1 gs[act.1])
        have hc := h.count
        rw [exec_sealed]
        cases o with
        | aead k n p =>
          obtain ⟨h1, -⟩ := hsafe.1
          have hn : (quotaA C key m).next (.aead k n p) (cexec act.2 (.aead k n p) (t.conn, s.shared)).1
            gs[act.1] = if k = key ∧ p = m then gs[act.1] - 1 else gs[act.1] := rfl
          rw [hn] at hsum ⊢
          simp only [List.countP_append, List.countP_cons, List.countP_nil]
          by_cases hkm : k = key ∧ p = m
          · have h2 := h1 hkm
            have h3 : isSealing key m (k, n, p) = true := by simpa [isSealing] using hkm
            rw [if_pos hkm] at hsum ⊢
            rw [if_pos h3]
            omega
          · have h3 : ¬ isSealing key m (k, n, p) = true := by simpa [isSealing] using hkm
            rw [if_neg hkm] at hsum ⊢
            rw [if_neg h3]
            omega
        | _ =>
          have hn : (gs.set act.1 gs[act.1]).sum = gs.sum := by
            have := sum_set_nat hg gs[act.1]
            omega
          simp only [List.append_nil]
          show _ + (gs.set act.1 gs[act.1]).sum ≤ _
          rw [hn]
          exact hc
      · rw [exec_sealed]
        intro e he
        rcases List.mem_append.mp he with he | he
        · exact h.nonces e he
        · cases o with
          | aead k n p =>
            rw [List.mem_singleton] at he
            subst he
            exact hsafe.1.2
          | _ => simp at he
    · exact ⟨gs, h⟩

theorem quota_run (acts : List (Nat × CEnv C)) (s : CSys C) {gs : List Nat} {total : Nat}
    (h : QuotaHolds s gs key m total) : ∃ gs', QuotaHolds (s.run acts) gs' key m total := by
  induction acts generalizing s gs with
  | nil => exact ⟨gs, h⟩
  | cons act acts ih =>
    obtain ⟨gs', h'⟩ := quota_step s h act
    exact ih _ h'

/-- The clients encrypt a message with a key at most as often as `Write` is called with it. -/
theorem quota_bound (k : Nat) (workers : List Worker) (hok : ∀ w ∈ workers, w.ok)
    (acts : List (Nat × CEnv C)) (key m : Bytes) :
    ((CSys.start C k workers).run acts).shared.sealed.countP (isSealing key m) ≤
      (workers.map (Worker.sends C key m)).sum ∧
    ∀ e ∈ ((CSys.start C k workers).run acts).shared.sealed, ∃ v : BitVec 64,
      e.2.1 = Wire.nonce12 0 v.toNat := by
  have h0 : QuotaHolds (CSys.start C k workers) (workers.map (Worker.sends C key m)) key m
      (workers.map (Worker.sends C key m)).sum := by
    refine ⟨by simp [CSys.start], ?_, by simp [CSys.start], by simp [CSys.start]⟩
    intro i t g ht hg
    simp only [CSys.start, List.getElem?_map, Option.map_eq_some_iff] at ht hg
    obtain ⟨w, hw1, rfl⟩ := ht
    obtain ⟨w', hw2, rfl⟩ := hg
    rw [hw1] at hw2
    cases hw2
    exact quota_calls w.calls w.client w.session (hok w (List.mem_of_getElem? hw1)) _ (Nat.le_refl _)
  obtain ⟨gs, h⟩ := quota_run acts _ h0
  exact ⟨by have := h.count; omega, h.nonces⟩

end

end Goe2ee
