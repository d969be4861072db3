import Verif.Proofs.UDPClient
import Verif.Proofs.Safe
import Verif.Spec.Counter

/-!
# Send counters of a process

Every goroutine carries a ghost state: the counter value it has drawn and not used, and how many
values it may still draw.
-/

set_option autoImplicit false

namespace Goe2ee

/-- Ghost state of a goroutine: a drawn value (counter address and value) and, by address, the
number of draws left. -/
structure Draw where
  held : Option (Nat × BitVec 64)
  left : Nat → Nat

section
variable (C : Crypto)

/-- Drawn values are used once, with the key of the counter's session. -/
def drawA (k : Nat) (keyOf : Nat → Bytes → Prop) : Auto (CSig C) Draw where
  pre
    | .addCounter a, g => g.held = none ∧ 0 < g.left a ∧ a < k
    | .aead key nonce _, g => ∃ a v, g.held = some (a, v) ∧ keyOf a key ∧ nonce = Wire.nonce12 0 v.toNat
    | .newCounter, _ => False
    | _, _ => True
  next
    | .addCounter a, (v : BitVec 64), g =>
      { held := if v = 0 then none else some (a, v), left := fun b => if b = a then g.left a - 1 else g.left b }
    | .aead _ _ _, _, g => { g with held := none }
    | _, _, g => g

variable {C} {k : Nat} {keyOf : Nat → Bytes → Prop}

theorem draw_readDeadline {timeout : Int} {g : Draw} {F : Option Err → Draw → Prop}
    {E : String → Draw → Prop} (hF : ∀ r, F r g) : SafeE (drawA C k keyOf)
      (if timeout > 0 then .op .setReadDeadline .ret else .ret none : CProg C (Option Err)) g F E := by
  split
  · exact ⟨trivial, fun r => hF r⟩
  · exact hF none

theorem draw_writeDeadline {timeout : Int} {g : Draw} {F : Option Err → Draw → Prop}
    {E : String → Draw → Prop} (hF : ∀ r, F r g) : SafeE (drawA C k keyOf)
      (if timeout > 0 then .op .setWriteDeadline .ret else .ret none : CProg C (Option Err)) g F E := by
  split
  · exact ⟨trivial, fun r => hF r⟩
  · exact hF none

theorem draw_read (c : Client) (n : Nat) (session : ClientSession) (hs : c.session = some session)
    (g : Draw) : SafeE (drawA C k keyOf) (c.read n) g
      (fun r g' => r.2.session = some session ∧ g' = g) (fun _ _ => True) := by
  have hconn : ∀ {α : Type} (p : RProg α) {Q : α → Draw → Prop}, (∀ a, Q a g) →
      SafeE (drawA C k keyOf) (onClientConn p) g Q (fun _ _ => True) := by
    intro α p Q hQ
    refine SafeE.of_uses (reading_onClientConn p) ?_ ?_ hQ (fun _ => trivial)
    · intro o g h; cases o <;> first | trivial | exact h.elim
    · intro o r g h; cases o <;> first | rfl | exact h.elim
  have hbuf : ∀ c : Client, c.session = some session → (readBuffer c n).2.session = some session := by
    intro c h
    rw [readBuffer]
    split <;> exact h
  unfold Client.read
  refine SafeE.bind (draw_readDeadline fun r => ?_)
  cases r with
  | some e => exact ⟨hs, rfl⟩
  | none =>
  dsimp only
  split
  · exact ⟨hbuf c hs, rfl⟩
  refine SafeE.bind (hconn _ fun parsed => ?_)
  rcases parsed with _ | common
  · exact ⟨hs, rfl⟩
  dsimp only
  split
  · refine SafeE.bind (hconn _ fun parsed => ?_)
    cases parsed <;> exact ⟨hs, rfl⟩
  refine SafeE.bind (hconn _ fun parsed => ?_)
  rcases parsed with _ | response
  · exact ⟨hs, rfl⟩
  dsimp only
  split
  · exact ⟨hs, rfl⟩
  split
  · trivial
  split
  · exact ⟨hs, rfl⟩
  rw [show gcmNonceSize = 12 from rfl, C12_nonce_layout]
  dsimp only [ofClientRes, Prog.ret_bind]
  split
  · exact ⟨hs, rfl⟩
  · exact ⟨hbuf _ hs, rfl⟩

theorem draw_write (c : Client) (p : Bytes) (session : ClientSession) (hs : c.session = some session)
    (hk : session.sendCounter < k)
    (hkey : ∀ key, deriveKey C session.secret kdfInfo aesKeySize = .ok key → keyOf session.sendCounter key)
    (m : Nat) (g : Draw) (hg : g.held = none) (hl : m + 1 ≤ g.left session.sendCounter) :
    SafeE (drawA C k keyOf) (c.write p) g
      (fun r g' => r.2.session = some session ∧ g'.held = none ∧ m ≤ g'.left session.sendCounter)
      (fun _ _ => True) := by
  unfold Client.write
  refine SafeE.bind (draw_writeDeadline fun r => ?_)
  cases r with
  | some e => exact ⟨hs, hg, by omega⟩
  | none =>
  dsimp only
  rw [hs]
  dsimp only
  cases hn : newGCM C session.secret with
  | error e => exact ⟨hs, hg, by omega⟩
  | ok key =>
  refine ⟨⟨hg, by omega, hk⟩, fun (v : BitVec 64) => ?_⟩
  have hleft : m ≤ (fun b => if b = session.sendCounter then g.left session.sendCounter - 1 else g.left b)
      session.sendCounter := by
    simp only [if_true]; omega
  dsimp only
  by_cases hv : v = 0
  · rw [if_pos hv]
    refine ⟨hs, ?_, hleft⟩
    show (if v = 0 then none else _) = none
    rw [if_pos hv]
  · rw [if_neg hv, show gcmNonceSize = 12 from rfl, C12_nonce_layout]
    dsimp only [ofClientRes, Prog.ret_bind]
    refine ⟨⟨session.sendCounter, v, ?_, hkey key (newGCM_key hn), rfl⟩, fun _ => ⟨trivial, fun _ =>
      ⟨rfl, rfl, hleft⟩⟩⟩
    show (if v = 0 then none else _) = _
    rw [if_neg hv]

theorem draw_calls (calls : List CCall) (c : Client) (session : ClientSession)
    (hs : c.session = some session) (hk : session.sendCounter < k)
    (hkey : ∀ key, deriveKey C session.secret kdfInfo aesKeySize = .ok key → keyOf session.sendCounter key)
    (g : Draw) (hg : g.held = none)
    (hl : (calls.countP fun | .write _ => true | .read _ => false) ≤ g.left session.sendCounter) :
    SafeE (drawA C k keyOf) (c.calls calls) g (fun _ _ => True) (fun _ _ => True) := by
  induction calls generalizing c g with
  | nil => trivial
  | cons call calls ih =>
    refine SafeE.bind ?_
    cases call with
    | write p =>
      refine SafeE.bind ((draw_write c p session hs hk hkey _ g hg (by
        simpa [List.countP_cons] using hl)).mono ?_ fun _ _ _ => trivial)
      exact fun r g' ⟨h1, h2, h3⟩ => ih _ h1 g' h2 h3
    | read n =>
      refine SafeE.bind ((draw_read c n session hs g).mono ?_ fun _ _ _ => trivial)
      rintro r g' ⟨h1, rfl⟩
      exact ih _ h1 g' hg (by simpa [List.countP_cons] using hl)

/-! ## The invariant -/

/-- Draws left at address `a` in all goroutines. -/
def leftAt (gs : List Draw) (a : Nat) : Nat := (gs.map (·.left a)).sum

/-- Drawn values that are not used yet. -/
def heldIn (gs : List Draw) : List (Nat × BitVec 64) := gs.filterMap (·.held)

/-- The key and nonce of a recorded encryption. -/
def keyNonce (e : Bytes × Bytes × Bytes) : Bytes × Bytes := (e.1, e.2.1)

variable (k keyOf) in
/-- `used` are the drawn values, with their keys, of the recorded encryptions; `issued` counts the
draws by address. -/
structure DrawInv (w : CShared) (gs : List Draw) (used : List ((Nat × BitVec 64) × Bytes))
    (issued : Nat → Nat) : Prop where
  len : w.counters.length = k
  counter : ∀ a, a < k → w.counters[a]? = some (BitVec.ofNat 64 (issued a))
  budget : ∀ a, issued a + leftAt gs a ≤ 2 ^ 64
  sealed : w.sealed.map keyNonce = used.map fun u => (u.2, Wire.nonce12 0 u.1.2.toNat)
  key : ∀ u ∈ used, keyOf u.1.1 u.2
  nodup : (used.map (·.1) ++ heldIn gs).Nodup
  range : ∀ u ∈ used.map (·.1) ++ heldIn gs, 1 ≤ u.2.toNat ∧ u.2.toNat ≤ issued u.1

theorem leftAt_set {gs : List Draw} {i : Nat} {g g' : Draw} (h : gs[i]? = some g) (a : Nat) :
    leftAt (gs.set i g') a + g.left a = leftAt gs a + g'.left a := by
  unfold leftAt
  induction gs generalizing i with
  | nil => simp at h
  | cons x gs ih =>
    cases i with
    | zero =>
      simp only [List.getElem?_cons_zero, Option.some.injEq] at h
      subst h
      simp only [List.set_cons_zero, List.map_cons, List.sum_cons]
      omega
    | succ i =>
      have := ih (i := i) (by simpa using h)
      simp only [List.set_cons_succ, List.map_cons, List.sum_cons]
      omega

/-- Replacing one ghost state replaces its drawn value. -/
theorem heldIn_set {gs : List Draw} {i : Nat} {g : Draw} (h : gs[i]? = some g) (g' : Draw) :
    ∃ l r, heldIn gs = l ++ g.held.toList ++ r ∧ heldIn (gs.set i g') = l ++ g'.held.toList ++ r := by
  have hi := (List.getElem?_eq_some_iff.mp h).1
  have hg := (List.getElem?_eq_some_iff.mp h).2
  refine ⟨heldIn (gs.take i), heldIn (gs.drop (i + 1)), ?_, ?_⟩
  · have : gs = gs.take i ++ g :: gs.drop (i + 1) := by
      rw [← hg, List.getElem_cons_drop, List.take_append_drop]
    refine (congrArg heldIn this).trans ?_
    simp only [heldIn, List.filterMap_append, List.filterMap_cons]
    cases g.held <;> simp
  · rw [List.set_eq_take_append_cons_drop, if_pos hi]
    simp only [heldIn, List.filterMap_append, List.filterMap_cons]
    cases g'.held <;> simp

theorem DrawInv.same {w : CShared} {gs : List Draw} {used : List ((Nat × BitVec 64) × Bytes)}
    {issued : Nat → Nat} (h : DrawInv k keyOf w gs used issued) {i : Nat} {g : Draw}
    (hg : gs[i]? = some g) : DrawInv k keyOf w (gs.set i g) used issued := by
  have : gs.set i g = gs := by
    apply List.ext_getElem?
    intro j
    rw [List.getElem?_set]
    split
    · rename_i hij
      subst hij
      rw [hg]
      simp [(List.getElem?_eq_some_iff.mp hg).1]
    · rfl
  rw [this]
  exact h

theorem exec_draw (env : CEnv C) (o : COp) (c : CConn) (w : CShared) (gs : List Draw) (i : Nat) (g : Draw)
    (hg : gs[i]? = some g) (hpre : (drawA C k keyOf).pre o g) {used : List ((Nat × BitVec 64) × Bytes)}
    {issued : Nat → Nat} (h : DrawInv k keyOf w gs used issued) :
    ∃ used' issued', DrawInv k keyOf (cexec env o (c, w)).2.2
      (gs.set i ((drawA C k keyOf).next o (cexec env o (c, w)).1 g)) used' issued' ∧ ∀ a, issued a ≤ issued' a := by
  cases o with
  | newCounter => exact hpre.elim
  | addCounter a =>
    obtain ⟨h1, h2, h3⟩ := hpre
    have hget : w.counters.getD a 0 = BitVec.ofNat 64 (issued a) := by
      rw [List.getD_eq_getElem?_getD, h.counter a h3]; rfl
    have hv : w.counters.getD a 0 + 1 = BitVec.ofNat 64 (issued a + 1) := by
      rw [hget]
      apply BitVec.eq_of_toNat_eq
      simp
    have hla : g.left a ≤ leftAt gs a := by
      have := leftAt_set (g' := ⟨none, fun _ => 0⟩) hg a
      simp only at this
      omega
    have hbud := h.budget a
    generalize hissued : (fun b => if b = a then issued a + 1 else issued b) = issued'
    have hia : issued' a = issued a + 1 := by rw [← hissued]; simp
    have hib : ∀ b, b ≠ a → issued' b = issued b := by
      intro b hb; rw [← hissued]; simp [hb]
    have hle : ∀ b, issued b ≤ issued' b := by
      intro b
      by_cases hb : b = a
      · subst hb; omega
      · rw [hib b hb]; exact Nat.le_refl _
    show ∃ used' issued', DrawInv k keyOf { w with counters := w.counters.set a (w.counters.getD a 0 + 1) }
      (gs.set i ⟨if w.counters.getD a 0 + 1 = 0 then none else some (a, w.counters.getD a 0 + 1),
        fun b => if b = a then g.left a - 1 else g.left b⟩) used' issued' ∧ ∀ b, issued b ≤ issued' b
    rw [hv]
    obtain ⟨l, r, e1, e2⟩ := heldIn_set hg
      ⟨if BitVec.ofNat 64 (issued a + 1) = 0 then none else some (a, BitVec.ofNat 64 (issued a + 1)),
        fun b => if b = a then g.left a - 1 else g.left b⟩
    rw [h1] at e1
    simp only [Option.toList, List.append_nil] at e1
    have hnd := h.nodup
    have hrange := h.range
    rw [e1] at hnd hrange
    refine ⟨used, issued', ⟨by simpa using h.len, ?_, ?_, h.sealed, h.key, ?_, ?_⟩, hle⟩
    · intro b hb
      by_cases hba : b = a
      · subst hba
        rw [hia]
        exact List.getElem?_set_self (by rw [h.len]; exact hb)
      · rw [hib b hba, List.getElem?_set_ne (Ne.symm hba)]
        exact h.counter b hb
    · intro b
      have hs := leftAt_set (g' := ⟨if BitVec.ofNat 64 (issued a + 1) = 0 then none
        else some (a, BitVec.ofNat 64 (issued a + 1)),
        fun b => if b = a then g.left a - 1 else g.left b⟩) hg b
      by_cases hba : b = a
      · subst hba
        simp only [if_true] at hs
        omega
      · simp only [if_neg hba] at hs
        have := h.budget b
        rw [hib b hba]
        omega
    · rw [e2]
      by_cases hz : BitVec.ofNat 64 (issued a + 1) = 0
      · simpa [hz] using hnd
      · simp only [hz, if_false, Option.toList]
        have hlt : issued a + 1 < 2 ^ 64 := by
          rcases Nat.lt_or_ge (issued a + 1) (2 ^ 64) with hlt | hge
          · exact hlt
          · exfalso
            apply hz
            rw [show issued a + 1 = 2 ^ 64 by omega]
            rfl
        have hnew : (a, BitVec.ofNat 64 (issued a + 1)) ∉ used.map (·.1) ++ (l ++ r) := by
          intro hm
          have := (hrange _ hm).2
          simp only [BitVec.toNat_ofNat] at this
          rw [Nat.mod_eq_of_lt hlt] at this
          omega
        have hperm : (used.map (·.1) ++ (l ++ [(a, BitVec.ofNat 64 (issued a + 1))] ++ r)).Perm
            ((a, BitVec.ofNat 64 (issued a + 1)) :: (used.map (·.1) ++ (l ++ r))) := by
          rw [List.append_assoc l, ← List.append_assoc (used.map _), ← List.append_assoc (used.map _) l r]
          exact List.perm_middle
        exact (hperm.nodup_iff).mpr (List.nodup_cons.mpr ⟨hnew, hnd⟩)
    · rw [e2]
      intro u hu
      have hold : u ∈ used.map (·.1) ++ (l ++ r) → 1 ≤ u.2.toNat ∧ u.2.toNat ≤ issued' u.1 := by
        intro hm
        have := hrange u hm
        exact ⟨this.1, Nat.le_trans this.2 (hle _)⟩
      by_cases hz : BitVec.ofNat 64 (issued a + 1) = 0
      · simp only [hz, if_true, Option.toList, List.append_nil] at hu
        exact hold hu
      · simp only [hz, if_false, Option.toList] at hu
        have hm : u = (a, BitVec.ofNat 64 (issued a + 1)) ∨ u ∈ used.map (·.1) ++ (l ++ r) := by
          simp only [List.mem_append, List.mem_cons, List.not_mem_nil, or_false] at hu ⊢
          rcases hu with hu | (hu | hu) | hu
          · exact Or.inr (Or.inl hu)
          · exact Or.inr (Or.inr (Or.inl hu))
          · exact Or.inl hu
          · exact Or.inr (Or.inr (Or.inr hu))
        rcases hm with rfl | hm
        · refine ⟨?_, ?_⟩
          · dsimp only
            rcases Nat.eq_zero_or_pos (BitVec.ofNat 64 (issued a + 1)).toNat with h0 | h0
            · exact absurd (BitVec.eq_of_toNat_eq h0) hz
            · exact h0
          · simp only [BitVec.toNat_ofNat, hia]
            exact Nat.mod_le _ _
        · exact hold hm
  | aead key nonce pt =>
    obtain ⟨a, v, h1, h2, h3⟩ := hpre
    show ∃ used' issued', DrawInv k keyOf { w with sealed := w.sealed ++ [(key, nonce, pt)] }
      (gs.set i { g with held := none }) used' issued' ∧ ∀ b, issued b ≤ issued' b
    obtain ⟨l, r, e1, e2⟩ := heldIn_set hg { g with held := none }
    rw [h1] at e1
    simp only [Option.toList, List.append_nil] at e1 e2
    have hnd := h.nodup
    have hrange := h.range
    rw [e1] at hnd hrange
    have hperm : ((used ++ [((a, v), key)]).map (·.1) ++ (l ++ r)).Perm
        (used.map (·.1) ++ (l ++ [(a, v)] ++ r)) := by
      rw [List.map_append, List.append_assoc]
      refine List.Perm.append_left _ ?_
      rw [List.append_assoc]
      exact (List.perm_middle (l₁ := l)).symm
    refine ⟨used ++ [((a, v), key)], issued, ⟨h.len, h.counter, ?_, ?_, ?_, ?_, ?_⟩, fun _ => Nat.le_refl _⟩
    · intro b
      have := leftAt_set (g' := { g with held := none }) hg b
      have := h.budget b
      simp only at *
      omega
    · simp [h.sealed, keyNonce, h3]
    · intro u hu
      rcases List.mem_append.mp hu with hu | hu
      · exact h.key u hu
      · rw [List.mem_singleton] at hu
        subst hu
        exact h2
    · rw [e2]
      exact hperm.nodup_iff.mpr hnd
    · rw [e2]
      intro u hu
      exact hrange u (hperm.mem_iff.mp hu)
  | close =>
    refine ⟨used, issued, ?_, fun _ => Nat.le_refl _⟩
    simp only [cexec]
    split <;> exact h.same hg
  | _ => exact ⟨used, issued, h.same hg, fun _ => Nat.le_refl _⟩

/-- The invariant of the process. -/
structure DrawHolds (s : CSys C) (gs : List Draw) (used : List ((Nat × BitVec 64) × Bytes))
    (issued : Nat → Nat) (k : Nat) (keyOf : Nat → Bytes → Prop) : Prop where
  len : gs.length = s.threads.length
  safe : ∀ (i : Nat) (t : CThread C) (g : Draw), s.threads[i]? = some t → gs[i]? = some g →
    SafeE (drawA C k keyOf) t.prog g (fun _ _ => True) (fun _ _ => True)
  shared : DrawInv k keyOf s.shared gs used issued

theorem draw_step (s : CSys C) {gs : List Draw} {used : List ((Nat × BitVec 64) × Bytes)}
    {issued : Nat → Nat} (h : DrawHolds s gs used issued k keyOf) (act : Nat × CEnv C) :
    ∃ gs' used' issued', DrawHolds (s.step act) gs' used' issued' k keyOf ∧ ∀ a, issued a ≤ issued' a := by
  unfold CSys.step
  split
  · exact ⟨gs, used, issued, h, fun _ => Nat.le_refl _⟩
  · rename_i t ht
    have hi : act.1 < gs.length := by
      rw [h.len]; exact (List.getElem?_eq_some_iff.mp ht).1
    have hg : gs[act.1]? = some gs[act.1] := List.getElem?_eq_getElem hi
    have hsafe := h.safe act.1 t _ ht hg
    split
    · rename_i o kont hprog
      rw [hprog] at hsafe
      obtain ⟨used', issued', hinv, hmono⟩ := exec_draw act.2 o t.conn s.shared gs act.1 _ hg hsafe.1 h.shared
      refine ⟨_, used', issued', ⟨?_, ?_, hinv⟩, hmono⟩
      · simp [h.len]
      · intro j t' g' hj hgj
        by_cases hij : act.1 = j
        · subst hij
          rw [List.getElem?_set_self (by rw [← h.len]; exact hi)] at hj
          rw [List.getElem?_set_self hi] at hgj
          cases hj; cases hgj
          exact hsafe.2 _
        · rw [List.getElem?_set_ne hij] at hj hgj
          exact h.safe j t' g' hj hgj
    · exact ⟨gs, used, issued, h, fun _ => Nat.le_refl _⟩

theorem draw_run (acts : List (Nat × CEnv C)) (s : CSys C) {gs : List Draw}
    {used : List ((Nat × BitVec 64) × Bytes)} {issued : Nat → Nat}
    (h : DrawHolds s gs used issued k keyOf) :
    ∃ gs' used' issued', DrawHolds (s.run acts) gs' used' issued' k keyOf := by
  induction acts generalizing s gs used issued with
  | nil => exact ⟨gs, used, issued, h⟩
  | cons act acts ih =>
    obtain ⟨gs', used', issued', h', -⟩ := draw_step s h act
    exact ih _ h'

/-- Calls of `Write` on clients that share the counter at address `a`. -/
def writesAt (workers : List Worker) (a : Nat) : Nat :=
  (workers.map fun w => if w.session.sendCounter = a then w.writes else 0).sum

theorem draw_start {workers : List Worker} (hok : ∀ w ∈ workers, w.ok) (hS : Sessions C k workers)
    (hw : ∀ a, writesAt workers a ≤ 2 ^ 64) :
    DrawHolds (CSys.start C k workers)
      (workers.map fun w => ⟨none, fun b => if w.session.sendCounter = b then w.writes else 0⟩) [] (fun _ => 0) k
      (fun a key => ∃ w ∈ workers, w.session.sendCounter = a ∧
        deriveKey C w.session.secret kdfInfo aesKeySize = .ok key) := by
  have hheld : heldIn (workers.map fun w => (⟨none, fun b =>
      if w.session.sendCounter = b then w.writes else 0⟩ : Draw)) = [] := by
    unfold heldIn
    rw [List.filterMap_map]
    simp [Function.comp_def]
  refine ⟨by simp [CSys.start], ?_, ?_⟩
  · intro i t g ht hg
    simp only [CSys.start, List.getElem?_map, Option.map_eq_some_iff] at ht hg
    obtain ⟨w, hw1, rfl⟩ := ht
    obtain ⟨w', hw2, rfl⟩ := hg
    rw [hw1] at hw2
    cases hw2
    have hm := List.mem_of_getElem? hw1
    refine draw_calls w.calls w.client w.session (hok w hm) (hS.1 w hm) ?_ _ rfl ?_
    · exact fun key hk => ⟨w, hm, rfl, hk⟩
    · simp only [if_true]
      exact Nat.le_refl _
  · refine ⟨by simp [CSys.start], ?_, ?_, rfl, by simp, ?_, ?_⟩
    · intro a ha
      simp [CSys.start, List.getElem?_replicate, ha]
    · intro a
      have := hw a
      simp only [leftAt, List.map_map, Function.comp_def]
      rw [Nat.zero_add]
      exact this
    · rw [hheld]; simp
    · rw [hheld]; simp

theorem draw_nodup {w : CShared} {gs : List Draw} {used : List ((Nat × BitVec 64) × Bytes)}
    {issued : Nat → Nat} (h : DrawInv k keyOf w gs used issued)
    (hinj : ∀ a a' key, keyOf a key → keyOf a' key → a = a') : (w.sealed.map keyNonce).Nodup := by
  rw [h.sealed]
  have hnd := (List.nodup_append.mp h.nodup).1
  unfold List.Nodup at hnd ⊢
  rw [List.pairwise_map] at hnd ⊢
  refine hnd.imp_of_mem ?_
  intro u u' hu hu' hne heq
  apply hne
  simp only [Prod.mk.injEq] at heq
  have h1 := h.key u hu
  have h2 := h.key u' hu'
  rw [heq.1] at h1
  refine Prod.ext (hinj _ _ _ h1 h2) ?_
  exact (C12_nonce_injective 0 0 u.1.2 u'.1.2 12 (by decide) _ (C12_nonce_layout _ _)
    (by rw [heq.2]; exact C12_nonce_layout _ _)).2

/-! ## One goroutine alone -/

theorem CSys.run_append (s : CSys C) (acts acts' : List (Nat × CEnv C)) :
    s.run (acts ++ acts') = (s.run acts).run acts' := List.foldl_append

/-- A program that runs to its end alone also does so under the scheduler. -/
theorem alone {env : CEnv C} (p : CProg C Client) {s s' : CConn} {w w' : CShared} {c : Client}
    (h : p.run (cexec env) (s, w) = (.val c, (s', w'))) :
    ∃ acts, CSys.run ⟨w, [⟨s, p⟩]⟩ acts = ⟨w', [⟨s', .ret c⟩]⟩ := by
  induction p generalizing s w with
  | ret a =>
    simp only [Prog.run, Prod.mk.injEq, Res.val.injEq] at h
    obtain ⟨rfl, rfl, rfl⟩ := h
    exact ⟨[], rfl⟩
  | panic m => simp [Prog.run] at h
  | op o kont ih =>
    obtain ⟨acts, ha⟩ := ih _ (s := (cexec env o (s, w)).2.1) (w := (cexec env o (s, w)).2.2) h
    exact ⟨(0, env) :: acts, ha⟩

/-- Whatever the counter's value, calls of `Write` advance it and only add encryptions. -/
theorem many_writes (hC : C.Lawful) {env : CEnv C} (hd : env.writeDeadline = none)
    {session : ClientSession} (ha : session.sendCounter = 0) (p : Bytes) (hp : p.length < 2 ^ 63)
    (rest : List CCall) (n : Nat) (c : Client) (hs : c.session = some session) (s : CConn) (v : BitVec 64)
    (es : List (Bytes × Bytes × Bytes)) : ∃ (c' : Client) (s' : CConn) (es' : List (Bytes × Bytes × Bytes)),
      (c.calls (List.replicate n (.write p) ++ rest)).run (cexec env) (s, ⟨[v], es⟩) =
        (c'.calls rest).run (cexec env) (s', ⟨[v + BitVec.ofNat 64 n], es ++ es'⟩) ∧
      c'.session = some session := by
  induction n generalizing c s v es with
  | zero => exact ⟨c, s, [], by simp, hs⟩
  | succ n ih =>
    obtain ⟨key, hk, -⟩ := newGCM_ok hC session.secret
    have hv : v + 1 + BitVec.ofNat 64 n = v + BitVec.ofNat 64 (n + 1) := by
      rw [BitVec.add_assoc]
      congr 1
      apply BitVec.eq_of_toNat_eq
      simp [Nat.add_comm]
    rw [List.replicate_succ, List.cons_append, Client.calls, Prog.run_bind, Client.call, Prog.run_bind]
    by_cases h0 : v + 1 = 0
    · rw [write_exhausted hC hd hs hk (by rw [ha]; exact h0)]
      obtain ⟨c', s', es', h1, h2⟩ := ih c hs s 0 es
      refine ⟨c', s', es', ?_, h2⟩
      rw [← hv, h0, ← h1, ha]
      rfl
    · rw [write_run hC hd hs hk (v + 1) (by rw [ha]; rfl) h0 hp]
      dsimp only [Prog.run]
      rw [ha]
      obtain ⟨c', s', es', h1, h2⟩ := ih { c with lastSentCounter := v + 1 } hs
        { s with net := s.net.written, writes := s.writes ++ [(writeRequest C c session key (v + 1) p,
            (writeRequest C c session key (v + 1) p).length - env.write.1, env.write.2)] } (v + 1)
        (es ++ [(key, Wire.nonce12 0 (v + 1).toNat, p)])
      refine ⟨c', s', (key, Wire.nonce12 0 (v + 1).toNat, p) :: es', ?_, h2⟩
      rw [← hv, show es ++ (key, Wire.nonce12 0 (v + 1).toNat, p) :: es' =
        es ++ [(key, Wire.nonce12 0 (v + 1).toNat, p)] ++ es' from List.append_cons ..]
      exact h1

end

end Goe2ee
