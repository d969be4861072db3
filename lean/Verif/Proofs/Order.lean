import Verif.Proofs.Counter
import Verif.Spec.Order

/-!
# Goroutines send what they have drawn
-/

set_option autoImplicit false

namespace Goe2ee

theorem counterIn_request (id : ID) (v : BitVec 64) (msg : Bytes) (expectReply : Bool) :
    counterIn (newProcessRequest id v msg expectReply).bytes = v.toNat := by
  have hid := id.property
  obtain ⟨x, y, rest, h⟩ : ∃ x y rest, (newProcessRequest id v msg expectReply).bytes =
      ([x, y] ++ id.val) ++ (beEnc 8 v.toNat ++ rest) := by
    refine ⟨0x13#8, if expectReply then 0x80#8 else 0x00#8, beEnc 8 (msg.length % 2 ^ 64) ++ msg, ?_⟩
    cases expectReply <;>
    simp [ProcessRequest.bytes, newProcessRequest, RequestCommon.bytes, version1, actionProcess]
  rw [h, counterIn, List.drop_append_of_le_length (by simp [hid]), List.drop_of_length_le (by simp [hid]),
    List.nil_append, List.take_append_of_le_length (by simp), List.take_of_length_le (by simp)]
  show beDec (beEnc 8 v.toNat) = v.toNat
  rw [beDec_beEnc]
  exact Nat.mod_eq_of_lt v.isLt

/-- Ghost state of a goroutine: the value drawn and not yet sent, and a bound on the values sent. -/
structure Ord where
  held : Option Nat
  last : Nat

section
variable {C : Crypto}

/-- What is sent was drawn from the counter at address `a`. -/
def ordA (C : Crypto) (a : Nat) : Auto (CSig C) Ord where
  pre
    | .addCounter a', g => a' = a ∧ g.held = none
    | .write bs, g => g.held = some (counterIn bs)
    | _, _ => True
  next
    | .addCounter _, (v : BitVec 64), g => { g with held := if v = 0 then none else some v.toNat }
    | .write bs, _, _ => { held := none, last := counterIn bs }
    | _, _, g => g

theorem ord_readDeadline {a : Nat} {timeout : Int} {g : Ord} {F : Option Err → Ord → Prop}
    {E : String → Ord → Prop} (hF : ∀ r, F r g) : SafeE (ordA C a)
      (if timeout > 0 then .op .setReadDeadline .ret else .ret none : CProg C (Option Err)) g F E := by
  split
  · exact ⟨trivial, fun r => hF r⟩
  · exact hF none

theorem ord_writeDeadline {a : Nat} {timeout : Int} {g : Ord} {F : Option Err → Ord → Prop}
    {E : String → Ord → Prop} (hF : ∀ r, F r g) : SafeE (ordA C a)
      (if timeout > 0 then .op .setWriteDeadline .ret else .ret none : CProg C (Option Err)) g F E := by
  split
  · exact ⟨trivial, fun r => hF r⟩
  · exact hF none

theorem ord_read {a : Nat} (c : Client) (n : Nat) (session : ClientSession) (hs : c.session = some session)
    (g : Ord) : SafeE (ordA C a) (c.read n) g
      (fun r g' => r.2.session = some session ∧ g' = g) (fun _ _ => True) := by
  have hconn : ∀ {α : Type} (p : RProg α) {Q : α → Ord → Prop}, (∀ a, Q a g) →
      SafeE (ordA C a) (onClientConn p) g Q (fun _ _ => True) := by
    intro α p Q hQ
    refine SafeE.of_uses (reading_onClientConn p) ?_ ?_ hQ (fun _ => trivial)
    · intro o g h; cases o <;> first | trivial | exact h.elim
    · intro o r g h; cases o <;> first | rfl | exact h.elim
  have hbuf : ∀ c : Client, c.session = some session → (readBuffer c n).2.session = some session := by
    intro c h
    rw [readBuffer]
    split <;> exact h
  unfold Client.read
  refine SafeE.bind (ord_readDeadline fun r => ?_)
  cases r with
  | some e => exact ⟨hs, rfl⟩
  | none =>
  dsimp only
  split
  · exact ⟨hbuf c hs, rfl⟩
  refine SafeE.bind (hconn _ fun parsed => ?_)
  rcases parsed with _ | common
  · exact ⟨hs, rfl⟩
  dsimp only
  split
  · refine SafeE.bind (hconn _ fun parsed => ?_)
    cases parsed <;> exact ⟨hs, rfl⟩
  refine SafeE.bind (hconn _ fun parsed => ?_)
  rcases parsed with _ | response
  · exact ⟨hs, rfl⟩
  dsimp only
  split
  · exact ⟨hs, rfl⟩
  split
  · trivial
  split
  · exact ⟨hs, rfl⟩
  rw [show gcmNonceSize = 12 from rfl, C12_nonce_layout]
  dsimp only [ofClientRes, Prog.ret_bind]
  split
  · exact ⟨hs, rfl⟩
  · exact ⟨hbuf _ hs, rfl⟩

theorem ord_write (c : Client) (p : Bytes) (session : ClientSession)
    (hs : c.session = some session) (g : Ord) (hg : g.held = none) :
    SafeE (ordA C session.sendCounter) (c.write p) g
      (fun r g' => r.2.session = some session ∧ g'.held = none) (fun _ _ => True) := by
  unfold Client.write
  refine SafeE.bind (ord_writeDeadline fun r => ?_)
  cases r with
  | some e => exact ⟨hs, hg⟩
  | none =>
  dsimp only
  rw [hs]
  dsimp only
  cases hn : newGCM C session.secret with
  | error e => exact ⟨hs, hg⟩
  | ok key =>
  refine ⟨⟨rfl, hg⟩, fun (v : BitVec 64) => ?_⟩
  dsimp only
  by_cases hv : v = 0
  · rw [if_pos hv]
    refine ⟨hs, ?_⟩
    show (if v = 0 then none else _) = none
    rw [if_pos hv]
  · rw [if_neg hv, show gcmNonceSize = 12 from rfl, C12_nonce_layout]
    dsimp only [ofClientRes, Prog.ret_bind]
    refine ⟨trivial, fun (sealed : Bytes) => ⟨?_, fun _ => ⟨rfl, rfl⟩⟩⟩
    show (if v = 0 then none else _) = _
    rw [if_neg hv]
    rw [counterIn_request]

theorem ord_calls (calls : List CCall) (c : Client) (session : ClientSession)
    (hs : c.session = some session) (g : Ord) (hg : g.held = none) :
    SafeE (ordA C session.sendCounter) (c.calls calls) g (fun _ _ => True) (fun _ _ => True) := by
  induction calls generalizing c g with
  | nil => trivial
  | cons call calls ih =>
    refine SafeE.bind ?_
    cases call with
    | write p =>
      refine SafeE.bind ((ord_write c p session hs g hg).mono ?_ fun _ _ _ => trivial)
      exact fun r g' ⟨h1, h2⟩ => ih _ h1 g' h2
    | read n =>
      refine SafeE.bind ((ord_read c n session hs g).mono ?_ fun _ _ _ => trivial)
      rintro r g' ⟨h1, rfl⟩
      exact ih _ h1 g' hg

/-! ## The invariant -/

/-- `tr` has been sent so far. -/
structure OrdHolds (addr : Nat → Nat) (s : CSys C) (issued : Nat → Nat) (os : List Ord) (tr : List (Nat × Bytes)) :
    Prop where
  len : os.length = s.threads.length
  safe : ∀ (i : Nat) (t : CThread C) (g : Ord), s.threads[i]? = some t → os[i]? = some g →
    SafeE (ordA C (addr i)) t.prog g (fun _ _ => True) (fun _ _ => True)
  last : ∀ (i : Nat) (g : Ord), os[i]? = some g → g.last ≤ issued (addr i)
  held : ∀ (i : Nat) (g : Ord) (v : Nat), os[i]? = some g → g.held = some v → g.last < v ∧ v ≤ issued (addr i)
  apart : ∀ (i j : Nat) (g g' : Ord) (v : Nat), os[i]? = some g → os[j]? = some g' → i ≠ j → addr i = addr j →
    g.held = some v → g'.held ≠ some v
  before : ∀ x ∈ tr, ∃ g, os[x.1]? = some g ∧ counterIn x.2 ≤ g.last
  fresh : ∀ x ∈ tr, ∀ (j : Nat) (g : Ord), os[j]? = some g → addr x.1 = addr j → g.held ≠ some (counterIn x.2)
  pairs : tr.Pairwise fun x y => addr x.1 = addr y.1 → counterIn x.2 ≠ counterIn y.2 ∧
    (x.1 = y.1 → counterIn x.2 < counterIn y.2)

/-- A step that changes one goroutine, not what it holds. -/
theorem OrdHolds.keep {addr : Nat → Nat} {s : CSys C} {issued issued' : Nat → Nat} {os : List Ord}
    {tr : List (Nat × Bytes)} (h : OrdHolds addr s issued os tr) (hmono : ∀ a, issued a ≤ issued' a)
    (i : Nat) (g : Ord) (hg : os[i]? = some g) (t : CThread C) (w : CShared)
    (hs : SafeE (ordA C (addr i)) t.prog g (fun _ _ => True) (fun _ _ => True)) :
    OrdHolds addr (CSys.mk w (s.threads.set i t)) issued' os tr where
  len := by simp [h.len]
  safe j t' g' hj hgj := by
    have hi : i < s.threads.length := by rw [← h.len]; exact (List.getElem?_eq_some_iff.mp hg).1
    by_cases hij : i = j
    · subst hij
      dsimp only at hj
      rw [List.getElem?_set_self hi] at hj
      rw [hg] at hgj
      cases hj; cases hgj
      exact hs
    · dsimp only at hj
      rw [List.getElem?_set_ne hij] at hj
      exact h.safe j t' g' hj hgj
  last j g' hj := Nat.le_trans (h.last j g' hj) (hmono _)
  held j g' v hj hv := ⟨(h.held j g' v hj hv).1, Nat.le_trans (h.held j g' v hj hv).2 (hmono _)⟩
  apart := h.apart
  before := h.before
  fresh := h.fresh
  pairs := h.pairs

/-- A goroutine changes what it holds. -/
theorem OrdHolds.put {addr : Nat → Nat} {s : CSys C} {issued issued' : Nat → Nat} {os : List Ord}
    {tr tr' : List (Nat × Bytes)} (h : OrdHolds addr s issued os tr) (hmono : ∀ a, issued a ≤ issued' a)
    (i : Nat) (g g' : Ord) (hg : os[i]? = some g) (t : CThread C) (w : CShared)
    (hs : SafeE (ordA C (addr i)) t.prog g' (fun _ _ => True) (fun _ _ => True))
    (hlast : g.last ≤ g'.last ∧ g'.last ≤ issued' (addr i))
    (hheld : ∀ v, g'.held = some v → g'.last < v ∧ v ≤ issued' (addr i) ∧
      (∀ j g, os[j]? = some g → i ≠ j → addr i = addr j → g.held ≠ some v) ∧
      ∀ x ∈ tr', addr x.1 = addr i → counterIn x.2 ≠ v)
    (hbefore : ∀ x ∈ tr', x ∉ tr → x.1 = i ∧ counterIn x.2 ≤ g'.last)
    (hfresh : ∀ x ∈ tr', ∀ (j : Nat) (g : Ord), i ≠ j → os[j]? = some g → addr x.1 = addr j →
      g.held ≠ some (counterIn x.2))
    (hpairs : tr'.Pairwise fun x y => addr x.1 = addr y.1 → counterIn x.2 ≠ counterIn y.2 ∧
      (x.1 = y.1 → counterIn x.2 < counterIn y.2)) :
    OrdHolds addr (CSys.mk w (s.threads.set i t)) issued' (os.set i g') tr' := by
  have hio : i < os.length := (List.getElem?_eq_some_iff.mp hg).1
  have hi : i < s.threads.length := by rw [← h.len]; exact hio
  have hget : ∀ (j : Nat) (q : Ord), (os.set i g')[j]? = some q → (i = j ∧ q = g') ∨ (i ≠ j ∧ os[j]? = some q) := by
    intro j q hq
    by_cases hij : i = j
    · subst hij
      rw [List.getElem?_set_self hio] at hq
      exact .inl ⟨rfl, (Option.some.inj hq).symm⟩
    · rw [List.getElem?_set_ne hij] at hq
      exact .inr ⟨hij, hq⟩
  refine ⟨by simp [h.len], ?_, ?_, ?_, ?_, ?_, ?_, hpairs⟩
  · intro j t' q hj hq
    dsimp only at hj
    rcases hget j q hq with ⟨rfl, rfl⟩ | ⟨hij, hq⟩
    · rw [List.getElem?_set_self hi] at hj
      cases hj
      exact hs
    · rw [List.getElem?_set_ne hij] at hj
      exact h.safe j t' q hj hq
  · intro j q hq
    rcases hget j q hq with ⟨rfl, rfl⟩ | ⟨hij, hq⟩
    · exact hlast.2
    · exact Nat.le_trans (h.last j q hq) (hmono _)
  · intro j q v hq hv
    rcases hget j q hq with ⟨rfl, rfl⟩ | ⟨hij, hq⟩
    · exact ⟨(hheld v hv).1, (hheld v hv).2.1⟩
    · exact ⟨(h.held j q v hq hv).1, Nat.le_trans (h.held j q v hq hv).2 (hmono _)⟩
  · intro j j' q q' v hq hq' hjj haddr hv hv'
    rcases hget j q hq with ⟨e1, e2⟩ | ⟨hij, hq1⟩
    · rcases hget j' q' hq' with ⟨e3, -⟩ | ⟨hij', hq1'⟩
      · exact hjj (e1.symm.trans e3)
      · rw [e2] at hv
        rw [← e1] at haddr
        exact (hheld v hv).2.2.1 j' q' hq1' hij' haddr hv'
    · rcases hget j' q' hq' with ⟨e3, e4⟩ | ⟨hij', hq1'⟩
      · rw [e4] at hv'
        rw [← e3] at haddr
        exact (hheld v hv').2.2.1 j q hq1 hij haddr.symm hv
      · exact h.apart j j' q q' v hq1 hq1' hjj haddr hv hv'
  · intro x hx
    by_cases hxt : x ∈ tr
    · obtain ⟨q, hq, hle⟩ := h.before x hxt
      by_cases hix : i = x.1
      · rw [← hix] at hq
        rw [hg] at hq
        cases hq
        exact ⟨g', by rw [← hix, List.getElem?_set_self hio], Nat.le_trans hle hlast.1⟩
      · exact ⟨q, by rw [List.getElem?_set_ne hix]; exact hq, hle⟩
    · obtain ⟨h1, h2⟩ := hbefore x hx hxt
      exact ⟨g', by rw [h1, List.getElem?_set_self hio], h2⟩
  · intro x hx j q hq haddr hv
    rcases hget j q hq with ⟨rfl, rfl⟩ | ⟨hij, hq⟩
    · exact (hheld _ hv).2.2.2 x hx haddr rfl
    · exact hfresh x hx j q hij hq haddr hv

theorem ord_step {k : Nat} {keyOf : Nat → Bytes → Prop} {addr : Nat → Nat} (s : CSys C) {gs : List Draw}
    {used : List ((Nat × BitVec 64) × Bytes)} {issued : Nat → Nat} {os : List Ord} {tr : List (Nat × Bytes)}
    (hd : DrawHolds s gs used issued k keyOf) (h : OrdHolds addr s issued os tr) (act : Nat × CEnv C) :
    ∃ gs' used' issued' os', DrawHolds (s.step act) gs' used' issued' k keyOf ∧
      OrdHolds addr (s.step act) issued' os' (tr ++ s.sends act) := by
  obtain ⟨gs', used', issued', hd', hmono⟩ := draw_step s hd act
  refine ⟨gs', used', issued', ?_⟩
  have hrefl : OrdHolds addr s issued' os tr :=
    ⟨h.len, h.safe, fun i g hi => Nat.le_trans (h.last i g hi) (hmono _),
      fun i g v hi hv => ⟨(h.held i g v hi hv).1, Nat.le_trans (h.held i g v hi hv).2 (hmono _)⟩,
      h.apart, h.before, h.fresh, h.pairs⟩
  suffices ∃ os', OrdHolds addr (s.step act) issued' os' (tr ++ s.sends act) from
    this.elim fun os' h' => ⟨os', hd', h'⟩
  have hcount := hd'.shared.counter
  have hbud := hd'.shared.budget
  clear hd'
  unfold CSys.step at hcount ⊢
  unfold CSys.sends
  cases ht : s.threads[act.1]? with
  | none => exact ⟨os, by simpa [ht] using hrefl⟩
  | some t =>
    rw [ht] at hcount
    dsimp only at hcount ⊢
    have hi : act.1 < os.length := by
      rw [h.len]; exact (List.getElem?_eq_some_iff.mp ht).1
    have hg : os[act.1]? = some os[act.1] := List.getElem?_eq_getElem hi
    generalize os[act.1] = g at hg
    have hsafe := h.safe act.1 t _ ht hg
    cases hprog : t.prog with
    | ret c => exact ⟨os, by simpa using hrefl⟩
    | panic m => exact ⟨os, by simpa using hrefl⟩
    | op o kont =>
      rw [hprog] at hsafe hcount
      dsimp only at hcount ⊢
      have hkeep : (ordA C (addr act.1)).next o (cexec act.2 o (t.conn, s.shared)).1 g = g →
          ∃ os', OrdHolds addr (CSys.mk (cexec act.2 o (t.conn, s.shared)).2.2
            (s.threads.set act.1 (CThread.mk (cexec act.2 o (t.conn, s.shared)).2.1
              (kont (cexec act.2 o (t.conn, s.shared)).1)))) issued' os' tr := by
        intro he
        have := hsafe.2 (cexec act.2 o (t.conn, s.shared)).1
        rw [he] at this
        exact ⟨os, h.keep hmono act.1 g hg _ _ this⟩
      cases o with
      | write bs =>
        refine ⟨os.set act.1 ⟨none, counterIn bs⟩, ?_⟩
        have hheld : g.held = some (counterIn bs) := hsafe.1
        obtain ⟨h1, h2⟩ := h.held act.1 g _ hg hheld
        refine h.put hmono act.1 g _ hg _ _ (hsafe.2 _) ⟨Nat.le_of_lt h1, Nat.le_trans h2 (hmono _)⟩
          (fun v hv => by cases hv) ?_ ?_ ?_
        · intro x hx hxt
          rcases List.mem_append.mp hx with hx | hx
          · exact absurd hx hxt
          · rw [List.mem_singleton.mp hx]
            exact ⟨rfl, Nat.le_refl _⟩
        · intro x hx j q hij hq haddr
          rcases List.mem_append.mp hx with hx | hx
          · exact h.fresh x hx j q hq haddr
          · rw [List.mem_singleton.mp hx] at haddr ⊢
            exact h.apart act.1 j g q _ hg hq hij haddr hheld
        · rw [List.pairwise_append]
          refine ⟨h.pairs, List.pairwise_singleton _ _, ?_⟩
          intro x hx y hy haddr
          rw [List.mem_singleton.mp hy] at haddr ⊢
          dsimp only at haddr ⊢
          refine ⟨fun he => h.fresh x hx act.1 g hg haddr (by rw [hheld, he]), fun hxi => ?_⟩
          obtain ⟨q, hq, hle⟩ := h.before x hx
          rw [hxi, hg] at hq
          cases hq
          omega
      | addCounter a =>
        obtain ⟨ha, hnone⟩ := hsafe.1
        have hgi : act.1 < gs.length := by
          rw [hd.len]; exact (List.getElem?_eq_some_iff.mp ht).1
        have hpre := hd.safe act.1 t gs[act.1] ht (List.getElem?_eq_getElem hgi)
        rw [hprog] at hpre
        obtain ⟨-, -, hak⟩ := hpre.1
        have hget : s.shared.counters.getD a 0 = BitVec.ofNat 64 (issued a) := by
          rw [List.getD_eq_getElem?_getD, hd.shared.counter a hak]; rfl
        have hcs : s.shared.counters.length = k := hd.shared.len
        have hnew := hcount a hak
        have hv : ∀ v : BitVec 64, v = s.shared.counters.getD a 0 + 1 → v ≠ 0 →
            issued a < v.toNat ∧ v.toNat ≤ issued' a := by
          intro v hv hv0
          have e1 : (cexec act.2 (.addCounter a) (t.conn, s.shared)).2.2.counters =
            s.shared.counters.set a (s.shared.counters.getD a 0 + 1) := rfl
          rw [e1, List.getElem?_set_self (by rw [hcs]; exact hak)] at hnew
          have e2 : v = BitVec.ofNat 64 (issued' a) := by rw [hv]; exact Option.some.inj hnew
          have e3 : v.toNat = issued' a % 2 ^ 64 := by rw [e2, BitVec.toNat_ofNat]
          have e4 : v.toNat = (issued a + 1) % 2 ^ 64 := by
            rw [hv, hget, BitVec.toNat_add, BitVec.toNat_ofNat]
            simp
          have e5 : issued' a ≤ 2 ^ 64 := by have := hbud a; omega
          have e6 : issued a ≤ issued' a := hmono a
          have e7 : v.toNat ≠ 0 := fun h0 => hv0 (BitVec.eq_of_toNat_eq h0)
          have e8 := v.isLt
          omega
        subst ha
        have hnext := hsafe.2 (s.shared.counters.getD (addr act.1) 0 + 1)
        refine ⟨os.set act.1 ⟨if s.shared.counters.getD (addr act.1) 0 + 1 = 0 then none
          else some (s.shared.counters.getD (addr act.1) 0 + 1).toNat, g.last⟩, ?_⟩
        rw [List.append_nil]
        refine h.put hmono act.1 g _ hg _ _ hnext
          ⟨Nat.le_refl _, Nat.le_trans (h.last act.1 g hg) (hmono _)⟩ ?_
          (fun x hx hxt => absurd hx hxt) (fun x hx j q _ hq haddr => h.fresh x hx j q hq haddr) h.pairs
        intro v hv'
        dsimp only at hv' ⊢
        split at hv'
        · cases hv'
        · rename_i hne
          obtain ⟨h1, h2⟩ := hv _ rfl hne
          rw [Option.some.inj hv'] at h1 h2
          have h3 := h.last act.1 g hg
          refine ⟨by omega, h2, fun j q hq _ haddr hqv => ?_, fun x hx haddr he => ?_⟩
          · have := (h.held j q v hq hqv).2
            rw [← haddr] at this
            omega
          · obtain ⟨q, hq, hle⟩ := h.before x hx
            have := h.last x.1 q hq
            rw [haddr] at this
            omega
      | close => simpa using hkeep rfl
      | _ => simpa using hkeep rfl

theorem ord_run {k : Nat} {keyOf : Nat → Bytes → Prop} {addr : Nat → Nat} (acts : List (Nat × CEnv C)) (s : CSys C)
    {gs : List Draw} {used : List ((Nat × BitVec 64) × Bytes)} {issued : Nat → Nat} {os : List Ord}
    {tr : List (Nat × Bytes)} (hd : DrawHolds s gs used issued k keyOf) (h : OrdHolds addr s issued os tr) :
    ∃ issued' os', OrdHolds addr (s.run acts) issued' os' (tr ++ s.sent acts) := by
  induction acts generalizing s gs used issued os tr with
  | nil => exact ⟨issued, os, by rw [CSys.sent, List.append_nil]; exact h⟩
  | cons act acts ih =>
    obtain ⟨gs', used', issued', os', hd', h'⟩ := ord_step s hd h act
    obtain ⟨issued'', os'', h''⟩ := ih _ hd' h'
    rw [List.append_assoc] at h''
    exact ⟨issued'', os'', h''⟩

/-- The address of the send counter of goroutine `i`. -/
def addrOf (workers : List Worker) (i : Nat) : Nat := ((workers[i]?).map (·.session.sendCounter)).getD 0

theorem ord_start {k : Nat} {workers : List Worker} (hok : ∀ w ∈ workers, w.ok) :
    OrdHolds (addrOf workers) (CSys.start C k workers) (fun _ => 0) (workers.map fun _ => ⟨none, 0⟩) [] := by
  have hget : ∀ (i : Nat) (g : Ord), (workers.map fun _ => (⟨none, 0⟩ : Ord))[i]? = some g → g = ⟨none, 0⟩ := by
    intro i g hi
    rw [List.getElem?_map, Option.map_eq_some_iff] at hi
    obtain ⟨_, _, rfl⟩ := hi
    rfl
  refine ⟨by simp [CSys.start], ?_, ?_, ?_, ?_, by simp, by simp, List.Pairwise.nil⟩
  · intro i t g ht hg
    rw [hget i g hg]
    simp only [CSys.start, List.getElem?_map, Option.map_eq_some_iff] at ht
    obtain ⟨w, hw, rfl⟩ := ht
    have : addrOf workers i = w.session.sendCounter := by simp [addrOf, hw]
    rw [this]
    exact ord_calls w.calls w.client w.session (hok w (List.mem_of_getElem? hw)) _ rfl
  · intro i g hg
    rw [hget i g hg]
    exact Nat.le_refl _
  · intro i g v hg hv
    rw [hget i g hg] at hv
    cases hv
  · intro i j g g' v hg _ _ _ hv
    rw [hget i g hg] at hv
    cases hv

end

end Goe2ee
