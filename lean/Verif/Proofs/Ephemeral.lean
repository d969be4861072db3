import Verif.Proofs.SystemWorld
import Verif.Spec.Ephemeral

/-!
# Tokens: what a goroutine draws it uses at most once
-/

set_option autoImplicit false

namespace Goe2ee

section
variable {C : Crypto}

/-- A goroutine holds at most one key; effects that `sel` selects use it up, and `F` relates the key to what was
selected. -/
def ephA (sel : SOp → Option Bytes) (F : C.EPriv → Bytes → Prop) : Auto (SSig C) (Option C.EPriv) where
  pre o g := ∀ b, sel o = some b → ∃ k, g = some k ∧ F k b
  next
    | .genKey, r, g => match (r : Except Err C.EPriv) with
      | .ok k => some k
      | .error _ => g
    | o, _, g => if (sel o).isSome then none else g

/-- Neither generates a key nor uses one. -/
def SOp.keyless (sel : SOp → Option Bytes) : SOp → Prop
  | .genKey => False
  | o => sel o = none

theorem eph_plain {sel : SOp → Option Bytes} {F : C.EPriv → Bytes → Prop} {α : Type} {p : SProg C α}
    (hp : Uses (S := SSig C) (SOp.keyless sel) p) {g : Option C.EPriv} {Q : α → Option C.EPriv → Prop}
    (hQ : ∀ a, Q a g) : Safe (ephA sel F) p g Q := by
  refine Safe.of_uses hp ?_ ?_ hQ
  · intro o g ho b hb
    cases o <;> first | exact absurd (hb.symm.trans ho) (by simp) | exact ho.elim
  · intro o r g ho
    cases o <;> first | exact ho.elim | exact if_neg (by rw [show sel _ = none from ho]; simp)

theorem filterMap_set_perm {K : Type} (gs : List (Option K)) (i : Nat) (g g' : Option K) (h : gs[i]? = some g) :
    ((gs.set i g').filterMap id ++ g.toList).Perm (gs.filterMap id ++ g'.toList) := by
  induction gs generalizing i with
  | nil => simp at h
  | cons x gs ih =>
    cases i with
    | zero =>
      simp only [List.getElem?_cons_zero, Option.some.injEq] at h
      subst h
      rw [List.set_cons_zero]
      have e : ∀ (y : Option K), (y :: gs).filterMap id = y.toList ++ gs.filterMap id := by
        intro y; cases y <;> rfl
      rw [e, e, List.append_assoc, List.append_assoc]
      exact ((List.perm_append_comm).append_left _).trans
        ((List.perm_append_comm_assoc _ _ _).trans (List.perm_append_comm.append_left _))
    | succ i =>
      simp only [List.getElem?_cons_succ] at h
      rw [List.set_cons_succ]
      cases x with
      | none => exact ih i h
      | some k => exact (ih i h).cons k

/-- Every goroutine respects the automaton, with these ghost states. -/
structure EphOK (sel : SOp → Option Bytes) (F : C.EPriv → Bytes → Prop) (s : Sys C)
    (gs : List (Option C.EPriv)) : Prop where
  len : gs.length = s.threads.length
  safe : ∀ (i : Nat) (t : Thread C) (g : Option C.EPriv), s.threads[i]? = some t → gs[i]? = some g →
    ThreadOK (ephA sel F) t g
  spawned : s.world.spawned = []

variable {sel : SOp → Option Bytes} {F : C.EPriv → Bytes → Prop}

theorem EphOK.set {M : Manager C} {s : Sys C} {gs : List (Option C.EPriv)} (h : EphOK sel F s gs)
    (hspawn : ∀ p, ThreadOK (ephA sel F) (Thread.ofPeer M p) none) (i : Nat) (t : Thread C) (g : Option C.EPriv)
    (ht : ThreadOK (ephA sel F) t g) (w : World) (hi : i < s.threads.length) :
    EphOK sel F { world := { w with spawned := [] }, threads := s.threads.set i t ++ w.spawned.map (Thread.ofPeer M) }
      (gs.set i g ++ List.replicate w.spawned.length none) := by
  refine ⟨by simp [h.len], ?_, rfl⟩
  intro j t'' g'' hj hgj
  dsimp only at hj
  have hlen : (s.threads.set i t).length = (gs.set i g).length := by simp [h.len]
  rw [List.getElem?_append] at hj hgj
  rw [hlen] at hj
  split at hj
  · rename_i hjl
    rw [if_pos hjl] at hgj
    by_cases hij : i = j
    · subst hij
      rw [List.getElem?_set_self hi] at hj
      rw [List.getElem?_set_self (by rw [h.len]; exact hi)] at hgj
      cases hj; cases hgj
      exact ht
    · rw [List.getElem?_set_ne hij] at hj hgj
      exact h.safe j t'' g'' hj hgj
  · rename_i hjl
    rw [if_neg hjl] at hgj
    obtain ⟨p, hp, rfl⟩ := List.mem_map.mp (List.mem_of_getElem? hj)
    rw [(List.mem_replicate.mp (List.mem_of_getElem? hgj)).2]
    exact hspawn p

theorem filterMap_replicate_none {K : Type} (n : Nat) : (List.replicate n (none : Option K)).filterMap id = [] := by
  induction n with
  | zero => rfl
  | succ n ih => rw [List.replicate_succ]; exact ih

theorem drawnBy_other {o : SOp} (r : Except Err C.EPriv) (h : o ≠ .genKey) : drawnBy [o] r = [] := by
  unfold drawnBy
  split
  · rename_i _ ho
    cases ho
    exact absurd rfl h
  · rfl

@[simp] theorem drawnBy_nil (r : Except Err C.EPriv) : drawnBy [] r = [] := by
  unfold drawnBy
  split
  · rename_i _ ho
    cases ho
  · rfl

@[simp] theorem drawnBy_ok (k : C.EPriv) : drawnBy [.genKey] (.ok k) = [k] := rfl

@[simp] theorem drawnBy_error (e : Err) : drawnBy (C := C) [.genKey] (.error e) = [] := rfl

theorem EphOK.step {M : Manager C} {s : Sys C} {gs : List (Option C.EPriv)} (h : EphOK sel F s gs)
    (hgen : sel .genKey = none) (hspawn : ∀ p, ThreadOK (ephA sel F) (Thread.ofPeer M p) none) (timeout : Nat)
    (act : Nat × Answer C) :
    ∃ gs', ∃ (l : List (C.EPriv × Bytes)), ∃ waste, EphOK sel F (s.step M timeout act) gs' ∧ l.map (·.2) = (s.effect act).filterMap sel ∧
      (∀ x ∈ l, F x.1 x.2) ∧
      (l.map (·.1) ++ gs'.filterMap id ++ waste).Perm (gs.filterMap id ++ s.drawn act) := by
  unfold Sys.step Sys.drawn Sys.effect
  cases ht : s.threads[act.1]? with
  | none => exact ⟨gs, [], [], h, rfl, by simp, by simp⟩
  | some t =>
    dsimp only
    have hi : act.1 < s.threads.length := (List.getElem?_eq_some_iff.mp ht).1
    have hig : act.1 < gs.length := by rw [h.len]; exact hi
    have hg : gs[act.1]? = some gs[act.1] := List.getElem?_eq_getElem hig
    generalize gs[act.1] = g at hg
    obtain ⟨L, D, hp, hl, hd⟩ := h.safe _ t g ht hg
    have hquiet : ∀ t', ThreadOK (ephA sel F) t' g → t.step timeout act.2 s.world = (t', s.world) →
        EphOK sel F (Sys.mk { (t.step timeout act.2 s.world).2 with spawned := [] }
          (s.threads.set act.1 (t.step timeout act.2 s.world).1 ++
            (t.step timeout act.2 s.world).2.spawned.map (Thread.ofPeer M))) gs := by
      intro t' ht' heq
      rw [heq]
      have := h.set hspawn act.1 t' g ht' s.world hi
      rw [h.spawned, set_same hg] at this
      simpa [h.spawned] using this
    have hdef : D g → ThreadOK (ephA sel F) { t with prog := t.deferred, loop := .ret false, deferred := .ret false } g := by
      intro hg
      refine ⟨fun _ => True, fun _ => True, ?_, fun _ _ => trivial, fun _ _ => trivial⟩
      exact (hd g hg).trivially (fun a _ => by cases a <;> trivial) (fun _ _ => trivial)
    cases hprog : t.prog with
    | ret b =>
      rw [hprog] at hp
      refine ⟨gs, [], [], ?_, rfl, by simp, by simp⟩
      cases b with
      | true =>
        exact hquiet { t with prog := t.loop } ⟨L, D, hl g hp, hl, hd⟩ (by unfold Thread.step; rw [hprog])
      | false =>
        exact hquiet { t with prog := t.deferred, loop := .ret false, deferred := .ret false } (hdef hp)
          (by unfold Thread.step; rw [hprog])
    | panic m =>
      rw [hprog] at hp
      exact ⟨gs, [], [], hquiet _ (hdef hp) (by unfold Thread.step; rw [hprog]), rfl, by simp, by simp⟩
    | op o k =>
      rw [hprog] at hp
      dsimp only
      by_cases hen : enabled s.world o = true
      · rw [if_pos hen]
        have heq : t.step timeout act.2 s.world =
            ({ t with prog := k (exec C timeout act.2 o (t.conn, s.world)).1,
                      conn := (exec C timeout act.2 o (t.conn, s.world)).2.1 },
              (exec C timeout act.2 o (t.conn, s.world)).2.2) := by
          unfold Thread.step
          rw [hprog]
          dsimp only
          rw [if_pos hen]
        rw [heq]
        dsimp only
        have hok := fun r => h.set hspawn act.1
          { t with prog := k r, conn := (exec C timeout act.2 o (t.conn, s.world)).2.1 }
          ((ephA sel F).next o r g) ⟨L, D, hp.2 r, hl, hd⟩ (exec C timeout act.2 o (t.conn, s.world)).2.2 hi
        replace hok := hok (exec C timeout act.2 o (t.conn, s.world)).1
        have hset := filterMap_set_perm gs act.1 g ((ephA sel F).next o (exec C timeout act.2 o (t.conn, s.world)).1 g) hg
        generalize hg' : (ephA sel F).next o (exec C timeout act.2 o (t.conn, s.world)).1 g = g' at hok hset
        cases hsel : sel o with
        | some b =>
          obtain ⟨key, rfl, hF⟩ := hp.1 b hsel
          have hne : o ≠ .genKey := fun ho => by rw [ho, hgen] at hsel; cases hsel
          have hg'' : g' = none := by
            rw [← hg']
            cases o <;> first | exact absurd rfl hne | exact if_pos (by rw [hsel]; rfl)
          subst hg''
          refine ⟨_, [(key, b)], [], hok, by simp [hsel], by simpa using hF, ?_⟩
          rw [List.filterMap_append, filterMap_replicate_none]
          simp only [List.append_nil, List.map_cons, List.map_nil]
          rw [drawnBy_other _ hne, List.append_nil]
          simp only [Option.toList_some, Option.toList_none, List.append_nil] at hset
          exact List.perm_append_comm.trans hset
        | none =>
          by_cases hgk : o = .genKey
          · subst hgk
            cases hk : act.2.genKey with
            | error e =>
              have : g' = g := by
                rw [← hg']
                show (match (exec C timeout act.2 .genKey (t.conn, s.world)).1 with
                  | .ok k => some k
                  | .error _ => g) = g
                rw [show (exec C timeout act.2 .genKey (t.conn, s.world)).1 = act.2.genKey from rfl, hk]
              subst this
              refine ⟨_, [], [], hok, by simp [hsel], by simp, ?_⟩
              rw [List.filterMap_append, filterMap_replicate_none, set_same hg]
              simp
            | ok key =>
              have : g' = some key := by
                rw [← hg']
                show (match (exec C timeout act.2 .genKey (t.conn, s.world)).1 with
                  | .ok k => some k
                  | .error _ => g) = some key
                rw [show (exec C timeout act.2 .genKey (t.conn, s.world)).1 = act.2.genKey from rfl, hk]
              subst this
              refine ⟨_, [], g.toList, hok, by simp [hsel], by simp, ?_⟩
              rw [List.filterMap_append, filterMap_replicate_none]
              simpa using hset
          · have : g' = g := by
              rw [← hg']
              cases o <;> first | exact absurd rfl hgk | exact if_neg (by rw [hsel]; simp)
            subst this
            refine ⟨_, [], [], hok, by simp [hsel], by simp, ?_⟩
            rw [List.filterMap_append, filterMap_replicate_none, set_same hg, drawnBy_other _ hgk]
            simp
      · rw [if_neg hen]
        refine ⟨gs, [], [], hquiet t ⟨L, D, by rw [hprog]; exact hp, hl, hd⟩ ?_, rfl, by simp, by simp⟩
        unfold Thread.step
        rw [hprog]
        dsimp only
        rw [if_neg hen]

theorem EphOK.run {M : Manager C} (hgen : sel .genKey = none)
    (hspawn : ∀ p, ThreadOK (ephA sel F) (Thread.ofPeer M p) none) (timeout : Nat) (acts : List (Nat × Answer C))
    (s : Sys C) (gs : List (Option C.EPriv)) (h : EphOK sel F s gs) :
    ∃ l : List (C.EPriv × Bytes), ∃ unused, l.map (·.2) = (s.effects M timeout acts).filterMap sel ∧ (∀ x ∈ l, F x.1 x.2) ∧
      (l.map (·.1) ++ unused).Perm (gs.filterMap id ++ s.generated M timeout acts) := by
  induction acts generalizing s gs with
  | nil => exact ⟨[], gs.filterMap id, rfl, by simp, by simp [Sys.generated]⟩
  | cons act acts ih =>
    obtain ⟨gs', l, waste, h1, h2, h3, h4⟩ := h.step hgen hspawn timeout act
    obtain ⟨l', unused, g1, g2, g3⟩ := ih _ gs' h1
    refine ⟨l ++ l', waste ++ unused, ?_, ?_, ?_⟩
    · rw [Sys.effects, List.filterMap_append, List.map_append, h2, g1]
    · intro x hx
      rcases List.mem_append.mp hx with hx | hx
      · exact h3 x hx
      · exact g2 x hx
    · rw [Sys.generated, List.map_append, ← List.append_assoc (gs.filterMap id)]
      refine List.Perm.trans ?_ (h4.append_right _)
      have e1 : (l.map (·.1) ++ l'.map (·.1) ++ (waste ++ unused)).Perm
          (l.map (·.1) ++ waste ++ (l'.map (·.1) ++ unused)) := by
        simp only [List.append_assoc]
        refine List.Perm.append_left _ ?_
        simp only [← List.append_assoc]
        exact List.perm_append_comm.append_right _
      refine e1.trans ((g3.append_left _).trans ?_)
      simp only [List.append_assoc]
      refine List.Perm.append_left _ ?_
      simp only [← List.append_assoc]
      exact List.perm_append_comm.append_right _

end

end Goe2ee
