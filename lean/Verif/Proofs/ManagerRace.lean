import Verif.Proofs.Manager

/-!
# Interleaved calls of the in-memory session manager
-/

set_option autoImplicit false

namespace Goe2ee

section
variable {C : Crypto}

/-- Effects of calls that concern other ids. -/
def Elsewhere (k : Bytes) : SOp → Prop
  | .mapStore key _ => key ≠ k
  | .mapDelete key => key ≠ k
  | .mapLoad _ => True
  | .now => True
  | _ => False

theorem prog_elsewhere (ttl : Nat) (c : MCall) (k : Bytes) (h : c.key ≠ k) :
    Uses (S := SSig C) (Elsewhere k) (c.prog C ttl) := by
  cases c with
  | store id r => exact ⟨trivial, fun _ => ⟨h, fun _ => trivial⟩⟩
  | load id =>
    refine ⟨trivial, fun (value : Option (Ref × Nat)) => ?_⟩
    rcases value with _ | ⟨r, u⟩
    · trivial
    · exact ⟨trivial, fun _ => ⟨h, fun _ => trivial⟩⟩
  | visit id =>
    refine ⟨trivial, fun (value : Option (Ref × Nat)) => ?_⟩
    rcases value with _ | ⟨r, u⟩
    · trivial
    · refine ⟨trivial, fun (t : Nat) => ?_⟩
      dsimp only
      split
      · exact ⟨h, fun _ => trivial⟩
      · trivial

theorem exec_elsewhere (a : Answer C) (o : SOp) (c : Conn) (w : World) (k : Bytes)
    (h : Elsewhere k o) :
    (exec C 0 a o (c, w)).2.2.table k = w.table k ∧ w.now ≤ (exec C 0 a o (c, w)).2.2.now := by
  cases o with
  | mapStore key v => exact ⟨if_neg (fun e => h e.symm), Nat.le_refl _⟩
  | mapDelete key => exact ⟨if_neg (fun e => h e.symm), Nat.le_refl _⟩
  | mapLoad key => exact ⟨rfl, Nat.le_refl _⟩
  | now => exact ⟨rfl, Nat.le_add_right _ _⟩
  | _ => exact h.elim

/-- What remains of a `Load` that sees the session `r`. -/
inductive LoadPhase (k : Bytes) (r : Ref) (lo : Nat) : SProg C (Option Ref) → Prop
  | load : LoadPhase k r lo (.op (.mapLoad k) fun (value : Option (Ref × Nat)) =>
      match value with
      | none => .ret none
      | some (session, _) =>
        .op .now fun (t : Nat) => .op (.mapStore k (session, t)) fun _ => .ret (some session))
  | loaded : LoadPhase k r lo
      (.op .now fun (t : Nat) => .op (.mapStore k (r, t)) fun _ => .ret (some r))
  | timed (t : Nat) (h : lo ≤ t) : LoadPhase k r lo (.op (.mapStore k (r, t)) fun _ => .ret (some r))
  | done : LoadPhase k r lo (.ret (some r))

/-- What remains of a visit of the collector. -/
inductive VisitPhase (k : Bytes) (ttl lo : Nat) : SProg C (Option Ref) → Prop
  | visit : VisitPhase k ttl lo ((.op (.mapLoad k) fun (value : Option (Ref × Nat)) =>
      (match value with
      | none => .ret true
      | some (_, lastAccessAt) =>
        .op .now fun (t : Nat) =>
          if t - lastAccessAt > ttl then .op (.mapDelete k) fun _ => .ret true
          else .ret true : SProg C Bool).bind fun _ => .ret none))
  | seen (u : Nat) (h : lo ≤ u) : VisitPhase k ttl lo (.op .now fun (t : Nat) =>
      (if t - u > ttl then .op (.mapDelete k) fun _ => .ret true
        else .ret true : SProg C Bool).bind fun _ => .ret none)
  | done : VisitPhase k ttl lo (.ret none)

/-- The entry of `k` is the session `r`, used since `lo`. -/
def Stored (k : Bytes) (r : Ref) (lo : Nat) (w : World) : Prop :=
  lo ≤ w.now ∧ ∃ u, lo ≤ u ∧ w.table k = some (r, u)

theorem load_step {k : Bytes} {r : Ref} {lo : Nat} {o : SOp}
    {kont : SOp.Ret C o → SProg C (Option Ref)} (h : LoadPhase k r lo (.op o kont)) (tick : Nat)
    (w : World) (hw : Stored k r lo w) :
    LoadPhase k r lo (kont (exec C 0 (clock C tick) o (Conn.none, w)).1) ∧
    Stored k r lo (exec C 0 (clock C tick) o (Conn.none, w)).2.2 := by
  obtain ⟨h1, u, h2, h3⟩ := hw
  cases h with
  | load =>
    refine ⟨?_, h1, u, h2, h3⟩
    simp only [exec, h3]
    exact .loaded
  | loaded =>
    exact ⟨.timed _ (Nat.le_trans h1 (Nat.le_add_right _ _)),
      Nat.le_trans h1 (Nat.le_add_right _ _), u, h2, h3⟩
  | timed t ht => exact ⟨.done, h1, t, ht, if_pos rfl⟩

theorem visit_step {k : Bytes} {r : Ref} {lo ttl : Nat} {o : SOp}
    {kont : SOp.Ret C o → SProg C (Option Ref)} (h : VisitPhase k ttl lo (.op o kont)) (tick : Nat)
    (w : World) (hw : Stored k r lo w)
    (hnow : (exec C 0 (clock C tick) o (Conn.none, w)).2.2.now ≤ lo + ttl) :
    VisitPhase k ttl lo (kont (exec C 0 (clock C tick) o (Conn.none, w)).1) ∧
    Stored k r lo (exec C 0 (clock C tick) o (Conn.none, w)).2.2 := by
  obtain ⟨h1, u, h2, h3⟩ := hw
  cases h with
  | visit =>
    refine ⟨?_, h1, u, h2, h3⟩
    simp only [exec, h3]
    exact .seen u h2
  | seen u' hu' =>
    refine ⟨?_, Nat.le_trans h1 (Nat.le_add_right _ _), u, h2, h3⟩
    change w.now + tick ≤ lo + ttl at hnow
    have hle : ¬ (w.now + tick - u' > ttl) := by omega
    have heq : ((if w.now + tick - u' > ttl then .op (.mapDelete k) fun _ => .ret true
        else .ret true : SProg C Bool).bind fun _ => .ret none) =
        (.ret none : SProg C (Option Ref)) := by
      rw [if_neg hle]
      rfl
    have hdone : VisitPhase k ttl lo ((if w.now + tick - u' > ttl then .op (.mapDelete k) fun _ => .ret true
        else .ret true : SProg C Bool).bind fun _ => .ret none) := by
      rw [heq]
      exact .done
    exact hdone

/-- A goroutine that will not lose the session `r`. -/
def Harmless (k : Bytes) (r : Ref) (lo ttl : Nat) (t : MThread C) : Prop :=
  Uses (S := SSig C) (Elsewhere k) t.prog ∨ LoadPhase k r lo t.prog ∨ VisitPhase k ttl lo t.prog ∨
    ∃ x, t.prog = .ret x

theorem harmless_init (k : Bytes) (r : Ref) (lo ttl : Nat) (c : MCall) (b : Bool)
    (h : ∀ r', c ≠ .store k r') : Harmless (C := C) k r lo ttl ⟨c, b, c.prog C ttl⟩ := by
  by_cases hk : c.key = k
  · cases c with
    | store id r' => change id = k at hk; subst hk; exact absurd rfl (h r')
    | load id => change id = k at hk; subst hk; exact .inr (.inl .load)
    | visit id => change id = k at hk; subst hk; exact .inr (.inr (.inl .visit))
  · exact .inl (prog_elsewhere ttl c k hk)

theorem harmless_step {k : Bytes} {r : Ref} {lo ttl : Nat} {t : MThread C} {o : SOp}
    {kont : SOp.Ret C o → SProg C (Option Ref)} (ht : t.prog = .op o kont)
    (h : Harmless k r lo ttl t) (tick : Nat) (w : World) (hw : Stored k r lo w)
    (hnow : (exec C 0 (clock C tick) o (Conn.none, w)).2.2.now ≤ lo + ttl) :
    Harmless k r lo ttl
      { t with started := true, prog := kont (exec C 0 (clock C tick) o (Conn.none, w)).1 } ∧
    Stored k r lo (exec C 0 (clock C tick) o (Conn.none, w)).2.2 := by
  rcases h with h | h | h | ⟨x, h⟩
  · rw [ht] at h
    obtain ⟨h1, h2⟩ := exec_elsewhere (clock C tick) o Conn.none w k h.1
    obtain ⟨h3, u, h4, h5⟩ := hw
    exact ⟨.inl (h.2 _), Nat.le_trans h3 h2, u, h4, by rw [h1]; exact h5⟩
  · rw [ht] at h
    obtain ⟨h1, h2⟩ := load_step h tick w hw
    exact ⟨.inr (.inl h1), h2⟩
  · rw [ht] at h
    obtain ⟨h1, h2⟩ := visit_step h tick w hw hnow
    exact ⟨.inr (.inr (.inl h1)), h2⟩
  · rw [ht] at h; cases h

/-- Programs of the manager only use these effects. -/
def TableOp : SOp → Prop
  | .mapStore _ _ | .mapDelete _ | .mapLoad _ | .now => True
  | _ => False

theorem exec_mono (tick : Nat) (o : SOp) (c : Conn) (w : World) :
    w.now ≤ (exec C 0 (clock C tick) o (c, w)).2.2.now := by
  cases o with
  | write bs =>
    simp only [exec, execWrite]
    split
    · exact Nat.le_refl _
    · split
      · split <;> exact Nat.le_add_right _ _
      · exact Nat.le_add_right _ _
  | check r n =>
    simp only [exec]
    split <;> exact Nat.le_refl _
  | flush =>
    simp only [exec]
    split <;> exact Nat.le_add_right _ _
  | setDeadlines => exact Nat.le_add_right _ _
  | now => exact Nat.le_add_right _ _
  | _ => exact Nat.le_refl _

theorem step_mono (s : MSys C) (act : Nat × Nat) : s.world.now ≤ (s.step act).world.now := by
  unfold MSys.step
  split
  · exact Nat.le_refl _
  · split
    · exact exec_mono _ _ _ _
    · exact Nat.le_refl _

theorem run_mono (acts : List (Nat × Nat)) (s : MSys C) : s.world.now ≤ (s.run acts).world.now := by
  induction acts generalizing s with
  | nil => exact Nat.le_refl _
  | cons a acts ih => exact Nat.le_trans (step_mono s a) (ih _)

/-- Harmless goroutines do not lose the session, and a `Load` returns it. -/
theorem harmless_run {k : Bytes} {r : Ref} {lo ttl : Nat} (acts : List (Nat × Nat)) (s : MSys C)
    (hw : Stored k r lo s.world) (hall : ∀ t ∈ s.threads, Harmless k r lo ttl t)
    (j : Nat) (hj : ∀ t, s.threads[j]? = some t → LoadPhase k r lo t.prog)
    (hnow : (s.run acts).world.now ≤ lo + ttl) :
    ∀ t, (s.run acts).threads[j]? = some t → LoadPhase k r lo t.prog := by
  induction acts generalizing s with
  | nil => exact hj
  | cons a acts ih =>
    have hn : (s.step a).world.now ≤ lo + ttl := Nat.le_trans (run_mono acts (s.step a)) hnow
    suffices hs : Stored k r lo (s.step a).world ∧ (∀ t ∈ (s.step a).threads, Harmless k r lo ttl t) ∧
        ∀ t, (s.step a).threads[j]? = some t → LoadPhase k r lo t.prog from
      ih (s.step a) hs.1 hs.2.1 hs.2.2 hnow
    cases ht : s.threads[a.1]? with
    | none =>
      have he : s.step a = s := by simp only [MSys.step, ht]
      rw [he]; exact ⟨hw, hall, hj⟩
    | some t =>
      cases hp : t.prog with
      | ret x =>
        have he : s.step a = s := by simp only [MSys.step, ht, hp]
        rw [he]; exact ⟨hw, hall, hj⟩
      | panic m =>
        have he : s.step a = s := by simp only [MSys.step, ht, hp]
        rw [he]; exact ⟨hw, hall, hj⟩
      | op o kont =>
        have he : s.step a =
            ⟨(exec C 0 (clock C a.2) o (Conn.none, s.world)).2.2, s.threads.set a.1
              { t with started := true,
                       prog := kont (exec C 0 (clock C a.2) o (Conn.none, s.world)).1 }⟩ := by
          simp only [MSys.step, ht, hp]
        rw [he] at hn ⊢
        obtain ⟨h1, h2⟩ := harmless_step hp (hall t (List.mem_of_getElem? ht)) a.2 s.world hw hn
        refine ⟨h2, ?_, ?_⟩
        · intro t' hm
          rcases List.mem_or_eq_of_mem_set hm with hm | rfl
          · exact hall t' hm
          · exact h1
        · intro t' hm
          dsimp only at hm
          rw [List.getElem?_set] at hm
          split at hm
          · rename_i hij
            subst hij
            split at hm
            · cases hm
              have hl := hj t ht
              rw [hp] at hl
              exact (load_step hl a.2 s.world hw).1
            · cases hm
          · exact hj t' hm

/-- What remains of a `Store`. -/
inductive StorePhase (k : Bytes) (r : Ref) (lo : Nat) (w : World) : SProg C (Option Ref) → Prop
  | store : StorePhase k r lo w (.op .now fun (t : Nat) =>
      (.op (.mapStore k (r, t)) fun _ => .ret (.ok ()) : SProg C (Except Err Unit)).bind
        fun _ => .ret none)
  | timed (t : Nat) (h : lo ≤ t) : StorePhase k r lo w
      ((.op (.mapStore k (r, t)) fun _ => .ret (.ok ()) : SProg C (Except Err Unit)).bind
        fun _ => .ret none)
  | done (h : Stored k r lo w) : StorePhase k r lo w (.ret none)

/-- While goroutine `i` stores and nobody else uses the id. -/
structure Alone (k : Bytes) (r : Ref) (lo : Nat) (i : Nat) (threads : List (MThread C)) (s : MSys C) :
    Prop where
  now : lo ≤ s.world.now
  store : ∀ t, s.threads[i]? = some t → StorePhase k r lo s.world t.prog
  elsewhere : ∀ (l : Nat) t, s.threads[l]? = some t → l ≠ i → t.call.key ≠ k →
    Uses (S := SSig C) (Elsewhere k) t.prog
  same : ∀ (l : Nat) t, s.threads[l]? = some t → l ≠ i → t.call.key = k → threads[l]? = some t
  calls : s.threads.map MThread.call = threads.map MThread.call

theorem StorePhase.other {k : Bytes} {r : Ref} {lo : Nat} {w w' : World} {p : SProg C (Option Ref)}
    (h : StorePhase k r lo w p) (h1 : w'.table k = w.table k) (h2 : w.now ≤ w'.now) :
    StorePhase k r lo w' p := by
  cases h with
  | store => exact .store
  | timed t ht => exact .timed t ht
  | done h =>
    obtain ⟨h3, u, h4, h5⟩ := h
    exact .done ⟨Nat.le_trans h3 h2, u, h4, by rw [h1]; exact h5⟩

theorem store_step {k : Bytes} {r : Ref} {lo : Nat} {w : World} {o : SOp}
    {kont : SOp.Ret C o → SProg C (Option Ref)} (h : StorePhase k r lo w (.op o kont)) (tick : Nat)
    (hw : lo ≤ w.now) :
    StorePhase k r lo (exec C 0 (clock C tick) o (Conn.none, w)).2.2
      (kont (exec C 0 (clock C tick) o (Conn.none, w)).1) := by
  cases h with
  | store => exact .timed _ (Nat.le_trans hw (Nat.le_add_right _ _))
  | timed t ht => exact .done ⟨hw, t, ht, if_pos rfl⟩

theorem alone_run {k : Bytes} {r : Ref} {lo i : Nat} {threads : List (MThread C)}
    (acts : List (Nat × Nat)) (s : MSys C) (h : Alone k r lo i threads s)
    (hacts : ∀ act ∈ acts, act.1 = i ∨
      ∀ t, threads[act.1]? = some t → t.call.key ≠ k) :
    Alone k r lo i threads (s.run acts) := by
  induction acts generalizing s with
  | nil => exact h
  | cons a acts ih =>
    refine ih (s.step a) ?_ (fun x hx => hacts x (List.mem_cons_of_mem _ hx))
    cases ht : s.threads[a.1]? with
    | none =>
      have he : s.step a = s := by simp only [MSys.step, ht]
      rw [he]; exact h
    | some t =>
      cases hp : t.prog with
      | ret x =>
        have he : s.step a = s := by simp only [MSys.step, ht, hp]
        rw [he]; exact h
      | panic m =>
        have he : s.step a = s := by simp only [MSys.step, ht, hp]
        rw [he]; exact h
      | op o kont =>
        have he : s.step a =
            ⟨(exec C 0 (clock C a.2) o (Conn.none, s.world)).2.2, s.threads.set a.1
              { t with started := true,
                       prog := kont (exec C 0 (clock C a.2) o (Conn.none, s.world)).1 }⟩ := by
          simp only [MSys.step, ht, hp]
        have hcalls : (s.threads.set a.1
              { t with started := true,
                       prog := kont (exec C 0 (clock C a.2) o (Conn.none, s.world)).1 }).map
              MThread.call = threads.map MThread.call := by
          rw [← h.calls, List.map_set]
          apply List.ext_getElem?
          intro l
          rw [List.getElem?_set]
          split
          · rename_i hl
            subst hl
            simp [ht]
            exact (List.getElem?_eq_some_iff.mp ht).1
          · rfl
        rw [he]
        by_cases hi : a.1 = i
        · have hs := h.store t (hi ▸ ht)
          rw [hp] at hs
          refine ⟨Nat.le_trans h.now (exec_mono _ _ _ _), ?_, ?_, ?_, hcalls⟩
          · intro t' hm
            dsimp only at hm
            rw [← hi, List.getElem?_set_self (List.getElem?_eq_some_iff.mp ht).1] at hm
            cases hm
            exact store_step hs a.2 h.now
          · intro l t' hm hl hk
            rw [List.getElem?_set_ne (by rw [hi]; exact fun e => hl e.symm)] at hm
            exact h.elsewhere l t' hm hl hk
          · intro l t' hm hl hk
            rw [List.getElem?_set_ne (by rw [hi]; exact fun e => hl e.symm)] at hm
            exact h.same l t' hm hl hk
        · have hkey : t.call.key ≠ k := by
            intro hk
            have h1 := h.same a.1 t ht hi hk
            rcases hacts a (List.mem_cons_self ..) with h2 | h2
            · exact hi h2
            · exact h2 t h1 hk
          have huse := h.elsewhere a.1 t ht hi hkey
          rw [hp] at huse
          obtain ⟨e1, e2⟩ := exec_elsewhere (clock C a.2) o Conn.none s.world k huse.1
          refine ⟨Nat.le_trans h.now e2, ?_, ?_, ?_, hcalls⟩
          · intro t' hm
            rw [List.getElem?_set_ne hi] at hm
            exact (h.store t' hm).other e1 e2
          · intro l t' hm hl hk
            dsimp only at hm
            rw [List.getElem?_set] at hm
            split at hm
            · split at hm
              · cases hm
                exact huse.2 _
              · cases hm
            · exact h.elsewhere l t' hm hl hk
          · intro l t' hm hl hk
            dsimp only at hm
            rw [List.getElem?_set] at hm
            split at hm
            · split at hm
              · cases hm
                exact absurd hk hkey
              · cases hm
            · exact h.same l t' hm hl hk

/-- Goroutines keep their calls, do not start by themselves, and mind their own ids. -/
structure Sane (ttl : Nat) (calls : List MCall) (s : MSys C) : Prop where
  calls : s.threads.map MThread.call = calls
  fresh : ∀ t ∈ s.threads, t.started = false → t.prog = t.call.prog C ttl
  own : ∀ t ∈ s.threads, ∀ k, t.call.key ≠ k → Uses (S := SSig C) (Elsewhere k) t.prog

theorem sane_run (ttl : Nat) (calls : List MCall) (acts : List (Nat × Nat)) (s : MSys C)
    (h : Sane ttl calls s) : Sane ttl calls (s.run acts) := by
  induction acts generalizing s with
  | nil => exact h
  | cons a acts ih =>
    refine ih (s.step a) ?_
    unfold MSys.step
    split
    · exact h
    · rename_i t ht
      split
      · rename_i o kont hp
        refine ⟨?_, ?_, ?_⟩
        · rw [← h.calls, List.map_set]
          apply List.ext_getElem?
          intro l
          rw [List.getElem?_set]
          split
          · rename_i hl
            subst hl
            simp [ht]
            exact (List.getElem?_eq_some_iff.mp ht).1
          · rfl
        · intro t' hm hs
          rcases List.mem_or_eq_of_mem_set hm with hm | rfl
          · exact h.fresh t' hm hs
          · cases hs
        · intro t' hm k hk
          rcases List.mem_or_eq_of_mem_set hm with hm | rfl
          · exact h.own t' hm k hk
          · have := h.own t (List.mem_of_getElem? ht) k hk
            rw [hp] at this
            exact this.2 _
      · exact h

theorem sane_start (ttl : Nat) (calls : List MCall) : Sane (C := C) ttl calls (MSys.start ttl calls) := by
  refine ⟨?_, ?_, ?_⟩
  · show (calls.map _).map MThread.call = calls
    rw [List.map_map]
    exact List.map_id calls
  · intro t ht _
    simp only [MSys.start, List.mem_map] at ht
    obtain ⟨c, -, rfl⟩ := ht
    rfl
  · intro t ht k hk
    simp only [MSys.start, List.mem_map] at ht
    obtain ⟨c, -, rfl⟩ := ht
    exact prog_elsewhere ttl c k hk

end

end Goe2ee
