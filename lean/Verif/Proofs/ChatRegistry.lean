import Verif.Model.ChatRegistry
import Verif.Proofs.Safe

/-!
# Lemmas about the registry of the chat example
-/

set_option autoImplicit false

namespace Goe2ee

/-! ## The map -/

theorem lookup_filter_ne {β : Type} (l : List (Bytes × β)) {name key : Bytes} (h : key ≠ name) :
    (l.filter (·.1 ≠ name)).lookup key = l.lookup key := by
  induction l with
  | nil => rfl
  | cons e l ih =>
    obtain ⟨n, u⟩ := e
    by_cases hn : n = name
    · subst hn
      rw [List.filter_cons_of_neg (by simp), ih, List.lookup_cons, beq_eq_false_iff_ne.mpr h]
    · rw [List.filter_cons_of_pos (by simpa using hn), List.lookup_cons, List.lookup_cons, ih]

theorem mem_keys_of_get {w : RegWorld} {name : Bytes} {u : ChatUser} (h : w.get name = some u) :
    name ∈ w.users.map (·.1) := by
  unfold RegWorld.get at h
  generalize w.users = l at h
  induction l with
  | nil => cases h
  | cons e l ih =>
    obtain ⟨n, v⟩ := e
    rw [List.lookup_cons] at h
    by_cases hn : name = n
    · subst hn; exact List.mem_cons_self
    · rw [beq_eq_false_iff_ne.mpr hn] at h
      exact List.mem_cons_of_mem _ (ih h)

/-! ## Steps that leave an entry alone -/

/-- The effect does not take away the entry `name ↦ u`. -/
def RegOp.keeps (name : Bytes) (u : ChatUser) : RegOp → Prop
  | .store n v => n = name → v = u
  | .delete n => n ≠ name
  | _ => True

theorem keeps_get {name : Bytes} {u : ChatUser} {o : RegOp} (h : o.keeps name u) (order : List Bytes) (i : Nat)
    {w : RegWorld} (hw : w.get name = some u) : (regExec order i o w).2.get name = some u := by
  cases o with
  | store n v =>
    simp only [regExec, RegWorld.get, List.lookup_cons]
    by_cases hn : name = n
    · subst hn; rw [beq_self_eq_true, h rfl]
    · rw [beq_eq_false_iff_ne.mpr hn]
      dsimp only
      rw [lookup_filter_ne _ hn]; exact hw
  | delete n =>
    simp only [regExec, RegWorld.get]
    rw [lookup_filter_ne _ (Ne.symm h)]; exact hw
  | _ => exact hw

/-- The log only grows. -/
theorem regExec_log (order : List Bytes) (i : Nat) (o : RegOp) (w : RegWorld) :
    (regExec order i o w).2.log = w.log ++
      (match o with
      | .respond status users => [.responded i status users]
      | .notify host port event user => [.notified host port event user]
      | _ => []) := by
  cases o <;> simp [regExec]

theorem Procs.step_log (s : Procs RegSig RegWorld) (act : Nat × List Bytes) :
    ∃ evs, (s.step regExec act).world.log = s.world.log ++ evs := by
  unfold Procs.step
  split
  · exact ⟨_, regExec_log _ _ _ _⟩
  · exact ⟨[], by simp⟩

theorem Procs.run_log (s : Procs RegSig RegWorld) (acts : List (Nat × List Bytes)) :
    ∃ evs, (s.run regExec acts).world.log = s.world.log ++ evs := by
  induction acts generalizing s with
  | nil => exact ⟨[], by simp [Procs.run]⟩
  | cons act acts ih =>
    obtain ⟨evs, h⟩ := ih (s.step regExec act)
    obtain ⟨evs', h'⟩ := s.step_log act
    exact ⟨evs' ++ evs, by rw [Procs.run, List.foldl_cons, ← Procs.run, h, h', List.append_assoc]⟩

/-- A property of goroutines that every effect preserves. -/
theorem Procs.uses_step {P : Nat → RegOp → Prop} {s : Procs RegSig RegWorld}
    (h : ∀ (k : Nat) (p : RegProg Unit), s.threads[k]? = some p → Uses (S := RegSig) (P k) p)
    (act : Nat × List Bytes) (k : Nat) (p : RegProg Unit)
    (hp : (s.step regExec act).threads[k]? = some p) : Uses (S := RegSig) (P k) p := by
  revert hp
  unfold Procs.step
  split
  · rename_i o f hf
    intro hp
    dsimp only at hp
    by_cases hk : act.1 = k
    · subst hk
      rw [List.getElem?_set_self (List.getElem?_eq_some_iff.mp hf).1] at hp
      cases hp
      exact (h _ _ hf).2 _
    · rw [List.getElem?_set_ne hk] at hp
      exact h k p hp
  · exact h k p

theorem uses_forRange {σ : Type} {P : RegOp → Prop} {f : σ → Bytes → ChatUser → RegProg (Bool × σ)}
    (hP : ∀ name, P (.load name)) (hf : ∀ s key user, Uses (S := RegSig) P (f s key user)) (keys : List Bytes) (s : σ) :
    Uses (S := RegSig) P (forRange f keys s) := by
  induction keys generalizing s with
  | nil => trivial
  | cons key keys ih =>
    refine ⟨hP key, fun (value : Option ChatUser) => ?_⟩
    cases value with
    | none => exact ih s
    | some user =>
      refine (hf s key user).bind fun r => ?_
      cases r.1
      · trivial
      · exact ih r.2

/-- Effects that only look. -/
def RegOp.looks : RegOp → Prop
  | .rangeKeys | .load _ => True
  | _ => False

/-- The effects of a goroutine, by request. -/
theorem uses_usersHandler {P : RegOp → Prop} (request : ChatRequest) (hlook : ∀ o, o.looks → P o)
    (hresp : ∀ status users, P (.respond status users))
    (hstore : ∀ user, request.method = .post → request.body = some user → P (.store user.name user) ∧
      ∀ other : ChatUser, P (.notify other.host other.notifyPort .joined user) ∧
        P (.notify user.host user.notifyPort .joined other))
    (hdelete : request.method = .delete → P (.delete (request.path.drop usersPrefix)) ∧
      ∀ user other : ChatUser, P (.notify other.host other.notifyPort .left user)) :
    Uses (S := RegSig) P (usersHandler request) := by
  have hload : ∀ name, P (.load name) := fun _ => hlook _ trivial
  unfold usersHandler
  split
  · refine ⟨hlook _ trivial, fun keys => Uses.bind (uses_forRange hload ?_ _ _) fun users => ?_⟩
    · exact fun _ _ _ => trivial
    · exact ⟨hresp _ _, fun _ => trivial⟩
  · rename_i hm
    split
    · exact ⟨hresp _ _, fun _ => trivial⟩
    · rename_i user hu
      obtain ⟨h1, h2⟩ := hstore user hm hu
      refine ⟨hlook _ trivial, fun keys => (uses_forRange hload (fun s key u => ?_) _ _).bind fun abort => ?_⟩
      · unfold checkName
        split
        · exact ⟨hresp _ _, fun _ => trivial⟩
        · trivial
      · cases abort
        · refine ⟨h1, fun _ => ⟨hresp _ _, fun _ => ⟨hlook _ trivial, fun keys => uses_forRange hload ?_ _ _⟩⟩⟩
          intro s key u
          unfold introduce
          split
          · exact ⟨(h2 u).1, fun _ => ⟨(h2 u).2, fun _ => trivial⟩⟩
          · trivial
        · trivial
  · rename_i hm
    obtain ⟨h1, h2⟩ := hdelete hm
    unfold unregisterUser
    split
    · trivial
    · refine ⟨hload _, fun (value : Option ChatUser) => ?_⟩
      cases value with
      | none => exact ⟨hresp _ _, fun _ => trivial⟩
      | some user =>
        refine ⟨h1, fun _ => ⟨hresp _ _, fun _ => ⟨hlook _ trivial, fun keys => uses_forRange hload ?_ _ _⟩⟩⟩
        exact fun s key u => ⟨h2 user u, fun _ => trivial⟩
  · exact ⟨hresp _ _, fun _ => trivial⟩

theorem regStart_thread {requests : List ChatRequest} {k : Nat} {p : RegProg Unit}
    (h : (regStart requests).threads[k]? = some p) : ∃ r, requests[k]? = some r ∧ p = usersHandler r := by
  simp only [regStart, List.getElem?_map, Option.map_eq_some_iff] at h
  obtain ⟨r, h1, rfl⟩ := h
  exact ⟨r, h1, rfl⟩

/-! ## Where a registration is -/

/-- The program points of `registerUser`. -/
inductive RegAt where
  | begin
  /-- looking for the name, these keys are left -/
  | check (keys : List Bytes)
  | conflict
  | refused
  | stored
  | range
  /-- introducing the users, these keys are left -/
  | meet (keys : List Bytes)
  | tellOther (other : ChatUser) (keys : List Bytes)
  | tellUser (other : ChatUser) (keys : List Bytes)

namespace RegAt

/-- What is left to do. -/
def prog (u : ChatUser) : RegAt → RegProg Unit
  | begin => registerUser u
  | check keys => (forRange (checkName u) keys false).bind fun abort =>
    if abort then .ret () else
    .op (.store u.name u) fun _ => .op (.respond 201 []) fun _ =>
    .op .rangeKeys fun (keys : List Bytes) => forRange (introduce u) keys ()
  | conflict => .op (.respond 409 []) fun _ => .ret ()
  | refused => .ret ()
  | stored => .op (.respond 201 []) fun _ =>
    .op .rangeKeys fun (keys : List Bytes) => forRange (introduce u) keys ()
  | range => .op .rangeKeys fun (keys : List Bytes) => forRange (introduce u) keys ()
  | meet keys => forRange (introduce u) keys ()
  | tellOther other keys => .op (.notify other.host other.notifyPort .joined u) fun _ =>
    .op (.notify u.host u.notifyPort .joined other) fun _ => forRange (introduce u) keys ()
  | tellUser other keys => .op (.notify u.host u.notifyPort .joined other) fun _ => forRange (introduce u) keys ()

/-- The next step. -/
def act (u : ChatUser) (order : List Bytes) (i : Nat) (w : RegWorld) : RegAt → RegAt × RegWorld
  | begin => (check (w.users.map (·.1) ++ order).dedup, w)
  | check [] => (stored, (regExec order i (.store u.name u) w).2)
  | check (key :: keys) =>
    (match w.get key with
      | none => check keys
      | some _ => if key = u.name then conflict else check keys, w)
  | conflict => (refused, (regExec order i (.respond 409 []) w).2)
  | refused => (refused, w)
  | stored => (range, (regExec order i (.respond 201 []) w).2)
  | range => (meet (w.users.map (·.1) ++ order).dedup, w)
  | meet [] => (meet [], w)
  | meet (key :: keys) =>
    (match w.get key with
      | none => meet keys
      | some other => if key ≠ u.name then tellOther other keys else meet keys, w)
  | tellOther other keys => (tellUser other keys, (regExec order i (.notify other.host other.notifyPort .joined u) w).2)
  | tellUser other keys => (meet keys, (regExec order i (.notify u.host u.notifyPort .joined other) w).2)

theorem step {s : Procs RegSig RegWorld} {i : Nat} {u : ChatUser} {at_ : RegAt}
    (h : s.threads[i]? = some (at_.prog u)) (order : List Bytes) :
    s.step regExec (i, order) =
      { world := (at_.act u order i s.world).2, threads := s.threads.set i ((at_.act u order i s.world).1.prog u) } := by
  have hself : ∀ p, s.threads[i]? = some p → s = { world := s.world, threads := s.threads.set i p } := by
    intro p hp
    obtain ⟨hi, rfl⟩ := List.getElem?_eq_some_iff.mp hp
    rw [List.set_getElem_self]
  unfold Procs.step
  cases at_ with
  | check keys =>
    cases keys with
    | nil => rw [show s.threads[i]? = some (.op (RegOp.store u.name u) _) from h]; rfl
    | cons key keys =>
      rw [show s.threads[i]? = some (.op (RegOp.load key) _) from h]
      simp only [regExec, act]
      cases s.world.get key with
      | none => rfl
      | some v =>
        dsimp only
        unfold checkName
        split <;> rfl
  | meet keys =>
    cases keys with
    | nil => rw [show s.threads[i]? = some (.ret ()) from h]; exact hself _ h
    | cons key keys =>
      rw [show s.threads[i]? = some (.op (RegOp.load key) _) from h]
      simp only [regExec, act]
      cases s.world.get key with
      | none => rfl
      | some v =>
        dsimp only
        unfold introduce
        split <;> rfl
  | refused => rw [show s.threads[i]? = some (.ret ()) from h]; exact hself _ h
  | begin => rw [show s.threads[i]? = some (.op RegOp.rangeKeys _) from h]; rfl
  | conflict => rw [show s.threads[i]? = some (.op (RegOp.respond 409 []) _) from h]; rfl
  | stored => rw [show s.threads[i]? = some (.op (RegOp.respond 201 []) _) from h]; rfl
  | range => rw [show s.threads[i]? = some (.op RegOp.rangeKeys _) from h]; rfl
  | tellOther other keys => rw [show s.threads[i]? = some (.op (RegOp.notify _ _ _ _) _) from h]; rfl
  | tellUser other keys => rw [show s.threads[i]? = some (.op (RegOp.notify _ _ _ _) _) from h]; rfl

/-- The user is in the map. -/
def past : RegAt → Prop
  | stored | range | meet _ | tellOther _ _ | tellUser _ _ => True
  | _ => False

end RegAt

/-! ## Where an unregistration is -/

/-- The program points of `unregisterUser`. -/
inductive UnregAt where
  | panicked
  | begin
  | absent
  | gone
  | found
  | deleted
  | range
  /-- telling the others, these keys are left -/
  | say (keys : List Bytes)
  | tell (other : ChatUser) (keys : List Bytes)

namespace UnregAt

/-- What is left to do, if the name belongs to `u`. -/
def prog (u : ChatUser) : UnregAt → RegProg Unit
  | panicked => .panic "slice bounds out of range"
  | begin => .op (.load u.name) fun (value : Option ChatUser) =>
    match value with
    | none => .op (.respond 404 []) fun _ => .ret ()
    | some v =>
    .op (.delete u.name) fun _ =>
    .op (.respond 204 []) fun _ =>
    .op .rangeKeys fun (keys : List Bytes) =>
    forRange (farewell v) keys ()
  | absent => .op (.respond 404 []) fun _ => .ret ()
  | gone => .ret ()
  | found => .op (.delete u.name) fun _ => .op (.respond 204 []) fun _ =>
    .op .rangeKeys fun (keys : List Bytes) => forRange (farewell u) keys ()
  | deleted => .op (.respond 204 []) fun _ =>
    .op .rangeKeys fun (keys : List Bytes) => forRange (farewell u) keys ()
  | range => .op .rangeKeys fun (keys : List Bytes) => forRange (farewell u) keys ()
  | say keys => forRange (farewell u) keys ()
  | tell other keys => .op (.notify other.host other.notifyPort .left u) fun _ => forRange (farewell u) keys ()

/-- The next step. -/
def act (u : ChatUser) (order : List Bytes) (i : Nat) (w : RegWorld) : UnregAt → UnregAt × RegWorld
  | panicked => (panicked, w)
  | begin =>
    (match w.get u.name with
      | none => absent
      | some _ => found, w)
  | absent => (gone, (regExec order i (.respond 404 []) w).2)
  | gone => (gone, w)
  | found => (deleted, (regExec order i (.delete u.name) w).2)
  | deleted => (range, (regExec order i (.respond 204 []) w).2)
  | range => (say (w.users.map (·.1) ++ order).dedup, w)
  | say [] => (say [], w)
  | say (key :: keys) =>
    (match w.get key with
      | none => say keys
      | some other => tell other keys, w)
  | tell other keys => (say keys, (regExec order i (.notify other.host other.notifyPort .left u) w).2)

theorem step {s : Procs RegSig RegWorld} {i : Nat} {u : ChatUser} {at_ : UnregAt}
    (hu : ∀ v, s.world.get u.name = some v → v = u) (h : s.threads[i]? = some (at_.prog u)) (order : List Bytes) :
    s.step regExec (i, order) =
      { world := (at_.act u order i s.world).2, threads := s.threads.set i ((at_.act u order i s.world).1.prog u) } := by
  have hself : ∀ p, s.threads[i]? = some p → s = { world := s.world, threads := s.threads.set i p } := by
    intro p hp
    obtain ⟨hi, rfl⟩ := List.getElem?_eq_some_iff.mp hp
    rw [List.set_getElem_self]
  unfold Procs.step
  cases at_ with
  | panicked => rw [show s.threads[i]? = some (.panic _) from h]; exact hself _ h
  | begin =>
    rw [show s.threads[i]? = some (.op (RegOp.load u.name) _) from h]
    simp only [regExec, act]
    cases hg : s.world.get u.name with
    | none => rfl
    | some v => rw [hu v hg]; rfl
  | say keys =>
    cases keys with
    | nil => rw [show s.threads[i]? = some (.ret ()) from h]; exact hself _ h
    | cons key keys =>
      rw [show s.threads[i]? = some (.op (RegOp.load key) _) from h]
      simp only [regExec, act]
      cases s.world.get key with
      | none => rfl
      | some v => rfl
  | gone => rw [show s.threads[i]? = some (.ret ()) from h]; exact hself _ h
  | absent => rw [show s.threads[i]? = some (.op (RegOp.respond 404 []) _) from h]; rfl
  | found => rw [show s.threads[i]? = some (.op (RegOp.delete _) _) from h]; rfl
  | deleted => rw [show s.threads[i]? = some (.op (RegOp.respond 204 []) _) from h]; rfl
  | range => rw [show s.threads[i]? = some (.op RegOp.rangeKeys _) from h]; rfl
  | tell other keys => rw [show s.threads[i]? = some (.op (RegOp.notify _ _ _ _) _) from h]; rfl

theorem thread {requests : List ChatRequest} {d : Nat} {r : ChatRequest} {u : ChatUser} (h : requests[d]? = some r)
    (hm : r.method = .delete) (hn : r.path.drop usersPrefix = u.name) :
    ∃ x : UnregAt, (x = .panicked ∨ x = .begin) ∧ (regStart requests).threads[d]? = some (x.prog u) := by
  by_cases hl : r.path.length < usersPrefix
  · exact ⟨_, .inl rfl, by
      simp only [regStart, List.getElem?_map, h, Option.map_some, usersHandler, hm, unregisterUser, if_pos hl, prog]⟩
  · exact ⟨_, .inr rfl, by
      simp only [regStart, List.getElem?_map, h, Option.map_some, usersHandler, hm, unregisterUser, if_neg hl, prog]
      rw [hn]
      refine congrArg some (congrArg (Prog.op (S := RegSig) (RegOp.load u.name)) (funext fun value => ?_))
      change Option ChatUser at value
      cases value <;> rfl⟩

end UnregAt

end Goe2ee
