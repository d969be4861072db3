import Verif.Proofs.ChatRegistry

/-!
# C100-C104: the registry of the chat example
-/

set_option autoImplicit false

namespace Goe2ee

/-- The request registers this user. -/
def ChatRequest.registers (r : ChatRequest) (u : ChatUser) : Prop := r.method = .post ∧ r.body = some u

/-- The request unregisters the user of this name: DELETE /users/name. -/
def ChatRequest.unregisters (r : ChatRequest) (name : Bytes) : Prop :=
  r.method = .delete ∧ r.path.drop usersPrefix = name

instance (r : ChatRequest) (u : ChatUser) : Decidable (r.registers u) := by
  unfold ChatRequest.registers; infer_instance
instance (r : ChatRequest) (name : Bytes) : Decidable (r.unregisters name) := by
  unfold ChatRequest.unregisters; infer_instance

/-- Has the goroutine returned? -/
def Procs.finished (s : Procs RegSig RegWorld) (i : Nat) : Prop := s.threads[i]? = some (.ret ())

/-- The notification to `reader` that `who` has joined. -/
def toldJoined (reader who : ChatUser) : RegEvent := .notified reader.host reader.notifyPort .joined who

/-- The notification to `reader` that `who` has left. -/
def toldLeft (reader who : ChatUser) : RegEvent := .notified reader.host reader.notifyPort .left who

/-! ## Invariants -/

/-- No request of the list takes the entry of `u` away. -/
def Kept (requests : List ChatRequest) (u : ChatUser) : Prop :=
  ∀ r ∈ requests, (∀ v, r.registers v → v.name = u.name → v = u) ∧ ¬ r.unregisters u.name

/-- No goroutine will take the entry of `u` away. -/
def KeepsUser (u : ChatUser) (s : Procs RegSig RegWorld) : Prop :=
  ∀ (k : Nat) (p : RegProg Unit), s.threads[k]? = some p → Uses (S := RegSig) (RegOp.keeps u.name u) p

theorem Kept.start {requests : List ChatRequest} {u : ChatUser} (h : Kept requests u) :
    KeepsUser u (regStart requests) := by
  intro k p hp
  obtain ⟨r, hr, rfl⟩ := regStart_thread hp
  obtain ⟨h1, h2⟩ := h r (List.mem_of_getElem? hr)
  refine uses_usersHandler r ?_ (fun _ _ => trivial) ?_ ?_
  · intro o ho; cases o <;> trivial
  · exact fun v hm hb => ⟨fun hn => h1 v ⟨hm, hb⟩ hn, fun _ => ⟨trivial, trivial⟩⟩
  · exact fun hm => ⟨fun hn => h2 ⟨hm, hn⟩, fun _ _ => trivial⟩

theorem KeepsUser.step {u : ChatUser} {s : Procs RegSig RegWorld} (h : KeepsUser u s) (act : Nat × List Bytes) :
    KeepsUser u (s.step regExec act) := Procs.uses_step (P := fun _ => RegOp.keeps u.name u) h act

theorem KeepsUser.get {u : ChatUser} {s : Procs RegSig RegWorld} (h : KeepsUser u s) (act : Nat × List Bytes)
    (hg : s.world.get u.name = some u) : (s.step regExec act).world.get u.name = some u := by
  unfold Procs.step
  split
  · rename_i o f hf
    exact keeps_get (h _ _ hf).1 _ _ hg
  · exact hg

/-- A goroutine answers only its own request. -/
theorem step_responded {s : Procs RegSig RegWorld} {act : Nat × List Bytes} {i status : Nat} {users : List ChatUser}
    (hi : act.1 ≠ i) (h : RegEvent.responded i status users ∈ (s.step regExec act).world.log) :
    RegEvent.responded i status users ∈ s.world.log := by
  revert h
  unfold Procs.step
  split
  · rename_i o f hf
    intro h
    dsimp only at h
    rw [regExec_log, List.mem_append] at h
    rcases h with h | h
    · exact h
    · cases o <;> simp_all
  · exact id

theorem regStep_other {s : Procs RegSig RegWorld} {act : Nat × List Bytes} {i : Nat} (hi : act.1 ≠ i) :
    (s.step regExec act).threads[i]? = s.threads[i]? := by
  unfold Procs.step
  split
  · exact List.getElem?_set_ne hi
  · rfl

theorem step_mem {s : Procs RegSig RegWorld} {act : Nat × List Bytes} {e : RegEvent} (h : e ∈ s.world.log) :
    e ∈ (s.step regExec act).world.log := by
  obtain ⟨evs, h'⟩ := s.step_log act
  rw [h']
  exact List.mem_append_left _ h

/-! ## C101: the users learn of each other -/

/-- The goroutine that registers `a` is going to introduce `a` and `b` to each other. -/
def RegAt.will (a b : ChatUser) (log : List RegEvent) : RegAt → Prop
  | .stored | .range => True
  | .meet keys => b.name ∈ keys
  | .tellOther other keys => other = b ∨ b.name ∈ keys
  | .tellUser other keys => (other = b ∧ toldJoined b a ∈ log) ∨ b.name ∈ keys
  | _ => False

theorem RegAt.will.mono {a b : ChatUser} {log log' : List RegEvent} {x : RegAt} (h : x.will a b log)
    (hl : ∀ e ∈ log, e ∈ log') : x.will a b log' := by
  cases x <;> first | exact h | skip
  rcases h with ⟨h1, h2⟩ | h
  · exact .inl ⟨h1, hl _ h2⟩
  · exact .inr h

/-- The two goroutines: both are where the program can be, and if both have stored their users then the users know
each other or one of the goroutines will introduce them. -/
structure Meeting (i j : Nat) (a b : ChatUser) (x y : RegAt) (s : Procs RegSig RegWorld) : Prop where
  keepsA : KeepsUser a s
  keepsB : KeepsUser b s
  atA : s.threads[i]? = some (x.prog a)
  atB : s.threads[j]? = some (y.prog b)
  getA : x.past → s.world.get a.name = some a
  getB : y.past → s.world.get b.name = some b
  created : .responded i 201 [] ∈ s.world.log → x.past
  createdB : .responded j 201 [] ∈ s.world.log → y.past
  met : x.past → y.past →
    (toldJoined a b ∈ s.world.log ∧ toldJoined b a ∈ s.world.log) ∨ x.will a b s.world.log ∨ y.will b a s.world.log

theorem Meeting.symm {i j : Nat} {a b : ChatUser} {x y : RegAt} {s : Procs RegSig RegWorld}
    (h : Meeting i j a b x y s) : Meeting j i b a y x s :=
  ⟨h.keepsB, h.keepsA, h.atB, h.atA, h.getB, h.getA, h.createdB, h.created, fun hy hx => by
    rcases h.met hx hy with ⟨h1, h2⟩ | h1 | h1
    · exact .inl ⟨h2, h1⟩
    · exact .inr (.inr h1)
    · exact .inr (.inl h1)⟩

theorem RegAt.act_past {u : ChatUser} {order : List Bytes} {i : Nat} {w : RegWorld} {x : RegAt} (h : x.past) :
    (x.act u order i w).1.past := by
  cases x with
  | meet keys =>
    cases keys with
    | nil => trivial
    | cons key keys =>
      simp only [RegAt.act]
      split
      · trivial
      · split <;> trivial
  | _ => trivial

/-- A goroutine becomes past only by storing its user. -/
theorem RegAt.act_new {u : ChatUser} {order : List Bytes} {i : Nat} {w : RegWorld} {x : RegAt} (h : ¬ x.past)
    (h' : (x.act u order i w).1.past) : x = .check [] := by
  cases x with
  | check keys =>
    cases keys with
    | nil => rfl
    | cons key keys =>
      exfalso
      simp only [RegAt.act] at h'
      split at h'
      · exact h'
      · split at h' <;> exact h'
  | stored => exact (h trivial).elim
  | range => exact (h trivial).elim
  | meet keys => exact (h trivial).elim
  | tellOther o keys => exact (h trivial).elim
  | tellUser o keys => exact (h trivial).elim
  | _ => exact h'.elim

/-- It answers 201 only after storing its user. -/
theorem RegAt.act_created {u : ChatUser} {order : List Bytes} {i : Nat} {w : RegWorld} {x : RegAt}
    (h : RegEvent.responded i 201 [] ∈ (x.act u order i w).2.log) : .responded i 201 [] ∈ w.log ∨ x.past := by
  cases x with
  | check keys => cases keys <;> exact .inl h
  | conflict =>
    simp only [RegAt.act, regExec, List.mem_append, List.mem_singleton, RegEvent.responded.injEq] at h
    rcases h with h | h
    · exact .inl h
    · omega
  | stored => exact .inr trivial
  | range => exact .inr trivial
  | meet keys => exact .inr trivial
  | tellOther o keys => exact .inr trivial
  | tellUser o keys => exact .inr trivial
  | _ => exact .inl h

theorem RegAt.act_will {a b : ChatUser} {order : List Bytes} {i : Nat} {w : RegWorld} {x : RegAt}
    (hab : a.name ≠ b.name) (hb : w.get b.name = some b) (h : x.will a b w.log) :
    (toldJoined a b ∈ (x.act a order i w).2.log ∧ toldJoined b a ∈ (x.act a order i w).2.log) ∨
      (x.act a order i w).1.will a b (x.act a order i w).2.log := by
  cases x with
  | stored => exact .inr trivial
  | range => exact .inr (List.mem_dedup.mpr (List.mem_append_left _ (mem_keys_of_get hb)))
  | meet keys =>
    cases keys with
    | nil => cases h
    | cons key keys =>
      refine .inr ?_
      simp only [RegAt.act]
      by_cases hk : b.name = key
      · rw [← hk, hb]
        dsimp only
        rw [if_pos (Ne.symm hab)]
        exact .inl rfl
      · have hin : b.name ∈ keys := (List.mem_cons.mp h).resolve_left hk
        split
        · exact hin
        · split
          · exact .inr hin
          · exact hin
  | tellOther other keys =>
    refine .inr ?_
    rcases h with rfl | h
    · exact .inl ⟨rfl, List.mem_append_right _ (List.mem_singleton.mpr rfl)⟩
    · exact .inr h
  | tellUser other keys =>
    rcases h with ⟨rfl, h⟩ | h
    · exact .inl ⟨List.mem_append_right _ (List.mem_singleton.mpr rfl), List.mem_append_left _ h⟩
    · exact .inr h
  | _ => exact h.elim

theorem Meeting.stepA {i j : Nat} {a b : ChatUser} {x y : RegAt} {s : Procs RegSig RegWorld} (hij : i ≠ j)
    (hab : a.name ≠ b.name) (h : Meeting i j a b x y s) (order : List Bytes) :
    Meeting i j a b (x.act a order i s.world).1 y (s.step regExec (i, order)) := by
  have hlog : ∀ e ∈ s.world.log, e ∈ (s.step regExec (i, order)).world.log := fun e he => step_mem he
  have hB := fun hb => h.keepsB.get (i, order) hb
  have hA := fun ha => h.keepsA.get (i, order) ha
  have hcB := fun hc => step_responded (s := s) (act := (i, order)) (status := 201) (users := []) hij hc
  have hkA := h.keepsA.step (i, order)
  have hkB := h.keepsB.step (i, order)
  rw [RegAt.step h.atA] at hlog hB hA hcB hkA hkB ⊢
  dsimp only at hlog hB hA hcB
  refine ⟨hkA, hkB, ?_, ?_, ?_, fun hy => hB (h.getB hy), ?_, fun hc => h.createdB (hcB hc), ?_⟩
  · exact List.getElem?_set_self (List.getElem?_eq_some_iff.mp h.atA).1
  · exact (List.getElem?_set_ne hij).trans h.atB
  · intro hx
    by_cases hp : x.past
    · exact hA (h.getA hp)
    · rw [RegAt.act_new hp hx]
      simp [RegAt.act, regExec, RegWorld.get]
  · intro hc
    rcases RegAt.act_created hc with hc | hp
    · exact RegAt.act_past (h.created hc)
    · exact RegAt.act_past hp
  · intro hx hy
    by_cases hp : x.past
    · rcases h.met hp hy with ⟨h1, h2⟩ | h1 | h1
      · exact .inl ⟨hlog _ h1, hlog _ h2⟩
      · rcases RegAt.act_will hab (h.getB hy) h1 (order := order) (i := i) with h2 | h2
        · exact .inl h2
        · exact .inr (.inl h2)
      · exact .inr (.inr (h1.mono hlog))
    · refine .inr (.inl ?_)
      rw [RegAt.act_new hp hx]
      trivial

theorem Meeting.step {i j : Nat} {a b : ChatUser} {x y : RegAt} {s : Procs RegSig RegWorld} (hij : i ≠ j)
    (hab : a.name ≠ b.name) (h : Meeting i j a b x y s) (act : Nat × List Bytes) :
    ∃ x' y', Meeting i j a b x' y' (s.step regExec act) := by
  by_cases hi : act.1 = i
  · subst hi
    exact ⟨_, _, h.stepA hij hab act.2⟩
  by_cases hj : act.1 = j
  · subst hj
    exact ⟨_, _, (h.symm.stepA hij.symm hab.symm act.2).symm⟩
  refine ⟨x, y, h.keepsA.step act, h.keepsB.step act, (regStep_other hi).trans h.atA, (regStep_other hj).trans h.atB,
    fun hx => h.keepsA.get act (h.getA hx), fun hy => h.keepsB.get act (h.getB hy),
    fun hc => h.created (step_responded hi hc), fun hc => h.createdB (step_responded hj hc), fun hx hy => ?_⟩
  rcases h.met hx hy with ⟨h1, h2⟩ | h1 | h1
  · exact .inl ⟨step_mem h1, step_mem h2⟩
  · exact .inr (.inl (h1.mono fun _ => step_mem))
  · exact .inr (.inr (h1.mono fun _ => step_mem))

theorem Meeting.run {i j : Nat} {a b : ChatUser} {x y : RegAt} {s : Procs RegSig RegWorld} (hij : i ≠ j)
    (hab : a.name ≠ b.name) (h : Meeting i j a b x y s) (acts : List (Nat × List Bytes)) :
    ∃ x' y', Meeting i j a b x' y' (s.run regExec acts) := by
  induction acts generalizing x y s with
  | nil => exact ⟨x, y, h⟩
  | cons act acts ih =>
    obtain ⟨x', y', h'⟩ := h.step hij hab act
    exact ih h'

theorem registers_thread {requests : List ChatRequest} {i : Nat} {r : ChatRequest} {u : ChatUser}
    (h : requests[i]? = some r) (hr : r.registers u) :
    (regStart requests).threads[i]? = some (RegAt.begin.prog u) := by
  simp only [regStart, List.getElem?_map, h, Option.map_some, usersHandler, hr.1, hr.2, RegAt.prog]

/-- A goroutine that has finished introduces nobody any more. -/
theorem RegAt.finished_will {a b : ChatUser} {x : RegAt} {log : List RegEvent} (h : x.prog a = .ret ()) :
    ¬ x.will a b log := by
  intro hw
  cases x with
  | meet keys =>
    cases keys with
    | nil => cases hw
    | cons key keys => cases h
  | stored => cases h
  | range => cases h
  | tellOther o keys => cases h
  | tellUser o keys => cases h
  | _ => exact hw.elim

/-- **C101**: however requests overlap, two users whose registrations succeeded have been introduced to each other
once both requests have been served: each was told that the other joined.  (Neither is unregistered, and nobody else
uses their names.) -/
theorem C101_introduced (requests : List ChatRequest) (acts : List (Nat × List Bytes)) (i j : Nat)
    (ri rj : ChatRequest) (a b : ChatUser) (hi : requests[i]? = some ri) (hj : requests[j]? = some rj)
    (ha : ri.registers a) (hb : rj.registers b) (hab : a.name ≠ b.name)
    (hka : Kept requests a) (hkb : Kept requests b)
    (hfi : (regRun requests acts).finished i) (hfj : (regRun requests acts).finished j)
    (hci : .responded i 201 [] ∈ (regRun requests acts).world.log)
    (hcj : .responded j 201 [] ∈ (regRun requests acts).world.log) :
    toldJoined a b ∈ (regRun requests acts).world.log ∧ toldJoined b a ∈ (regRun requests acts).world.log := by
  have hij : i ≠ j := by
    rintro rfl
    rw [hi] at hj
    cases hj
    exact hab (congrArg ChatUser.name (Option.some.inj (ha.2.symm.trans hb.2)))
  have h0 : Meeting i j a b .begin .begin (regStart requests) :=
    ⟨hka.start, hkb.start, registers_thread hi ha, registers_thread hj hb, False.elim, False.elim,
      (fun h => by cases h), (fun h => by cases h), False.elim⟩
  obtain ⟨x, y, h⟩ := h0.run hij hab acts
  change Meeting i j a b x y (regRun requests acts) at h
  have hx : x.prog a = .ret () := Option.some.inj (h.atA.symm.trans hfi)
  have hy : y.prog b = .ret () := Option.some.inj (h.atB.symm.trans hfj)
  rcases h.met (h.created hci) (h.createdB hcj) with h1 | h1 | h1
  · exact h1
  · exact absurd h1 (RegAt.finished_will hx)
  · exact absurd h1 (RegAt.finished_will hy)

namespace RegistryExample

def user (name : String) (port : Int) : ChatUser :=
  { name := str name, network := str "tcp", host := str "127.0.0.1", serverPort := port, notifyPort := port + 1 }

def alice : ChatUser := user "alice" 1000
def bob : ChatUser := user "bob" 2000

def register (u : ChatUser) : ChatRequest := { method := .post, path := str "/users", body := some u }
def unregister (name : String) : ChatRequest := { method := .delete, path := str "/users/" ++ str name, body := none }

/-- Goroutine `i` takes `n` steps. -/
def go (i n : Nat) : List (Nat × List Bytes) := List.replicate n (i, [])

/-- Alice and Bob register at the same time. -/
def both : List (Nat × List Bytes) := go 0 2 ++ go 1 3 ++ go 0 10 ++ go 1 10

end RegistryExample

open RegistryExample in
/-- Both are told of each other, when they register one after the other and when they register at the same time
(then twice). -/
example : (regRun [register alice, register bob] (go 0 20 ++ go 1 20)).world.log =
      [.responded 0 201 [], .responded 1 201 [], toldJoined alice bob, toldJoined bob alice] ∧
    (regRun [register alice, register bob] both).world.log =
      [.responded 0 201 [], toldJoined bob alice, toldJoined alice bob,
       .responded 1 201 [], toldJoined alice bob, toldJoined bob alice] := by decide +kernel

/-! ## C100: one user per name -/

/-- **C100**: at most one user can be registered under a name (as long as it is not unregistered): only one of the
requests to register it is answered with 201. -/
def C100_claim : Prop :=
  ∀ (requests : List ChatRequest) (acts : List (Nat × List Bytes)) (i j : Nat) (ri rj : ChatRequest) (u v : ChatUser),
    requests[i]? = some ri → requests[j]? = some rj → ri.registers u → rj.registers v → i ≠ j → u.name = v.name →
    (∀ r ∈ requests, ¬ r.unregisters u.name) →
    .responded i 201 [] ∈ (regRun requests acts).world.log →
    .responded j 201 [] ∉ (regRun requests acts).world.log

open RegistryExample in
/-- **C100 is refuted**: two requests look for the name before either of them stores it. -/
theorem C100_refuted : ¬ C100_claim := by
  intro h
  exact h [register alice, register (user "alice" 3000)] (go 0 1 ++ go 1 1 ++ go 0 10 ++ go 1 10) 0 1 _ _
    alice (user "alice" 3000) rfl rfl (by decide +kernel) (by decide +kernel) (by decide) rfl (by decide +kernel)
    (by decide +kernel) (by decide +kernel)

/-- No goroutine unregisters the name. -/
def NoDelete (name : Bytes) (s : Procs RegSig RegWorld) : Prop :=
  ∀ (k : Nat) (p : RegProg Unit), s.threads[k]? = some p → Uses (S := RegSig) (fun o => o ≠ RegOp.delete name) p

theorem NoDelete.start {requests : List ChatRequest} {name : Bytes} (h : ∀ r ∈ requests, ¬ r.unregisters name) :
    NoDelete name (regStart requests) := by
  intro k p hp
  obtain ⟨r, hr, rfl⟩ := regStart_thread hp
  refine uses_usersHandler r ?_ (fun _ _ => RegOp.noConfusion) ?_ ?_
  · rintro o ho rfl; exact ho
  · exact fun v _ _ => ⟨RegOp.noConfusion, fun _ => ⟨RegOp.noConfusion, RegOp.noConfusion⟩⟩
  · exact fun hm => ⟨fun hn => h r (List.mem_of_getElem? hr) ⟨hm, RegOp.delete.inj hn⟩, fun _ _ => RegOp.noConfusion⟩

theorem NoDelete.step {name : Bytes} {s : Procs RegSig RegWorld} (h : NoDelete name s) (act : Nat × List Bytes) :
    NoDelete name (s.step regExec act) := Procs.uses_step (P := fun _ o => o ≠ RegOp.delete name) h act

theorem NoDelete.get {name : Bytes} {s : Procs RegSig RegWorld} (h : NoDelete name s) (act : Nat × List Bytes)
    (hg : (s.world.get name).isSome = true) : ((s.step regExec act).world.get name).isSome = true := by
  unfold Procs.step
  split
  · rename_i o f hf
    have hd := (h _ _ hf).1
    obtain ⟨u, hu⟩ := Option.isSome_iff_exists.mp hg
    cases o with
    | store n v =>
      by_cases hn : n = name
      · subst hn; simp [regExec, RegWorld.get]
      · exact Option.isSome_iff_exists.mpr
          ⟨u, keeps_get (o := .store n v) (fun h => absurd h hn) act.2 act.1 hu⟩
    | delete n =>
      exact Option.isSome_iff_exists.mpr
        ⟨u, keeps_get (o := .delete n) (fun h => hd (congrArg _ h)) act.2 act.1 hu⟩
    | _ => exact hg
  · exact hg

/-- The goroutine `i`, which registers `u`, keeps its promise. -/
structure StoredUser (i : Nat) (u : ChatUser) (x : RegAt) (s : Procs RegSig RegWorld) : Prop where
  noDelete : NoDelete u.name s
  at_ : s.threads[i]? = some (x.prog u)
  get : x.past → (s.world.get u.name).isSome = true
  created : .responded i 201 [] ∈ s.world.log → x.past

theorem StoredUser.step {i : Nat} {u : ChatUser} {x : RegAt} {s : Procs RegSig RegWorld} (h : StoredUser i u x s)
    (act : Nat × List Bytes) : ∃ x', StoredUser i u x' (s.step regExec act) := by
  by_cases hi : act.1 = i
  · obtain ⟨k, order⟩ := act
    dsimp only at hi
    subst hi
    have hn := h.noDelete.step (k, order)
    have hg := h.noDelete.get (k, order)
    refine ⟨(x.act u order k s.world).1, ?_⟩
    rw [RegAt.step h.at_] at hn hg ⊢
    refine ⟨hn, List.getElem?_set_self (List.getElem?_eq_some_iff.mp h.at_).1, fun hx => ?_, fun hc => ?_⟩
    · by_cases hp : x.past
      · exact hg (h.get hp)
      · rw [RegAt.act_new hp hx]
        simp [RegAt.act, regExec, RegWorld.get]
    · rcases RegAt.act_created hc with hc | hp
      · exact RegAt.act_past (h.created hc)
      · exact RegAt.act_past hp
  · exact ⟨x, h.noDelete.step act, (regStep_other hi).trans h.at_, fun hx => h.noDelete.get act (h.get hx),
      fun hc => h.created (step_responded hi hc)⟩

theorem StoredUser.run {i : Nat} {u : ChatUser} {x : RegAt} {s : Procs RegSig RegWorld} (h : StoredUser i u x s)
    (acts : List (Nat × List Bytes)) : ∃ x', StoredUser i u x' (s.run regExec acts) := by
  induction acts generalizing x s with
  | nil => exact ⟨x, h⟩
  | cons act acts ih =>
    obtain ⟨x', h'⟩ := h.step act
    exact ih h'

/-- A goroutine that has not been scheduled is where it was and has answered nothing. -/
theorem run_idle {s : Procs RegSig RegWorld} {acts : List (Nat × List Bytes)} {j : Nat} (h : j ∉ acts.map (·.1)) :
    (s.run regExec acts).threads[j]? = s.threads[j]? ∧
    ∀ status users, RegEvent.responded j status users ∈ (s.run regExec acts).world.log →
      .responded j status users ∈ s.world.log := by
  induction acts generalizing s with
  | nil => exact ⟨rfl, fun _ _ => id⟩
  | cons act acts ih =>
    rw [List.map_cons, List.mem_cons, not_or] at h
    obtain ⟨h1, h2⟩ := ih (s := s.step regExec act) h.2
    exact ⟨h1.trans (regStep_other (Ne.symm h.1)),
      fun status users hm => step_responded (Ne.symm h.1) (h2 status users hm)⟩

/-- The goroutine will find the name. -/
def RegAt.finds (name : Bytes) : RegAt → Prop
  | .begin | .conflict | .refused => True
  | .check keys => name ∈ keys
  | _ => False

structure RefusedUser (j : Nat) (u : ChatUser) (y : RegAt) (s : Procs RegSig RegWorld) : Prop where
  noDelete : NoDelete u.name s
  at_ : s.threads[j]? = some (y.prog u)
  get : (s.world.get u.name).isSome = true
  finds : y.finds u.name
  refused : .responded j 201 [] ∉ s.world.log

theorem RefusedUser.step {j : Nat} {u : ChatUser} {y : RegAt} {s : Procs RegSig RegWorld} (h : RefusedUser j u y s)
    (act : Nat × List Bytes) : ∃ y', RefusedUser j u y' (s.step regExec act) := by
  by_cases hj : act.1 = j
  · obtain ⟨k, order⟩ := act
    dsimp only at hj
    subst hj
    have hn := h.noDelete.step (k, order)
    have hg := h.noDelete.get (k, order) h.get
    refine ⟨(y.act u order k s.world).1, ?_⟩
    rw [RegAt.step h.at_] at hn hg ⊢
    refine ⟨hn, List.getElem?_set_self (List.getElem?_eq_some_iff.mp h.at_).1, hg, ?_, fun hc => ?_⟩
    · have hf := h.finds
      obtain ⟨v, hv⟩ := Option.isSome_iff_exists.mp h.get
      cases y with
      | begin => exact List.mem_dedup.mpr (List.mem_append_left _ (mem_keys_of_get hv))
      | check keys =>
        cases keys with
        | nil => cases hf
        | cons key keys =>
          simp only [RegAt.act]
          by_cases hk : u.name = key
          · rw [← hk, hv]
            dsimp only
            rw [if_pos rfl]
            trivial
          · have hin : u.name ∈ keys := (List.mem_cons.mp hf).resolve_left hk
            split
            · exact hin
            · rw [if_neg (Ne.symm hk)]; exact hin
      | conflict => trivial
      | refused => trivial
      | _ => exact hf.elim
    · rcases RegAt.act_created hc with hc | hp
      · exact h.refused hc
      · have hf := h.finds
        cases y <;> first | exact hp | exact hf
  · exact ⟨y, h.noDelete.step act, (regStep_other hj).trans h.at_, h.noDelete.get act h.get, h.finds,
      fun hc => h.refused (step_responded hj hc)⟩

theorem RefusedUser.run {j : Nat} {u : ChatUser} {y : RegAt} {s : Procs RegSig RegWorld} (h : RefusedUser j u y s)
    (acts : List (Nat × List Bytes)) : ∃ y', RefusedUser j u y' (s.run regExec acts) := by
  induction acts generalizing y s with
  | nil => exact ⟨y, h⟩
  | cons act acts ih =>
    obtain ⟨y', h'⟩ := h.step act
    exact ih h'

theorem regRun_append (requests : List ChatRequest) (acts acts' : List (Nat × List Bytes)) :
    regRun requests (acts ++ acts') = (regRun requests acts).run regExec acts' := by
  simp [regRun, Procs.run, List.foldl_append]

/-- **C100** as far as it holds: a request that comes after another for the same name was answered with 201 is not
answered with 201, whatever other requests do meanwhile. -/
theorem C100_later_partial (requests : List ChatRequest) (before after : List (Nat × List Bytes)) (i j : Nat)
    (ri rj : ChatRequest) (u v : ChatUser) (hi : requests[i]? = some ri) (hj : requests[j]? = some rj)
    (hu : ri.registers u) (hv : rj.registers v) (hn : u.name = v.name)
    (hd : ∀ r ∈ requests, ¬ r.unregisters u.name)
    (hci : .responded i 201 [] ∈ (regRun requests before).world.log)
    (hlate : j ∉ before.map (·.1)) :
    .responded j 201 [] ∉ (regRun requests (before ++ after)).world.log := by
  have h0 : StoredUser i u .begin (regStart requests) :=
    ⟨.start hd, registers_thread hi hu, False.elim, fun h => by cases h⟩
  obtain ⟨x, h1⟩ := h0.run before
  change StoredUser i u x (regRun requests before) at h1
  have hidle := run_idle (s := regStart requests) hlate
  change (regRun requests before).threads[j]? = _ ∧ _ at hidle
  have h2 : RefusedUser j v .begin (regRun requests before) :=
    ⟨hn ▸ h1.noDelete, hidle.1.trans (registers_thread hj hv), hn ▸ h1.get (h1.created hci), trivial,
      fun h => by cases hidle.2 _ _ h⟩
  obtain ⟨y, h3⟩ := h2.run after
  rw [regRun_append]
  exact h3.refused

open RegistryExample in
/-- The second registration of the name is refused. -/
example : (regRun [register alice, register (user "alice" 3000)] (go 0 20 ++ go 1 20)).world.log =
    [.responded 0 201 [], .responded 1 409 []] := by decide +kernel

/-! ## C102: users are introduced once -/

/-- The address to which notifications for the user go. -/
def ChatUser.inbox (u : ChatUser) : Bytes × Int := (u.host, u.notifyPort)

/-- All registered users have names and addresses of their own. -/
def Distinct (requests : List ChatRequest) : Prop :=
  ∀ (k l : Nat) (rk rl : ChatRequest) (u v : ChatUser), requests[k]? = some rk → requests[l]? = some rl →
    rk.registers u → rl.registers v → u.name = v.name ∨ u.inbox = v.inbox → k = l

/-- **C102**: nobody is told twice that the same user joined. -/
def C102_claim : Prop :=
  ∀ (requests : List ChatRequest) (acts : List (Nat × List Bytes)) (a b : ChatUser), Distinct requests →
    (regRun requests acts).world.log.count (toldJoined a b) ≤ 1

namespace RegistryExample

theorem distinct : Distinct [register alice, register bob] := by
  intro k l rk rl u v hk hl hu hv h
  have key : ∀ (k : Nat) (rk : ChatRequest) (u : ChatUser), [register alice, register bob][k]? = some rk →
      rk.registers u → (k = 0 ∧ u = alice) ∨ (k = 1 ∧ u = bob) := by
    intro k rk u hk hu
    match k with
    | 0 =>
      cases hk
      exact .inl ⟨rfl, (Option.some.inj hu.2).symm⟩
    | 1 =>
      cases hk
      exact .inr ⟨rfl, (Option.some.inj hu.2).symm⟩
    | k + 2 => cases hk
  have hne : alice.name ≠ bob.name ∧ alice.inbox ≠ bob.inbox := by decide +kernel
  rcases key k rk u hk hu with ⟨rfl, rfl⟩ | ⟨rfl, rfl⟩ <;> rcases key l rl v hl hv with ⟨rfl, rfl⟩ | ⟨rfl, rfl⟩
  · rfl
  · exact absurd h (not_or.mpr hne)
  · exact absurd h (not_or.mpr ⟨hne.1.symm, hne.2.symm⟩)
  · rfl

end RegistryExample

open RegistryExample in
/-- **C102 is refuted**: both goroutines find both users in the map and introduce them. -/
theorem C102_refuted : ¬ C102_claim := by
  intro h
  have h1 := h [register alice, register bob] both alice bob distinct
  have h2 : (regRun [register alice, register bob] both).world.log.count (toldJoined alice bob) = 2 := by
    decide +kernel
  omega

/-- What a goroutine other than those of `a` and `b` can do; `store` for all goroutines. -/
def RegOp.apart (a b : ChatUser) : RegOp → Prop
  | .notify host port event user =>
    RegEvent.notified host port event user ≠ toldJoined a b ∧ RegEvent.notified host port event user ≠ toldJoined b a
  | _ => True

/-- A user is stored under its name, and `a` is the only one with its address. -/
def RegOp.honest (a : ChatUser) : RegOp → Prop
  | .store n v => v.inbox = a.inbox → n = a.name ∧ v = a
  | _ => True

/-- The goroutine does not store a user with the address of `b`. -/
def RegOp.avoids (b : ChatUser) : RegOp → Prop
  | .store _ v => v.inbox ≠ b.inbox
  | _ => True

/-- The map has `a`'s address only in `a`'s entry. -/
def Honest (a : ChatUser) (w : RegWorld) : Prop :=
  ∀ n u, w.get n = some u → u.inbox = a.inbox → n = a.name ∧ u = a

theorem get_exec {order : List Bytes} {i : Nat} {o : RegOp} {w : RegWorld} {n : Bytes} {u : ChatUser}
    (h : (regExec order i o w).2.get n = some u) : w.get n = some u ∨ o = .store n u := by
  cases o with
  | store m v =>
    simp only [regExec, RegWorld.get, List.lookup_cons] at h
    by_cases hn : n = m
    · subst hn
      rw [beq_self_eq_true] at h
      rw [Option.some.inj h]
      exact .inr rfl
    · rw [beq_eq_false_iff_ne.mpr hn] at h
      dsimp only at h
      rw [lookup_filter_ne _ hn] at h
      exact .inl h
  | delete m =>
    simp only [regExec, RegWorld.get] at h
    by_cases hn : n = m
    · subst hn
      exfalso
      have hm := mem_keys_of_get (w := { users := w.users.filter (·.1 ≠ n), log := [] }) h
      simp at hm
    · rw [lookup_filter_ne _ hn] at h
      exact .inl h
  | _ => exact .inl h

theorem step_get {s : Procs RegSig RegWorld} {act : Nat × List Bytes} {n : Bytes} {u : ChatUser}
    (h : (s.step regExec act).world.get n = some u) :
    s.world.get n = some u ∨ ∃ k, s.threads[act.1]? = some (.op (.store n u) k) := by
  revert h
  unfold Procs.step
  split
  · rename_i o f hf
    intro h
    rcases get_exec h with h | rfl
    · exact .inl h
    · exact .inr ⟨_, hf⟩
  · exact .inl

theorem step_count {s : Procs RegSig RegWorld} {act : Nat × List Bytes} {e : RegEvent}
    (h : ∀ (host : Bytes) (port : Int) (event : ChatEvent) (user : ChatUser) (k),
      s.threads[act.1]? = some (.op (.notify host port event user) k) → RegEvent.notified host port event user ≠ e)
    (he : ∀ status users, RegEvent.responded act.1 status users ≠ e) :
    (s.step regExec act).world.log.count e = s.world.log.count e := by
  unfold Procs.step
  split
  · rename_i o f hf
    dsimp only
    rw [regExec_log, List.count_append]
    cases o with
    | respond status users => simp [he status users]
    | notify host port event user => simp [h host port event user f hf]
    | _ => simp
  · rfl

/-- Numbers of introductions. -/
def heard (a b : ChatUser) (s : Procs RegSig RegWorld) : Nat × Nat :=
  (s.world.log.count (toldJoined a b), s.world.log.count (toldJoined b a))

theorem heard_step {a b : ChatUser} {s : Procs RegSig RegWorld} {act : Nat × List Bytes}
    (h : ∀ p, s.threads[act.1]? = some p → Uses (S := RegSig) (RegOp.apart a b) p) :
    heard a b (s.step regExec act) = heard a b s := by
  unfold heard
  rw [step_count (fun host port event user k hk => (h _ hk).1.1) (fun _ _ => RegEvent.noConfusion),
    step_count (fun host port event user k hk => (h _ hk).1.2) (fun _ _ => RegEvent.noConfusion)]

/-- Facts about all goroutines while users with addresses of their own register; `a` is registered by `i` and `b` by
`j`. -/
structure Setting (i j : Nat) (a b : ChatUser) (s : Procs RegSig RegWorld) : Prop where
  apart : ∀ (k : Nat) (p : RegProg Unit), s.threads[k]? = some p → k ≠ i → k ≠ j →
    Uses (S := RegSig) (RegOp.apart a b) p
  honest : ∀ (k : Nat) (p : RegProg Unit), s.threads[k]? = some p → Uses (S := RegSig) (RegOp.honest a) p
  avoids : ∀ (k : Nat) (p : RegProg Unit), s.threads[k]? = some p → k ≠ j → Uses (S := RegSig) (RegOp.avoids b) p
  map : Honest a s.world

theorem Setting.start {requests : List ChatRequest} {i j : Nat} {ri rj : ChatRequest} {a b : ChatUser}
    (hd : Distinct requests) (hi : requests[i]? = some ri) (hj : requests[j]? = some rj) (ha : ri.registers a)
    (hb : rj.registers b) : Setting i j a b (regStart requests) := by
  have notA : ∀ (k : Nat) (r : ChatRequest) (v : ChatUser), requests[k]? = some r → r.registers v → k ≠ i →
      v.inbox ≠ a.inbox ∧ v ≠ a :=
    fun k r v hk hv hne => ⟨fun h => hne (hd k i r ri v a hk hi hv ha (.inr h)),
      fun h => hne (hd k i r ri v a hk hi hv ha (.inl (congrArg _ h)))⟩
  have notB : ∀ (k : Nat) (r : ChatRequest) (v : ChatUser), requests[k]? = some r → r.registers v → k ≠ j →
      v.inbox ≠ b.inbox ∧ v ≠ b :=
    fun k r v hk hv hne => ⟨fun h => hne (hd k j r rj v b hk hj hv hb (.inr h)),
      fun h => hne (hd k j r rj v b hk hj hv hb (.inl (congrArg _ h)))⟩
  have box : ∀ u v w x : ChatUser, RegEvent.notified u.host u.notifyPort .joined v = toldJoined w x →
      u.inbox = w.inbox ∧ v = x := by
    intro u v w x h
    simp only [toldJoined, RegEvent.notified.injEq] at h
    exact ⟨Prod.ext h.1 h.2.1, h.2.2.2⟩
  refine ⟨?_, ?_, ?_, ?_⟩
  · intro k p hp hki hkj
    obtain ⟨r, hr, rfl⟩ := regStart_thread hp
    refine uses_usersHandler r ?_ (fun _ _ => trivial) ?_ ?_
    · intro o ho; cases o <;> trivial
    · intro v hm hv
      obtain ⟨a1, a2⟩ := notA k r v hr ⟨hm, hv⟩ hki
      obtain ⟨b1, b2⟩ := notB k r v hr ⟨hm, hv⟩ hkj
      exact ⟨trivial, fun u => ⟨⟨fun h => b2 (box _ _ _ _ h).2, fun h => a2 (box _ _ _ _ h).2⟩,
        ⟨fun h => a1 (box _ _ _ _ h).1, fun h => b1 (box _ _ _ _ h).1⟩⟩⟩
    · intro _
      refine ⟨trivial, fun u v => ⟨?_, ?_⟩⟩ <;> simp [toldJoined]
  · intro k p hp
    obtain ⟨r, hr, rfl⟩ := regStart_thread hp
    refine uses_usersHandler r ?_ (fun _ _ => trivial) ?_ ?_
    · intro o ho; cases o <;> trivial
    · intro v hm hv
      refine ⟨fun h => ?_, fun _ => ⟨trivial, trivial⟩⟩
      have hk := hd k i r ri v a hr hi ⟨hm, hv⟩ ha (.inr h)
      subst hk
      cases hi.symm.trans hr
      cases ha.2.symm.trans hv
      exact ⟨rfl, rfl⟩
    · exact fun _ => ⟨trivial, fun _ _ => trivial⟩
  · intro k p hp hkj
    obtain ⟨r, hr, rfl⟩ := regStart_thread hp
    refine uses_usersHandler r ?_ (fun _ _ => trivial) ?_ ?_
    · intro o ho; cases o <;> trivial
    · exact fun v hm hv => ⟨(notB k r v hr ⟨hm, hv⟩ hkj).1, fun _ => ⟨trivial, trivial⟩⟩
    · exact fun _ => ⟨trivial, fun _ _ => trivial⟩
  · intro n u h
    cases h

theorem Setting.step {i j : Nat} {a b : ChatUser} {s : Procs RegSig RegWorld} (h : Setting i j a b s)
    (act : Nat × List Bytes) : Setting i j a b (s.step regExec act) := by
  refine ⟨?_, ?_, ?_, ?_⟩
  · intro k p hp hi hj
    exact Procs.uses_step (P := fun k o => k ≠ i → k ≠ j → RegOp.apart a b o)
      (fun k p hp => by
        by_cases hi : k = i
        · exact Uses.mono (P := fun _ => True) (by clear hp; induction p <;> simp_all [Uses]) (fun _ _ h => absurd hi h)
        by_cases hj : k = j
        · exact Uses.mono (P := fun _ => True) (by clear hp; induction p <;> simp_all [Uses]) (fun _ _ _ h => absurd hj h)
        exact (h.apart k p hp hi hj).mono fun _ h _ _ => h) act k p hp |>.mono fun _ h => h hi hj
  · exact Procs.uses_step (P := fun _ => RegOp.honest a) h.honest act
  · intro k p hp hj
    exact Procs.uses_step (P := fun k o => k ≠ j → RegOp.avoids b o)
      (fun k p hp => by
        by_cases hj : k = j
        · exact Uses.mono (P := fun _ => True) (by clear hp; induction p <;> simp_all [Uses]) (fun _ _ h => absurd hj h)
        exact (h.avoids k p hp hj).mono fun _ h _ => h) act k p hp |>.mono fun _ h => h hj
  · intro n u hg hu
    rcases step_get hg with hg | ⟨k, hk⟩
    · exact h.map n u hg hu
    · exact (h.honest _ _ hk).1 hu

/-- The user that the goroutine is about to tell, or to tell about. -/
def RegAt.meets : RegAt → Option ChatUser
  | .tellOther other _ | .tellUser other _ => some other
  | _ => none

/-- While `b` has not come, the goroutine of `a` does not introduce them. -/
structure Early (i j : Nat) (a b : ChatUser) (x : RegAt) (s : Procs RegSig RegWorld) : Prop where
  setting : Setting i j a b s
  at_ : s.threads[i]? = some (x.prog a)
  absent : ∀ n u, s.world.get n = some u → u.inbox ≠ b.inbox
  meets : ∀ u, x.meets = some u → u.inbox ≠ b.inbox
  none : heard a b s = (0, 0)

theorem RegAt.act_meets {a u : ChatUser} {order : List Bytes} {i : Nat} {w : RegWorld} {x : RegAt}
    (h : (x.act a order i w).1.meets = some u) : x.meets = some u ∨ ∃ n, w.get n = some u := by
  cases x with
  | check keys =>
    cases keys with
    | nil => cases h
    | cons key keys =>
      simp only [RegAt.act] at h
      split at h
      · cases h
      · split at h <;> cases h
  | meet keys =>
    cases keys with
    | nil => cases h
    | cons key keys =>
      simp only [RegAt.act] at h
      split at h
      · cases h
      · rename_i other ho
        split at h
        · cases h; exact .inr ⟨_, ho⟩
        · cases h
  | tellOther other keys => exact .inl h
  | _ => cases h

theorem Early.step {i j : Nat} {a b : ChatUser} {x : RegAt} {s : Procs RegSig RegWorld} (hab : a.inbox ≠ b.inbox)
    (h : Early i j a b x s) (act : Nat × List Bytes) (hj : act.1 ≠ j) :
    ∃ x', Early i j a b x' (s.step regExec act) := by
  have hset := h.setting.step act
  have habsent : ∀ n u, (s.step regExec act).world.get n = some u → u.inbox ≠ b.inbox := by
    intro n u hg
    rcases step_get hg with hg | ⟨k, hk⟩
    · exact h.absent n u hg
    · exact (h.setting.avoids _ _ hk hj).1
  by_cases hi : act.1 = i
  · obtain ⟨k, order⟩ := act
    dsimp only at hi
    subst hi
    refine ⟨(x.act a order k s.world).1, hset, ?_, habsent, ?_, ?_⟩
    · rw [RegAt.step h.at_]
      exact List.getElem?_set_self (List.getElem?_eq_some_iff.mp h.at_).1
    · intro u hu
      rcases RegAt.act_meets hu with hu | ⟨n, hn⟩
      · exact h.meets u hu
      · exact h.absent n u hn
    · have hkeep : ∀ e : RegEvent, (∀ status users, RegEvent.responded k status users ≠ e) →
          (∀ other keys, x = .tellOther other keys → toldJoined other a ≠ e) →
          (∀ other keys, x = .tellUser other keys → toldJoined a other ≠ e) →
          (x.act a order k s.world).2.log.count e = s.world.log.count e := by
        intro e h1 h2 h3
        cases x with
        | check keys => cases keys <;> rfl
        | meet keys => cases keys <;> rfl
        | conflict => simp [RegAt.act, regExec, h1]
        | stored => simp [RegAt.act, regExec, h1]
        | tellOther other keys =>
          have := h2 other keys rfl
          rw [toldJoined] at this
          simp [RegAt.act, regExec, this]
        | tellUser other keys =>
          have := h3 other keys rfl
          rw [toldJoined] at this
          simp [RegAt.act, regExec, this]
        | _ => rfl
      rw [← h.none]
      unfold heard
      rw [RegAt.step h.at_]
      dsimp only
      have box : ∀ u v w y : ChatUser, toldJoined u v = toldJoined w y → u.inbox = w.inbox ∧ v = y := by
        intro u v w y h
        simp only [toldJoined, RegEvent.notified.injEq] at h
        exact ⟨Prod.ext h.1 h.2.1, h.2.2.2⟩
      rw [hkeep _ (fun _ _ => RegEvent.noConfusion) (fun o ks ho he => ?_) (fun o ks ho he => ?_),
        hkeep _ (fun _ _ => RegEvent.noConfusion) (fun o ks ho he => ?_) (fun o ks ho he => ?_)]
      · exact h.meets o (by rw [ho]; rfl) (box _ _ _ _ he).1
      · exact hab (box _ _ _ _ he).1
      · exact hab (congrArg _ (box _ _ _ _ he).2)
      · exact h.meets o (by rw [ho]; rfl) (congrArg _ (box _ _ _ _ he).2)
  · refine ⟨x, hset, (regStep_other hi).trans h.at_, habsent, h.meets, ?_⟩
    rw [heard_step fun p hp => h.setting.apart _ p hp hi hj]
    exact h.none

/-- The goroutine of `b` introduces `a` at most once; `c` are the numbers of introductions so far. -/
def RegAt.once (a : ChatUser) (c : Nat × Nat) : RegAt → Prop
  | .meet keys => keys.Nodup ∧ c.1 ≤ 1 ∧ c.2 ≤ 1 ∧ (a.name ∈ keys → c = (0, 0))
  | .tellOther other keys => keys.Nodup ∧
    if other.inbox = a.inbox then other = a ∧ a.name ∉ keys ∧ c = (0, 0)
    else c.1 ≤ 1 ∧ c.2 ≤ 1 ∧ (a.name ∈ keys → c = (0, 0))
  | .tellUser other keys => keys.Nodup ∧
    if other.inbox = a.inbox then other = a ∧ a.name ∉ keys ∧ c.1 ≤ 1 ∧ c.2 = 0
    else c.1 ≤ 1 ∧ c.2 ≤ 1 ∧ (a.name ∈ keys → c = (0, 0))
  | _ => c = (0, 0)

theorem RegAt.once.le {a : ChatUser} {c : Nat × Nat} {y : RegAt} (h : y.once a c) : c.1 ≤ 1 ∧ c.2 ≤ 1 := by
  cases y with
  | meet keys => exact ⟨h.2.1, h.2.2.1⟩
  | tellOther other keys =>
    have := h.2
    split at this
    · rw [this.2.2]; decide
    · exact ⟨this.1, this.2.1⟩
  | tellUser other keys =>
    have := h.2
    split at this
    · exact ⟨this.2.2.1, by omega⟩
    · exact ⟨this.1, this.2.1⟩
  | _ => have h : c = (0, 0) := h; rw [h]; decide

theorem toldJoined_eq {u v w x : ChatUser} (h : toldJoined u v = toldJoined w x) : u.inbox = w.inbox ∧ v = x := by
  simp only [toldJoined, RegEvent.notified.injEq] at h
  exact ⟨Prod.ext h.1 h.2.1, h.2.2.2⟩

theorem RegAt.act_once {a b : ChatUser} {order : List Bytes} {j : Nat} {w : RegWorld} {y : RegAt}
    (hab : a.inbox ≠ b.inbox) (hw : Honest a w)
    (h : y.once a (w.log.count (toldJoined a b), w.log.count (toldJoined b a))) :
    (y.act b order j w).1.once a ((y.act b order j w).2.log.count (toldJoined a b),
      (y.act b order j w).2.log.count (toldJoined b a)) := by
  have hab' : b.inbox ≠ a.inbox := Ne.symm hab
  cases y with
  | begin => exact h
  | check keys =>
    cases keys with
    | nil => exact h
    | cons key keys =>
      simp only [RegAt.act]
      split
      · exact h
      · split <;> exact h
  | conflict =>
    change (_, _) = (0, 0)
    simp only [RegAt.act, regExec, List.count_append, List.count_singleton]
    exact h
  | refused => exact h
  | stored =>
    change (_, _) = (0, 0)
    simp only [RegAt.act, regExec, List.count_append, List.count_singleton]
    exact h
  | range =>
    have h : (w.log.count (toldJoined a b), w.log.count (toldJoined b a)) = (0, 0) := h
    obtain ⟨h1, h2⟩ := Prod.mk.inj h
    refine ⟨List.nodup_dedup _, ?_, ?_, fun _ => h⟩ <;> dsimp only [RegAt.act] <;> omega
  | meet keys =>
    cases keys with
    | nil => exact h
    | cons key keys =>
      obtain ⟨h1, h2, h3, h4⟩ := h
      obtain ⟨hk, hnd⟩ := List.nodup_cons.mp h1
      have hrest : RegAt.once a (w.log.count (toldJoined a b), w.log.count (toldJoined b a)) (.meet keys) :=
        ⟨hnd, h2, h3, fun hin => h4 (List.mem_cons_of_mem _ hin)⟩
      simp only [RegAt.act]
      split
      · exact hrest
      · rename_i other ho
        split
        · refine ⟨hnd, ?_⟩
          split
          · rename_i hbox
            obtain ⟨rfl, rfl⟩ := hw _ _ ho hbox
            exact ⟨rfl, hk, h4 List.mem_cons_self⟩
          · exact hrest.2
        · exact hrest
  | tellOther other keys =>
    obtain ⟨hnd, h⟩ := h
    have hBA : toldJoined other b ≠ toldJoined b a := fun he => hab' (congrArg _ (toldJoined_eq he).2)
    refine ⟨hnd, ?_⟩
    have e1 : (w.log ++ [toldJoined other b]).count (toldJoined b a) = w.log.count (toldJoined b a) := by
      rw [List.count_append, List.count_singleton, if_neg (by simpa using hBA), Nat.add_zero]
    have e2 : (w.log ++ [toldJoined other b]).count (toldJoined a b) ≤ w.log.count (toldJoined a b) + 1 := by
      rw [List.count_append, List.count_singleton]
      split <;> omega
    change if other.inbox = a.inbox then other = a ∧ a.name ∉ keys ∧
        (w.log ++ [toldJoined other b]).count (toldJoined a b) ≤ 1 ∧
        (w.log ++ [toldJoined other b]).count (toldJoined b a) = 0
      else (w.log ++ [toldJoined other b]).count (toldJoined a b) ≤ 1 ∧
        (w.log ++ [toldJoined other b]).count (toldJoined b a) ≤ 1 ∧ (a.name ∈ keys → (_, _) = (0, 0))
    rw [e1]
    by_cases hbox : other.inbox = a.inbox
    · rw [if_pos hbox] at h ⊢
      obtain ⟨h1, h2, h3⟩ := h
      obtain ⟨h4, h5⟩ := Prod.mk.inj h3
      exact ⟨h1, h2, by omega, by omega⟩
    · have hAB : toldJoined other b ≠ toldJoined a b := fun he => hbox (toldJoined_eq he).1
      have e3 : (w.log ++ [toldJoined other b]).count (toldJoined a b) = w.log.count (toldJoined a b) := by
        rw [List.count_append, List.count_singleton, if_neg (by simpa using hAB), Nat.add_zero]
      rw [if_neg hbox] at h ⊢
      rw [e3]
      refine ⟨h.1, h.2.1, fun hin => ?_⟩
      have := h.2.2 hin
      rw [← this, ← e3, ← e1]
      rfl
  | tellUser other keys =>
    obtain ⟨hnd, h⟩ := h
    have hAB : toldJoined b other ≠ toldJoined a b := fun he => hab' (toldJoined_eq he).1
    refine ⟨hnd, ?_⟩
    have e1 : (w.log ++ [toldJoined b other]).count (toldJoined a b) = w.log.count (toldJoined a b) := by
      rw [List.count_append, List.count_singleton, if_neg (by simpa using hAB), Nat.add_zero]
    have e2 : (w.log ++ [toldJoined b other]).count (toldJoined b a) ≤ w.log.count (toldJoined b a) + 1 := by
      rw [List.count_append, List.count_singleton]
      split <;> omega
    change (w.log ++ [toldJoined b other]).count (toldJoined a b) ≤ 1 ∧
      (w.log ++ [toldJoined b other]).count (toldJoined b a) ≤ 1 ∧
      (a.name ∈ keys → ((w.log ++ [toldJoined b other]).count (toldJoined a b),
        (w.log ++ [toldJoined b other]).count (toldJoined b a)) = (0, 0))
    rw [e1]
    by_cases hbox : other.inbox = a.inbox
    · rw [if_pos hbox] at h
      obtain ⟨h1, h2, h3, h4⟩ := h
      dsimp only at h3 h4
      exact ⟨h3, by omega, fun hin => absurd hin h2⟩
    · have hBA : toldJoined b other ≠ toldJoined b a := fun he => hbox (congrArg _ (toldJoined_eq he).2)
      have e3 : (w.log ++ [toldJoined b other]).count (toldJoined b a) = w.log.count (toldJoined b a) := by
        rw [List.count_append, List.count_singleton, if_neg (by simpa using hBA), Nat.add_zero]
      rw [if_neg hbox] at h
      rw [e3]
      exact h

/-- `a`'s registration is over. -/
structure LateUser (i j : Nat) (a b : ChatUser) (y : RegAt) (s : Procs RegSig RegWorld) : Prop where
  setting : Setting i j a b s
  done : s.finished i
  at_ : s.threads[j]? = some (y.prog b)
  once : y.once a (heard a b s)

theorem LateUser.step {i j : Nat} {a b : ChatUser} {y : RegAt} {s : Procs RegSig RegWorld} (hij : i ≠ j)
    (hab : a.inbox ≠ b.inbox) (h : LateUser i j a b y s) (act : Nat × List Bytes) :
    ∃ y', LateUser i j a b y' (s.step regExec act) := by
  have hset := h.setting.step act
  by_cases hi : act.1 = i
  · have : s.step regExec act = s := by
      unfold Procs.step
      rw [hi, show s.threads[i]? = some (.ret ()) from h.done]
    rw [this]
    exact ⟨y, h⟩
  have hdone : (s.step regExec act).finished i := (regStep_other hi).trans h.done
  by_cases hj : act.1 = j
  · obtain ⟨k, order⟩ := act
    dsimp only at hj
    subst hj
    refine ⟨(y.act b order k s.world).1, hset, hdone, ?_, ?_⟩
    · rw [RegAt.step h.at_]
      exact List.getElem?_set_self (List.getElem?_eq_some_iff.mp h.at_).1
    · have := RegAt.act_once (order := order) (j := k) hab h.setting.map h.once
      unfold heard
      rw [RegAt.step h.at_]
      exact this
  · refine ⟨y, hset, hdone, (regStep_other hj).trans h.at_, ?_⟩
    rw [heard_step fun p hp => h.setting.apart _ p hp hi hj]
    exact h.once

/-- **C102** as far as it holds: if one registration was served before the other came, neither of the two users is
told twice of the other (whatever other requests do meanwhile; with C101, exactly once). -/
theorem C102_later_partial (requests : List ChatRequest) (before after : List (Nat × List Bytes)) (i j : Nat)
    (ri rj : ChatRequest) (a b : ChatUser) (hd : Distinct requests) (hi : requests[i]? = some ri)
    (hj : requests[j]? = some rj) (ha : ri.registers a) (hb : rj.registers b) (hij : i ≠ j)
    (hdone : (regRun requests before).finished i) (hlate : j ∉ before.map (·.1)) :
    (regRun requests (before ++ after)).world.log.count (toldJoined a b) ≤ 1 ∧
    (regRun requests (before ++ after)).world.log.count (toldJoined b a) ≤ 1 := by
  have hab : a.inbox ≠ b.inbox := fun h => hij (hd i j ri rj a b hi hj ha hb (.inr h))
  have early : ∀ (acts : List (Nat × List Bytes)) (x : RegAt) (s : Procs RegSig RegWorld), Early i j a b x s →
      j ∉ acts.map (·.1) → ∃ x', Early i j a b x' (s.run regExec acts) := by
    intro acts
    induction acts with
    | nil => exact fun x s h _ => ⟨x, h⟩
    | cons act acts ih =>
      intro x s h hn
      rw [List.map_cons, List.mem_cons, not_or] at hn
      obtain ⟨x', h'⟩ := h.step hab act (Ne.symm hn.1)
      exact ih x' _ h' hn.2
  have late : ∀ (acts : List (Nat × List Bytes)) (y : RegAt) (s : Procs RegSig RegWorld), LateUser i j a b y s →
      ∃ y', LateUser i j a b y' (s.run regExec acts) := by
    intro acts
    induction acts with
    | nil => exact fun y s h => ⟨y, h⟩
    | cons act acts ih =>
      intro y s h
      obtain ⟨y', h'⟩ := h.step hij hab act
      exact ih y' _ h'
  obtain ⟨x, h1⟩ := early before .begin (regStart requests)
    ⟨.start hd hi hj ha hb, registers_thread hi ha, (fun n u h => by cases h), (fun u h => by cases h), rfl⟩ hlate
  change Early i j a b x (regRun requests before) at h1
  have hidle := (run_idle (s := regStart requests) hlate).1
  change (regRun requests before).threads[j]? = _ at hidle
  obtain ⟨y, h2⟩ := late after .begin (regRun requests before)
    ⟨h1.setting, hdone, hidle.trans (registers_thread hj hb), h1.none⟩
  rw [regRun_append]
  exact h2.once.le

/-! ## C103: every request is answered -/

/-- Paths that reach the handler: "/users" and everything that begins with "/users/" (main.go:28-29). -/
def ChatRequest.routed (r : ChatRequest) : Prop := r.path = str "/users" ∨ ∃ name, r.path = str "/users/" ++ name

/-- **C103**: every request gets one response: the handler does not panic, never responds twice, and has responded
when it is finished. -/
def C103_claim : Prop :=
  ∀ (requests : List ChatRequest) (acts : List (Nat × List Bytes)) (i : Nat) (p : RegProg Unit),
    (∀ r ∈ requests, r.routed) → (regRun requests acts).threads[i]? = some p →
    (∀ m, p ≠ .panic m) ∧
    ((regRun requests acts).world.log.countP fun e => match e with | .responded k _ _ => k == i | _ => false) ≤ 1 ∧
    (p = .ret () →
      ((regRun requests acts).world.log.countP fun e => match e with | .responded k _ _ => k == i | _ => false) = 1)

/-- **C103 is refuted**: DELETE /users makes the handler slice beyond the end of the path. -/
theorem C103_refuted : ¬ C103_claim := by
  intro h
  have hp : usersHandler { method := .delete, path := str "/users", body := none } =
      .panic "slice bounds out of range" := by
    simp only [usersHandler, unregisterUser]
    rw [if_pos (by decide +kernel)]
  have := (h [{ method := .delete, path := str "/users", body := none }] [] 0 _ (by simp [ChatRequest.routed]) rfl).1
  exact this _ hp

/-- Responses so far: at most one. -/
def answerA : Auto RegSig Nat where
  pre o n := match o with
    | .respond _ _ => n = 0
    | _ => True
  next o _ n := match o with
    | .respond _ _ => n + 1
    | _ => n

/-- The number of responses to request `i`. -/
def answers (i : Nat) (log : List RegEvent) : Nat :=
  log.countP fun e => match e with | .responded k _ _ => k == i | _ => false

theorem answer_forRange {σ : Type} {f : σ → Bytes → ChatUser → RegProg (Bool × σ)} {n : Nat}
    (hf : ∀ s key user, SafeE answerA (f s key user) n (fun _ m => m = n) fun _ _ => False) (keys : List Bytes) (s : σ) :
    SafeE answerA (forRange f keys s) n (fun _ m => m = n) fun _ _ => False := by
  induction keys generalizing s with
  | nil => rfl
  | cons key keys ih =>
    refine ⟨trivial, fun (value : Option ChatUser) => ?_⟩
    cases value with
    | none => exact ih s
    | some user =>
      refine SafeE.bind ((hf s key user).mono (fun r m hm => ?_) fun _ _ => id)
      subst hm
      cases r.1
      · rfl
      · exact ih r.2

theorem answer_check (user : ChatUser) (keys : List Bytes) :
    SafeE answerA (forRange (checkName user) keys false) 0 (fun abort m => m = if abort then 1 else 0)
      fun _ _ => False := by
  induction keys with
  | nil => rfl
  | cons key keys ih =>
    refine ⟨trivial, fun (value : Option ChatUser) => ?_⟩
    cases value with
    | none => exact ih
    | some v =>
      change SafeE answerA ((checkName user false key v).bind _) _ _ _
      unfold checkName
      split
      · exact ⟨rfl, fun _ => rfl⟩
      · exact ih

theorem answer_usersHandler (r : ChatRequest) (hr : r.method = .delete → usersPrefix ≤ r.path.length) :
    SafeE answerA (usersHandler r) 0 (fun _ m => m = 1) fun _ _ => False := by
  unfold usersHandler
  split
  · refine ⟨trivial, fun keys => SafeE.bind ((answer_forRange ?_ _ _).mono ?_ fun _ _ => id)⟩
    · exact fun _ _ _ => rfl
    · rintro users m rfl
      exact ⟨rfl, fun _ => rfl⟩
  · split
    · exact ⟨rfl, fun _ => rfl⟩
    · refine ⟨trivial, fun keys => SafeE.bind ((answer_check _ keys).mono ?_ fun _ _ => id)⟩
      rintro abort m rfl
      cases abort
      · refine ⟨trivial, fun _ => ⟨rfl, fun _ => ⟨trivial, fun keys => answer_forRange (n := 1) ?_ keys ()⟩⟩⟩
        intro s key u
        unfold introduce
        split
        · exact ⟨trivial, fun _ => ⟨trivial, fun _ => rfl⟩⟩
        · rfl
      · rfl
  · rename_i hm
    unfold unregisterUser
    rw [if_neg (by have := hr hm; omega)]
    refine ⟨trivial, fun (value : Option ChatUser) => ?_⟩
    cases value with
    | none => exact ⟨rfl, fun _ => rfl⟩
    | some user =>
      refine ⟨trivial, fun _ => ⟨rfl, fun _ => ⟨trivial, fun keys => answer_forRange (n := 1) ?_ keys ()⟩⟩⟩
      exact fun s key u => ⟨trivial, fun _ => rfl⟩
  · exact ⟨rfl, fun _ => rfl⟩

/-- Every goroutine has responded as often as its automaton says. -/
def Answering (s : Procs RegSig RegWorld) : Prop :=
  ∀ (k : Nat) (p : RegProg Unit), s.threads[k]? = some p →
    SafeE answerA p (answers k s.world.log) (fun _ m => m = 1) (fun _ _ => False) ∧ answers k s.world.log ≤ 1

theorem Answering.step {s : Procs RegSig RegWorld} (h : Answering s) (act : Nat × List Bytes) :
    Answering (s.step regExec act) := by
  unfold Procs.step
  split
  · rename_i o f hf
    intro k p hp
    dsimp only at hp ⊢
    have hlog := regExec_log act.2 act.1 o s.world
    by_cases hk : act.1 = k
    · subst hk
      rw [List.getElem?_set_self (List.getElem?_eq_some_iff.mp hf).1] at hp
      cases hp
      obtain ⟨⟨h1, h2⟩, h3⟩ := h _ _ hf
      have h2 := h2 (regExec act.2 act.1 o s.world).1
      rw [hlog]
      cases o with
      | respond status users =>
        have h1 : answers act.1 s.world.log = 0 := h1
        have hc : answers act.1 (s.world.log ++ [.responded act.1 status users]) = answers act.1 s.world.log + 1 := by
          simp [answers]
        simp only [answerA] at h2
        dsimp only
        rw [hc]
        exact ⟨h2, by omega⟩
      | notify host port event user =>
        have hc : answers act.1 (s.world.log ++ [.notified host port event user]) = answers act.1 s.world.log := by
          simp [answers]
        dsimp only
        rw [hc]
        exact ⟨h2, h3⟩
      | _ =>
        dsimp only
        rw [List.append_nil]
        exact ⟨h2, h3⟩
    · rw [List.getElem?_set_ne hk] at hp
      have hc : answers k (regExec act.2 act.1 o s.world).2.log = answers k s.world.log := by
        rw [hlog]
        cases o <;> simp [answers, hk]
      rw [hc]
      exact h k p hp
  · exact h

/-- **C103** as far as it holds: if no DELETE is for "/users" itself, every request gets one response. -/
theorem C103_answered_partial (requests : List ChatRequest) (acts : List (Nat × List Bytes)) (i : Nat)
    (p : RegProg Unit) (hr : ∀ r ∈ requests, r.routed) (hdel : ∀ r ∈ requests, r.method = .delete → r.path ≠ str "/users")
    (hp : (regRun requests acts).threads[i]? = some p) :
    (∀ m, p ≠ .panic m) ∧
    ((regRun requests acts).world.log.countP fun e => match e with | .responded k _ _ => k == i | _ => false) ≤ 1 ∧
    (p = .ret () →
      ((regRun requests acts).world.log.countP fun e => match e with | .responded k _ _ => k == i | _ => false) = 1) := by
  have h0 : Answering (regStart requests) := by
    intro k p hp
    obtain ⟨r, hk, rfl⟩ := regStart_thread hp
    have hmem := List.mem_of_getElem? hk
    refine ⟨answer_usersHandler r fun hm => ?_, Nat.zero_le _⟩
    rcases hr r hmem with h | ⟨name, h⟩
    · exact absurd h (hdel r hmem hm)
    · rw [h, List.length_append, show (str "/users/").length = 7 by decide +kernel, usersPrefix]
      omega
  have hrun : ∀ (acts : List (Nat × List Bytes)) (s : Procs RegSig RegWorld), Answering s →
      Answering (s.run regExec acts) := by
    intro acts
    induction acts with
    | nil => exact fun s h => h
    | cons act acts ih => exact fun s h => ih _ (h.step act)
  obtain ⟨h1, h2⟩ := hrun acts _ h0 i p hp
  refine ⟨?_, h2, ?_⟩
  · rintro m rfl
    exact h1
  · rintro rfl
    exact h1

open RegistryExample in
/-- Responses to all kinds of requests. -/
example : (regRun [register alice, ⟨.get, str "/users", none⟩, ⟨.post, str "/users", none⟩, ⟨.other, str "/users/", none⟩,
      unregister "carol", unregister "alice"]
      (go 0 20 ++ go 1 20 ++ go 2 20 ++ go 3 20 ++ go 4 20 ++ go 5 20)).world.log =
    [.responded 0 201 [], .responded 1 200 [alice], .responded 2 400 [], .responded 3 405 [], .responded 4 404 [],
     .responded 5 204 []] := by decide +kernel

/-! ## C104: the last news of a user who left -/

/-- **C104**: when a user has been unregistered and everything has been served, the last that another registered
user was told about it is that it left. -/
def C104_claim : Prop :=
  ∀ (requests : List ChatRequest) (acts : List (Nat × List Bytes)) (i j d : Nat) (ri rj rd : ChatRequest)
    (a b : ChatUser), Distinct requests → requests[i]? = some ri → requests[j]? = some rj → requests[d]? = some rd →
    ri.registers a → rj.registers b → rd.unregisters a.name → a.name ≠ b.name → Kept requests b →
    (∀ k < requests.length, (regRun requests acts).finished k) →
    .responded d 204 [] ∈ (regRun requests acts).world.log →
    toldJoined b a ∈ (regRun requests acts).world.log →
    ∃ pre post, (regRun requests acts).world.log = pre ++ toldLeft b a :: post ∧ toldJoined b a ∉ post

namespace RegistryExample

/-- Alice and Bob register, Alice leaves. -/
def leaving : List ChatRequest := [register alice, register bob, unregister "alice"]

/-- The goroutine that registers Alice has found Bob when Alice is unregistered, and tells him afterwards. -/
def race : List (Nat × List Bytes) := go 1 20 ++ go 0 7 ++ go 2 20 ++ go 0 20

theorem leaving_registers {k : Nat} {r : ChatRequest} {u : ChatUser} (hk : leaving[k]? = some r) (hu : r.registers u) :
    (k = 0 ∧ u = alice) ∨ (k = 1 ∧ u = bob) := by
  match k with
  | 0 =>
    cases hk
    exact .inl ⟨rfl, (Option.some.inj hu.2).symm⟩
  | 1 =>
    cases hk
    exact .inr ⟨rfl, (Option.some.inj hu.2).symm⟩
  | 2 =>
    cases hk
    cases hu.1
  | k + 3 => cases hk

theorem leaving_distinct : Distinct leaving := by
  intro k l rk rl u v hk hl hu hv h
  have hne : alice.name ≠ bob.name ∧ alice.inbox ≠ bob.inbox := by decide +kernel
  rcases leaving_registers hk hu with ⟨rfl, rfl⟩ | ⟨rfl, rfl⟩ <;>
    rcases leaving_registers hl hv with ⟨rfl, rfl⟩ | ⟨rfl, rfl⟩
  · rfl
  · exact absurd h (not_or.mpr hne)
  · exact absurd h (not_or.mpr ⟨hne.1.symm, hne.2.symm⟩)
  · rfl

/-- A test for `finished`. -/
def returned : RegProg Unit → Bool
  | .ret _ => true
  | _ => false

theorem returned_finished {s : Procs RegSig RegWorld} {k : Nat} (h : s.threads[k]?.map returned = some true) :
    s.finished k := by
  obtain ⟨p, hp, hr⟩ := Option.map_eq_some_iff.mp h
  cases p with
  | ret u => exact hp
  | _ => cases hr

theorem leaving_kept : Kept leaving bob := by
  have hne : alice.name ≠ bob.name := by decide +kernel
  intro r hr
  refine ⟨fun v hv hn => ?_, ?_⟩
  · obtain ⟨k, hk⟩ := List.getElem?_of_mem hr
    rcases leaving_registers hk hv with ⟨_, rfl⟩ | ⟨_, rfl⟩
    · exact absurd hn hne
    · rfl
  · revert r
    decide +kernel

end RegistryExample

open RegistryExample in
/-- **C104 is refuted**: Bob is told that Alice joined after he was told that Alice left. -/
theorem C104_refuted : ¬ C104_claim := by
  intro h
  have hlog : (regRun leaving race).world.log =
      [.responded 1 201 [], .responded 0 201 [], .responded 2 204 [], toldLeft bob alice, toldJoined bob alice,
       toldJoined alice bob] := by decide +kernel
  have hfin : ∀ k < leaving.length, (regRun leaving race).finished k := by
    intro k hk
    refine returned_finished ?_
    revert k
    decide +kernel
  obtain ⟨pre, post, h1, h2⟩ := h leaving race 0 1 2 _ _ _ alice bob leaving_distinct rfl rfl rfl
    (by decide +kernel) (by decide +kernel) (by decide +kernel) (by decide +kernel) leaving_kept hfin
    (by rw [hlog]; decide +kernel) (by rw [hlog]; decide +kernel)
  rw [hlog] at h1
  have hne : toldLeft bob alice ∉ ([.responded 1 201 [], .responded 0 201 [], .responded 2 204 []] : List RegEvent) ∧
      toldLeft bob alice ∉ [toldJoined bob alice, toldJoined alice bob] := by decide +kernel
  have hj : toldJoined bob alice ∈ [toldJoined bob alice, toldJoined alice bob] := by decide +kernel
  have : ([.responded 1 201 [], .responded 0 201 [], .responded 2 204 []] : List RegEvent) = pre ∧
      [toldJoined bob alice, toldJoined alice bob] = post := by
    have key : ∀ (p q p' q' : List RegEvent) (e : RegEvent), e ∉ p → e ∉ q → p ++ e :: q = p' ++ e :: q' →
        p = p' ∧ q = q' := by
      intro p
      induction p with
      | nil =>
        intro q p' q' e _ hq he
        cases p' with
        | nil => exact ⟨rfl, (List.cons.inj he).2⟩
        | cons x p' =>
          exfalso
          have := (List.cons.inj he).2
          exact hq (by rw [this]; simp)
      | cons x p ih =>
        intro q p' q' e hp hq he
        cases p' with
        | nil => exact absurd (List.cons.inj he).1.symm (fun h => hp (by rw [h]; exact List.mem_cons_self))
        | cons y p' =>
          obtain ⟨rfl, he'⟩ := List.cons.inj he
          obtain ⟨rfl, rfl⟩ := ih q p' q' e (fun h => hp (List.mem_cons_of_mem _ h)) hq he'
          exact ⟨rfl, rfl⟩
    exact key _ _ _ _ _ hne.1 hne.2 h1
  rw [← this.2] at h2
  exact h2 hj

/-- The goroutine `j`, which registers `b`, keeps its promise; nobody takes `b` away. -/
structure Present (j : Nat) (b : ChatUser) (y : RegAt) (s : Procs RegSig RegWorld) : Prop where
  keeps : KeepsUser b s
  at_ : s.threads[j]? = some (y.prog b)
  get : y.past → s.world.get b.name = some b
  created : .responded j 201 [] ∈ s.world.log → y.past

theorem Present.step {j : Nat} {b : ChatUser} {y : RegAt} {s : Procs RegSig RegWorld} (h : Present j b y s)
    (act : Nat × List Bytes) : ∃ y', Present j b y' (s.step regExec act) := by
  by_cases hj : act.1 = j
  · obtain ⟨k, order⟩ := act
    dsimp only at hj
    subst hj
    have hn := h.keeps.step (k, order)
    have hg := h.keeps.get (k, order)
    refine ⟨(y.act b order k s.world).1, ?_⟩
    rw [RegAt.step h.at_] at hn hg ⊢
    refine ⟨hn, List.getElem?_set_self (List.getElem?_eq_some_iff.mp h.at_).1, fun hx => ?_, fun hc => ?_⟩
    · by_cases hp : y.past
      · exact hg (h.get hp)
      · rw [RegAt.act_new hp hx]
        simp [RegAt.act, regExec, RegWorld.get]
    · rcases RegAt.act_created hc with hc | hp
      · exact RegAt.act_past (h.created hc)
      · exact RegAt.act_past hp
  · exact ⟨y, h.keeps.step act, (regStep_other hj).trans h.at_, fun hx => h.keeps.get act (h.get hx),
      fun hc => h.created (step_responded hj hc)⟩

/-- The name of `a` is used for `a` only. -/
def RegOp.names (a : ChatUser) : RegOp → Prop
  | .store n v => n = a.name → v = a
  | _ => True

/-- What no goroutine does once `a` and `b` have registered. -/
structure Named (i j : Nat) (a b : ChatUser) (s : Procs RegSig RegWorld) : Prop where
  setting : Setting i j a b s
  names : ∀ (k : Nat) (p : RegProg Unit), s.threads[k]? = some p → Uses (S := RegSig) (RegOp.names a) p
  get : ∀ u, s.world.get a.name = some u → u = a

theorem Named.step {i j : Nat} {a b : ChatUser} {s : Procs RegSig RegWorld} (h : Named i j a b s)
    (act : Nat × List Bytes) : Named i j a b (s.step regExec act) := by
  refine ⟨h.setting.step act, Procs.uses_step (P := fun _ => RegOp.names a) h.names act, fun u hu => ?_⟩
  rcases step_get hu with hu | ⟨k, hk⟩
  · exact h.get u hu
  · exact (h.names _ _ hk).1 rfl

theorem Named.start {requests : List ChatRequest} {i j : Nat} {ri rj : ChatRequest} {a b : ChatUser}
    (hd : Distinct requests) (hi : requests[i]? = some ri) (hj : requests[j]? = some rj) (ha : ri.registers a)
    (hb : rj.registers b) : Named i j a b (regStart requests) := by
  refine ⟨.start hd hi hj ha hb, ?_, fun u h => by cases h⟩
  intro k p hp
  obtain ⟨r, hr, rfl⟩ := regStart_thread hp
  refine uses_usersHandler r ?_ (fun _ _ => trivial) ?_ ?_
  · intro o ho; cases o <;> trivial
  · intro v hm hv
    refine ⟨fun h => ?_, fun _ => ⟨trivial, trivial⟩⟩
    have hk := hd k i r ri v a hr hi ⟨hm, hv⟩ ha (.inl h)
    subst hk
    cases hi.symm.trans hr
    exact Option.some.inj (hv.symm.trans ha.2)
  · exact fun _ => ⟨trivial, fun _ _ => trivial⟩

/-- What the goroutine `d`, which unregisters `a`, has told `b` or will tell. -/
def UnregAt.says (d : Nat) (a b : ChatUser) (evs : List RegEvent) : UnregAt → Prop
  | .panicked | .begin | .absent | .gone => .responded d 204 [] ∉ evs
  | .found | .deleted | .range => True
  | .say keys => b.name ∈ keys ∨ toldLeft b a ∈ evs
  | .tell other keys => other = b ∨ b.name ∈ keys ∨ toldLeft b a ∈ evs

/-- Both have registered, and the log was `old` when the request to unregister `a` came. -/
structure Leaving (i j d : Nat) (a b : ChatUser) (old : List RegEvent) (x : UnregAt) (s : Procs RegSig RegWorld) :
    Prop where
  named : Named i j a b s
  keeps : KeepsUser b s
  getB : s.world.get b.name = some b
  doneI : s.finished i
  doneJ : s.finished j
  at_ : s.threads[d]? = some (x.prog a)
  log : ∃ evs, s.world.log = old ++ evs ∧ toldJoined b a ∉ evs ∧ x.says d a b evs

theorem step_ended {s : Procs RegSig RegWorld} {act : Nat × List Bytes} {i : Nat} (h : s.finished i) :
    (s.step regExec act).finished i := by
  by_cases hi : act.1 = i
  · unfold Procs.step
    rw [hi, show s.threads[i]? = some (.ret ()) from h]
    exact h
  · exact (regStep_other hi).trans h

theorem Leaving.step {i j d : Nat} {a b : ChatUser} {old : List RegEvent} {x : UnregAt} {s : Procs RegSig RegWorld}
    (h : Leaving i j d a b old x s) (act : Nat × List Bytes) :
    ∃ x', Leaving i j d a b old x' (s.step regExec act) := by
  have hnamed := h.named.step act
  have hkeeps := h.keeps.step act
  have hgetB := h.keeps.get act h.getB
  have hi := step_ended (act := act) h.doneI
  have hj := step_ended (act := act) h.doneJ
  obtain ⟨evs, hl, hn, hsay⟩ := h.log
  by_cases hd : act.1 = d
  · obtain ⟨k, order⟩ := act
    dsimp only at hd
    subst hd
    refine ⟨(x.act a order k s.world).1, ?_⟩
    rw [UnregAt.step h.named.get h.at_] at hnamed hkeeps hgetB hi hj ⊢
    refine ⟨hnamed, hkeeps, hgetB, hi, hj, List.getElem?_set_self (List.getElem?_eq_some_iff.mp h.at_).1, ?_⟩
    dsimp only
    have same : ∀ y : UnregAt, y.says k a b evs → ∃ evs', s.world.log = old ++ evs' ∧ toldJoined b a ∉ evs' ∧
        y.says k a b evs' := fun y hy => ⟨evs, hl, hn, hy⟩
    have more : ∀ (y : UnregAt) (e : RegEvent), e ≠ toldJoined b a → y.says k a b (evs ++ [e]) →
        ∃ evs', s.world.log ++ [e] = old ++ evs' ∧ toldJoined b a ∉ evs' ∧ y.says k a b evs' := by
      intro y e he hy
      refine ⟨evs ++ [e], by rw [hl, List.append_assoc], fun hm => ?_, hy⟩
      rcases List.mem_append.mp hm with hm | hm
      · exact hn hm
      · exact he (List.mem_singleton.mp hm).symm
    cases x with
    | panicked => exact same _ hsay
    | begin =>
      refine same _ ?_
      simp only [UnregAt.act]
      split
      · exact hsay
      · trivial
    | absent =>
      refine more .gone _ RegEvent.noConfusion fun hm => ?_
      rcases List.mem_append.mp hm with hm | hm
      · exact hsay hm
      · simp at hm
    | gone => exact same _ hsay
    | found => exact same .deleted trivial
    | deleted => exact more .range _ RegEvent.noConfusion trivial
    | range =>
      exact same _ (.inl (List.mem_dedup.mpr (List.mem_append_left _ (mem_keys_of_get h.getB))))
    | say keys =>
      cases keys with
      | nil => exact same _ hsay
      | cons key keys =>
        refine same _ ?_
        simp only [UnregAt.act]
        rcases hsay with hb | hb
        · by_cases hk : b.name = key
          · rw [← hk, h.getB]
            exact .inl rfl
          · have hin : b.name ∈ keys := (List.mem_cons.mp hb).resolve_left hk
            split
            · exact .inl hin
            · exact .inr (.inl hin)
        · split
          · exact .inr hb
          · exact .inr (.inr hb)
    | tell other keys =>
      refine more (.say keys) (toldLeft other a) (by simp [toldLeft, toldJoined]) ?_
      rcases hsay with rfl | hb | hb
      · exact .inr (List.mem_append_right _ (List.mem_singleton.mpr rfl))
      · exact .inl hb
      · exact .inr (List.mem_append_left _ hb)
  · refine ⟨x, hnamed, hkeeps, hgetB, hi, hj, (regStep_other hd).trans h.at_, ?_⟩
    obtain ⟨new, hnew⟩ := s.step_log act
    have hcount : (s.step regExec act).world.log.count (toldJoined b a) = s.world.log.count (toldJoined b a) := by
      by_cases hki : act.1 = i
      · refine step_count (fun host port event user k hk => ?_) (fun _ _ => RegEvent.noConfusion)
        rw [hki] at hk
        cases h.doneI.symm.trans hk
      by_cases hkj : act.1 = j
      · refine step_count (fun host port event user k hk => ?_) (fun _ _ => RegEvent.noConfusion)
        rw [hkj] at hk
        cases h.doneJ.symm.trans hk
      exact step_count (fun host port event user k hk => (h.named.setting.apart _ _ hk hki hkj).1.2)
        (fun _ _ => RegEvent.noConfusion)
    have hn' : toldJoined b a ∉ new := by
      rw [hnew, List.count_append] at hcount
      exact List.count_eq_zero.mp (by omega)
    refine ⟨evs ++ new, by rw [hnew, hl, List.append_assoc], fun hm => ?_, ?_⟩
    · rcases List.mem_append.mp hm with hm | hm
      · exact hn hm
      · exact hn' hm
    · have hresp : RegEvent.responded d 204 [] ∉ evs → RegEvent.responded d 204 [] ∉ evs ++ new := by
        intro h0 hm
        rcases List.mem_append.mp hm with hm | hm
        · exact h0 hm
        · have hc := step_count (s := s) (act := act) (e := .responded d 204 []) (fun _ _ _ _ _ _ => RegEvent.noConfusion)
            (fun _ _ he => hd (RegEvent.responded.inj he).1)
          rw [hnew, List.count_append] at hc
          exact List.count_eq_zero.mp (by omega) hm
      cases x with
      | say keys => exact hsay.imp_right (List.mem_append_left _)
      | tell other keys => exact hsay.imp_right (Or.imp_right (List.mem_append_left _))
      | found => trivial
      | deleted => trivial
      | range => trivial
      | _ => exact hresp hsay

/-- **C104** as far as it holds: if both users were registered before the request to unregister one of them came,
the last that the other is told about it is that it left, whatever other requests do meanwhile. -/
theorem C104_later_partial (requests : List ChatRequest) (before after : List (Nat × List Bytes)) (i j d : Nat)
    (ri rj rd : ChatRequest) (a b : ChatUser) (hd : Distinct requests) (hi : requests[i]? = some ri)
    (hj : requests[j]? = some rj) (hdel : requests[d]? = some rd) (ha : ri.registers a) (hb : rj.registers b)
    (hrd : rd.unregisters a.name) (hkb : Kept requests b)
    (hdi : (regRun requests before).finished i) (hdj : (regRun requests before).finished j)
    (hcj : .responded j 201 [] ∈ (regRun requests before).world.log) (hlate : d ∉ before.map (·.1))
    (hfd : (regRun requests (before ++ after)).finished d)
    (hcd : .responded d 204 [] ∈ (regRun requests (before ++ after)).world.log) :
    ∃ pre post, (regRun requests (before ++ after)).world.log = pre ++ toldLeft b a :: post ∧
      toldJoined b a ∉ post := by
  have named : ∀ (acts : List (Nat × List Bytes)) (s : Procs RegSig RegWorld), Named i j a b s →
      Named i j a b (s.run regExec acts) := by
    intro acts
    induction acts with
    | nil => exact fun s h => h
    | cons act acts ih => exact fun s h => ih _ (h.step act)
  have present : ∀ (acts : List (Nat × List Bytes)) (y : RegAt) (s : Procs RegSig RegWorld), Present j b y s →
      ∃ y', Present j b y' (s.run regExec acts) := by
    intro acts
    induction acts with
    | nil => exact fun y s h => ⟨y, h⟩
    | cons act acts ih =>
      intro y s h
      obtain ⟨y', h'⟩ := h.step act
      exact ih y' _ h'
  have leaves : ∀ (acts : List (Nat × List Bytes)) (old : List RegEvent) (x : UnregAt) (s : Procs RegSig RegWorld),
      Leaving i j d a b old x s → ∃ x', Leaving i j d a b old x' (s.run regExec acts) := by
    intro acts old
    induction acts with
    | nil => exact fun x s h => ⟨x, h⟩
    | cons act acts ih =>
      intro x s h
      obtain ⟨x', h'⟩ := h.step act
      exact ih x' _ h'
  have h1 := named before _ (.start hd hi hj ha hb)
  change Named i j a b (regRun requests before) at h1
  obtain ⟨y, h2⟩ := present before .begin (regStart requests)
    ⟨hkb.start, registers_thread hj hb, False.elim, fun h => by cases h⟩
  change Present j b y (regRun requests before) at h2
  obtain ⟨hidle, hmute⟩ := run_idle (s := regStart requests) hlate
  change (regRun requests before).threads[d]? = _ at hidle
  obtain ⟨x, hx, hthread⟩ := UnregAt.thread hdel hrd.1 hrd.2
  obtain ⟨x', h3⟩ := leaves after (regRun requests before).world.log x (regRun requests before)
    ⟨h1, h2.keeps, h2.get (h2.created hcj), hdi, hdj, hidle.trans hthread, [], by simp, by simp, by
      rcases hx with rfl | rfl <;> simp [UnregAt.says]⟩
  rw [← regRun_append] at h3
  obtain ⟨evs, hl, hn, hsay⟩ := h3.log
  have hprog : x'.prog a = .ret () := Option.some.inj (h3.at_.symm.trans hfd)
  have hcd' : RegEvent.responded d 204 [] ∈ evs := by
    rw [hl, List.mem_append] at hcd
    exact hcd.resolve_left fun h => by cases hmute _ _ h
  have htold : toldLeft b a ∈ evs := by
    cases x' with
    | say keys =>
      cases keys with
      | nil => exact hsay.resolve_left (by simp)
      | cons key keys => cases hprog
    | gone => exact absurd hcd' hsay
    | _ => cases hprog
  obtain ⟨pre, post, hsplit⟩ := List.append_of_mem htold
  refine ⟨(regRun requests before).world.log ++ pre, post, by rw [hl, hsplit, List.append_assoc], fun hm => hn ?_⟩
  rw [hsplit]
  exact List.mem_append_right _ (List.mem_cons_of_mem _ hm)

open RegistryExample in
/-- Bob is told that Alice joined, and then that Alice left. -/
example : (regRun leaving (go 0 20 ++ go 1 20 ++ go 2 20)).world.log =
    [.responded 0 201 [], .responded 1 201 [], toldJoined alice bob, toldJoined bob alice, .responded 2 204 [],
     toldLeft bob alice] := by decide +kernel

end Goe2ee
