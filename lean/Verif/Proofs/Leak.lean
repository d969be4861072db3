import Verif.Proofs.Local
import Verif.Proofs.Persist
import Verif.Proofs.Writes

/-!
# What the server writes, and where it comes from

Invariants that relate a goroutine's ghost state, its connection and the log.
-/

set_option autoImplicit false

namespace Goe2ee

section
variable {C : Crypto} {G : Type}

/-- What it takes for `R` to relate every goroutine's ghost state, its connection and the log of
effects, which only grows. -/
structure KeepsLog (M : Manager C) (timeout : Nat) (A : Auto (SSig C) G)
    (R : G → Conn → List Event → Prop) (allowed : Answer C → Prop) : Prop where
  exec : ∀ (a : Answer C) (o : SOp) (c : Conn) (w : World) (g : G), allowed a → A.pre o g →
    R g c w.log →
    R (A.next o (exec C timeout a o (c, w)).1 g) (exec C timeout a o (c, w)).2.1
      (exec C timeout a o (c, w)).2.2.log
  mono : ∀ (g : G) (c : Conn) (l l' : List Event), (∀ e ∈ l, e ∈ l') → R g c l → R g c l'
  spawn : ∀ (p : Peer) (l : List Event), ∃ g', ThreadOK A (Thread.ofPeer M p) g' ∧ R g' (Conn.ofPeer p) l

/-- A goroutine respects the automaton, and its connection and the log are related to its ghost
state. -/
def LogOK (A : Auto (SSig C) G) (R : G → Conn → List Event → Prop) (l : List Event) (t : Thread C) :
    Prop :=
  ∃ g, ThreadOK A t g ∧ R g t.conn l

theorem KeepsLog.thread_step {M : Manager C} {timeout : Nat} {A : Auto (SSig C) G}
    {R : G → Conn → List Event → Prop} {allowed : Answer C → Prop}
    (hk : KeepsLog M timeout A R allowed)
    (a : Answer C) (ha : allowed a) (t : Thread C) (w : World) (ht : LogOK A R w.log t) :
    LogOK A R (t.step timeout a w).2.log (t.step timeout a w).1 ∧
      ∀ e ∈ w.log, e ∈ (t.step timeout a w).2.log := by
  obtain ⟨g, ⟨L, D, hp, hl, hd⟩, hR⟩ := ht
  have hdef : D g → LogOK A R w.log
      { t with prog := t.deferred, loop := .ret false, deferred := .ret false } := by
    intro hg
    refine ⟨g, ⟨fun _ => True, fun _ => True, ?_, fun _ _ => trivial, fun _ _ => trivial⟩, hR⟩
    exact (hd g hg).trivially (fun a _ => by cases a <;> trivial) (fun _ _ => trivial)
  unfold Thread.step
  split
  · rename_i hprog
    rw [hprog] at hp
    exact ⟨⟨g, ⟨L, D, hl g hp, hl, hd⟩, hR⟩, fun _ he => he⟩
  · rename_i hprog
    rw [hprog] at hp
    exact ⟨hdef hp, fun _ he => he⟩
  · rename_i hprog
    rw [hprog] at hp
    exact ⟨hdef hp, fun _ he => he⟩
  · rename_i o k hprog
    rw [hprog] at hp
    split
    · exact ⟨⟨_, ⟨L, D, hp.2 _, hl, hd⟩, hk.exec a o t.conn w g ha hp.1 hR⟩,
        exec_log_grows timeout a o t.conn w⟩
    · exact ⟨⟨g, ⟨L, D, by rw [hprog]; exact hp, hl, hd⟩, hR⟩, fun _ he => he⟩

theorem KeepsLog.run {M : Manager C} {timeout : Nat} {A : Auto (SSig C) G}
    {R : G → Conn → List Event → Prop} {allowed : Answer C → Prop}
    (hk : KeepsLog M timeout A R allowed)
    (acts : List (Nat × Answer C)) (ha : ∀ act ∈ acts, allowed act.2) (s : Sys C)
    (h : ∀ t ∈ s.threads, LogOK A R s.world.log t) :
    ∀ t ∈ (s.run M timeout acts).threads, LogOK A R (s.run M timeout acts).world.log t := by
  induction acts generalizing s with
  | nil => exact h
  | cons act acts ih =>
    refine ih (fun b hb => ha b (List.mem_cons_of_mem _ hb)) (s.step M timeout act) ?_
    intro t ht
    unfold Sys.step at ht ⊢
    split at ht
    · exact h t ht
    · rename_i t₀ ht₀
      obtain ⟨h1, h2⟩ := hk.thread_step act.2 (ha act (List.mem_cons_self ..)) t₀ s.world
        (h t₀ (List.mem_of_getElem? ht₀))
      rcases List.mem_append.mp ht with ht | ht
      · rcases List.mem_or_eq_of_mem_set ht with ht | rfl
        · obtain ⟨g, hg, hR⟩ := h t ht
          exact ⟨g, hg, hk.mono g _ _ _ h2 hR⟩
        · exact h1
      · obtain ⟨p, hp, rfl⟩ := List.mem_map.mp ht
        obtain ⟨g, hg, hR⟩ := hk.spawn p (t₀.step timeout act.2 s.world).2.log
        exact ⟨g, hg, by rw [ofPeer_conn]; exact hR⟩

end

/-! ## Where the parts of a response come from -/

section
variable (C : Crypto)

/-- What a goroutine learned from an effect. -/
inductive Fact where
  /-- the generated key -/
  | key (k : C.EPriv)
  /-- a signature of the key manager -/
  | sig (hash : Nat) (content signature : Bytes)
  /-- the key manager's public key -/
  | fetched (algorithm : KeyAlgorithm) (key : PublicKey)
  /-- the application replied -/
  | replied (r : Ref) (counter : BitVec 64) (reply : Bytes)
  /-- a ciphertext -/
  | sealed (r : Ref) (key nonce plaintext ciphertext : Bytes)

variable {C}

/-- The fact is true: some answer of the environment or entry of the log says so. -/
def Fact.Holds (acts : List (Nat × Answer C)) (log : List Event) : Fact C → Prop
  | .key k => ∃ act ∈ acts, act.2.genKey = .ok k
  | .sig hash content s => ∃ act ∈ acts, act.2.sign hash content = .ok s
  | .fetched algorithm pk => ∃ act ∈ acts, act.2.fetchKey = .ok (algorithm, pk)
  | .replied r counter reply => ∃ host id m, .invoked r counter host id m (.reply reply) ∈ log
  | .sealed r k nonce plaintext ciphertext =>
    .sealed r k nonce plaintext ∈ log ∧ ciphertext = C.aeadSeal k nonce plaintext

theorem Fact.Holds.mono {acts : List (Nat × Answer C)} {l l' : List Event} (hl : ∀ e ∈ l, e ∈ l')
    {f : Fact C} (h : f.Holds acts l) : f.Holds acts l' := by
  cases f with
  | key k => exact h
  | sig a b c => exact h
  | fetched a b => exact h
  | replied r c x =>
    obtain ⟨host, id, m, h⟩ := h
    exact ⟨host, id, m, hl _ h⟩
  | sealed r k n p c => exact ⟨hl _ h.1, h.2⟩

/-- What a successful result teaches. -/
def noted {α : Type} (f : α → Fact C) (r : Except Err α) (g : List (Fact C)) : List (Fact C) :=
  match r with
  | .ok a => f a :: g
  | .error _ => g

/-- What the result of the application handler teaches. -/
def notedReply (r : Ref) (counter : BitVec 64) (res : HRes) (g : List (Fact C)) : List (Fact C) :=
  match res with
  | .reply reply => .replied r counter reply :: g
  | _ => g

/-- The automaton that collects facts and allows to write what `D` allows whenever the facts are
true. -/
def leakA (D : List (Nat × Answer C) → List Event → Bytes → Prop) : Auto (SSig C) (List (Fact C)) where
  pre
    | .write bs, g => ∀ acts log, (∀ f ∈ g, f.Holds acts log) → D acts log bs
    | _, _ => True
  next
    | .genKey, r, g => noted Fact.key r g
    | .sign hash content, r, g => noted (Fact.sig hash content) r g
    | .fetchKey, r, g => noted (fun x : KeyAlgorithm × PublicKey => Fact.fetched x.1 x.2) r g
    | .invoke r counter _ _ _, res, g => notedReply r counter res g
    | .aead r key nonce plaintext, ciphertext, g => .sealed r key nonce plaintext ciphertext :: g
    | _, _, g => g

/-- What was written is allowed, and the facts are true. -/
def LeakR (D : List (Nat × Answer C) → List Event → Bytes → Prop) (acts : List (Nat × Answer C))
    (g : List (Fact C)) (c : Conn) (log : List Event) : Prop :=
  (∀ f ∈ g, f.Holds acts log) ∧ ∀ wr ∈ c.writes, D acts log wr.1

/-- Effects that teach nothing and write nothing. -/
def SOp.unleaky : SOp → Prop
  | .write _ | .genKey | .sign _ _ | .fetchKey | .invoke _ _ _ _ _ | .aead _ _ _ _ => False
  | _ => True

variable {D : List (Nat × Answer C) → List Event → Bytes → Prop}

theorem leak_plain {α : Type} {p : SProg C α} (hp : Uses (S := SSig C) SOp.unleaky p)
    {g : List (Fact C)} {Q : α → List (Fact C) → Prop} (hQ : ∀ a, Q a g) :
    Safe (leakA D) p g Q :=
  Safe.of_uses hp (fun o _ h => by cases o <;> first | trivial | exact h.elim)
    (fun o _ _ h => by cases o <;> first | rfl | exact h.elim) hQ

theorem isRead_unleaky (o : SOp) (h : o.isRead) : o.unleaky := by cases o <;> first | trivial | exact h.elim
theorem isTable_unleaky (o : SOp) (h : o.isTable) : o.unleaky := by cases o <;> first | trivial | exact h.elim

abbrev AnyL {α : Type} : α → List (Fact C) → Prop := fun _ _ => True

theorem leak_writeError (bs : Bytes) (hb : ∀ acts log, D acts log bs) (g : List (Fact C)) :
    Safe (leakA D) (writeErrorResponse bs) g AnyL := by
  refine ⟨fun acts log _ => hb acts log, fun (r : Nat × Option Err) => ?_⟩
  rcases r with ⟨n, _ | e⟩
  · show Safe _ (if _ then _ else _) _ _
    split <;> trivial
  · trivial

theorem leak_failWith (code : ErrorCode) (text : String)
    (hb : ∀ acts log, D acts log (errorBytes code text)) (g : List (Fact C)) :
    Safe (leakA D) (failWith code text) g AnyL := by
  refine Safe.bind ((leak_writeError _ hb g).mono fun ok g' _ => ?_)
  cases ok <;> trivial

theorem leak_respondWith (bs : Bytes) (g : List (Fact C))
    (hb : ∀ acts log, (∀ f ∈ g, f.Holds acts log) → D acts log bs)
    (he : ∀ acts log, D acts log (errorBytes codeServerError "failed to send back action response")) :
    Safe (leakA D) (respondWith bs) g AnyL := by
  refine Safe.bind (Safe.mono (Q := AnyL) ?_ fun ok g' _ => by cases ok <;> trivial)
  refine ⟨hb, fun (r : Nat × Option Err) => ?_⟩
  rcases r with ⟨n, _ | e⟩
  · show Safe _ (if _ then _ else _) _ _
    split <;> trivial
  · show Safe _ (if _ then _ else if _ then _ else _) _ _
    split
    · trivial
    · split
      · trivial
      · exact leak_writeError _ he _

theorem noted_true {α : Type} {acts : List (Nat × Answer C)} {log : List Event} (f : α → Fact C)
    (r : Except Err α) (g : List (Fact C)) (hg : ∀ x ∈ g, x.Holds acts log)
    (hf : ∀ a, r = .ok a → (f a).Holds acts log) : ∀ x ∈ noted f r g, x.Holds acts log := by
  intro x hx
  rcases r with e | a
  · exact hg x hx
  · rcases List.mem_cons.mp hx with rfl | hx
    · exact hf a rfl
    · exact hg x hx

theorem leakR_exec (timeout : Nat) (acts : List (Nat × Answer C)) (a : Answer C)
    (ha : ∃ act ∈ acts, act.2 = a) (o : SOp) (c : Conn) (w : World) (g : List (Fact C))
    (hD : ∀ l l' bs, (∀ e ∈ l, e ∈ l') → D acts l bs → D acts l' bs)
    (hpre : (leakA D).pre o g) (h : LeakR D acts g c w.log) :
    LeakR D acts ((leakA D).next o (exec C timeout a o (c, w)).1 g) (exec C timeout a o (c, w)).2.1
      (exec C timeout a o (c, w)).2.2.log := by
  have hgrow := exec_log_grows timeout a o c w
  obtain ⟨act, hact, rfl⟩ := ha
  have hold : ∀ f ∈ g, f.Holds acts (exec C timeout act.2 o (c, w)).2.2.log :=
    fun f hf => (h.1 f hf).mono hgrow
  have hwr : ∀ wr ∈ c.writes, D acts (exec C timeout act.2 o (c, w)).2.2.log wr.1 :=
    fun wr hm => hD _ _ _ hgrow (h.2 wr hm)
  cases o with
  | write bs =>
    refine ⟨hold, ?_⟩
    simp only [exec, execWrite, List.mem_append, List.mem_singleton]
    rintro wr (hm | rfl)
    · exact hwr wr hm
    · exact hpre acts _ hold
  | genKey =>
    refine ⟨?_, hwr⟩
    show ∀ f ∈ noted Fact.key act.2.genKey g, _
    exact noted_true _ _ _ hold fun k hk => ⟨act, hact, hk⟩
  | sign hash content =>
    refine ⟨?_, hwr⟩
    show ∀ f ∈ noted (Fact.sig hash content) (act.2.sign hash content) g, _
    exact noted_true _ _ _ hold fun k hk => ⟨act, hact, hk⟩
  | fetchKey =>
    refine ⟨?_, hwr⟩
    show ∀ f ∈ noted (fun x : KeyAlgorithm × PublicKey => Fact.fetched x.1 x.2) act.2.fetchKey g, _
    exact noted_true _ _ _ hold fun k hk => ⟨act, hact, hk⟩
  | invoke r counter host id m =>
    refine ⟨?_, hwr⟩
    show ∀ f ∈ notedReply r counter act.2.handle g, _
    intro f hf
    unfold notedReply at hf
    split at hf
    · rename_i reply heq
      rcases List.mem_cons.mp hf with rfl | hf
      · exact ⟨host, id, m, by simp [exec, heq]⟩
      · exact hold f hf
    · exact hold f hf
  | aead r key nonce plaintext =>
    refine ⟨?_, hwr⟩
    intro f hf
    rcases List.mem_cons.mp hf with rfl | hf
    · exact ⟨by simp [exec], rfl⟩
    · exact hold f hf
  | flush =>
    refine ⟨hold, ?_⟩
    have : (exec C timeout act.2 .flush (c, w)).2.1.writes = c.writes := by
      simp only [exec]; split <;> rfl
    rw [this]
    exact hwr
  | check r n =>
    refine ⟨hold, ?_⟩
    have : (exec C timeout act.2 (.check r n) (c, w)).2.1 = c := by
      simp only [exec]; split <;> rfl
    rw [this]
    exact hwr
  | _ => exact ⟨hold, hwr⟩

end

end Goe2ee
