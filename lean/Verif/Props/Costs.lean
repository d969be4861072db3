import Verif.Model.Server
import Verif.Model.Client
import Verif.Props.Handshake

/-!
# C169: what one request costs

Whatever a peer sends, serving one request takes a bounded number of steps outside the computation:
reads of fields, writes, key generations, signatures, sessions, calls of the handler, encryptions.
The environment is an arbitrary interpreter of the effects: it decides every result, and its state
holds whatever other goroutines do in between.
-/

set_option autoImplicit false

namespace Goe2ee

section
variable {C : Crypto} {S : Sig} {α β : Type}

/-- The program performs, whatever the results of its effects are, effects of a total weight of at most `n`. -/
def Costs (f : S.Op → Nat) : Prog S α → Nat → Prop
  | .ret _, _ => True
  | .panic _, _ => True
  | .op o k, n => f o ≤ n ∧ ∀ r, Costs f (k r) (n - f o)

theorem Costs.mono {f : S.Op → Nat} {p : Prog S α} {n m : Nat} (h : Costs f p n) (hm : n ≤ m) : Costs f p m := by
  induction p generalizing n m with
  | ret a => trivial
  | panic m => trivial
  | op o k ih => exact ⟨Nat.le_trans h.1 hm, fun r => ih r (h.2 r) (by omega)⟩

theorem Costs.bind {f : S.Op → Nat} {p : Prog S α} {g : α → Prog S β} {n m : Nat} (h : Costs f p n)
    (hg : ∀ a, Costs f (g a) m) : Costs f (p.bind g) (n + m) := by
  induction p generalizing n with
  | ret a => exact (hg a).mono (by omega)
  | panic m => trivial
  | op o k ih =>
    have h1 := h.1
    exact ⟨by omega, fun r => (ih r (h.2 r)).mono (by omega)⟩

/-- The weight of what a program performs in an environment. -/
theorem Costs.trace {σ : Type} {f : S.Op → Nat} {p : Prog S α} {n : Nat} (h : Costs f p n) (I : Interp S σ) (s : σ) :
    ((p.trace I s).map fun e => f e.1).sum ≤ n := by
  induction p generalizing n s with
  | ret a => exact Nat.zero_le _
  | panic m => exact Nat.zero_le _
  | op o k ih =>
    have h1 := h.1
    have h2 := ih (I o s).1 (h.2 _) (I o s).2
    show f o + (((k (I o s).1).trace I (I o s).2).map fun e => f e.1).sum ≤ n
    omega

theorem Costs.op {f : S.Op → Nat} {o : S.Op} {k : S.Ret o → Prog S α} {a b : Nat} (h : f o ≤ a)
    (hk : ∀ r, Costs f (k r) b) : Costs f (.op o k) (a + b) := ⟨by omega, fun r => (hk r).mono (by omega)⟩

theorem sum_indicator {γ : Type} (P : γ → Bool) (l : List γ) : (l.map fun x => if P x then 1 else 0).sum = l.countP P := by
  induction l with
  | nil => rfl
  | cons x l ih =>
    rw [List.map_cons, List.sum_cons, ih, List.countP_cons]
    omega

/-- Weights for the effects of the server while it serves a request. -/
structure Weights where
  read : Nat
  write : Nat
  genKey : Nat
  newSession : Nat
  now : Nat
  load : Nat
  store : Nat
  sign : Nat
  fetchKey : Nat
  check : Nat
  secret : Nat
  invoke : Nat
  aead : Nat
  other : Nat

/-- The weight of an effect. -/
def Weights.of (w : Weights) : SOp → Nat
  | .read _ => w.read
  | .write _ => w.write
  | .genKey => w.genKey
  | .newSession _ _ _ => w.newSession
  | .now => w.now
  | .mapLoad _ => w.load
  | .mapStore _ _ => w.store
  | .sign _ _ => w.sign
  | .fetchKey => w.fetchKey
  | .check _ _ => w.check
  | .secretOf _ => w.secret
  | .invoke _ _ _ _ _ => w.invoke
  | .aead _ _ _ _ => w.aead
  | _ => w.other

/-- What a setup, a process and a fetch key request cost at most, without reading and answering. -/
def Weights.setup (w : Weights) : Nat := w.genKey + w.newSession + w.now + w.store + w.sign
def Weights.process (w : Weights) : Nat := w.load + w.now + w.store + w.check + w.secret + w.invoke + w.aead

variable (w : Weights)

theorem costs_onConn {p : RProg α} {n : Nat} (h : Costs (fun _ => 1) p n) :
    Costs (S := SSig C) w.of (onConn p) (n * w.read) := by
  induction p generalizing n with
  | ret a => trivial
  | panic m => trivial
  | op o k ih =>
    have h1 : 1 ≤ n := h.1
    obtain ⟨m, rfl⟩ : ∃ m, n = m + 1 := ⟨n - 1, by omega⟩
    refine ⟨by show w.read ≤ _; rw [Nat.add_mul]; omega, fun r => (ih r (h.2 r)).mono ?_⟩
    show (m + 1 - 1) * w.read ≤ (m + 1) * w.read - w.read
    rw [Nat.add_mul, Nat.add_sub_cancel]
    omega

theorem costs_readField {n : Nat} (size : Nat) (what : String) (k : Bytes → RProg (Except Err α))
    (h : ∀ bs, Costs (fun _ => 1) (k bs) n) : Costs (fun _ => 1) (readField size what k) (1 + n) := by
  refine .op (Nat.le_refl 1) fun r => ?_
  split
  · exact h _
  · trivial
  · trivial

theorem costs_readOctet {n : Nat} (what : String) (k : Byte → RProg (Except Err α))
    (h : ∀ b, Costs (fun _ => 1) (k b) n) : Costs (fun _ => 1) (readOctet what k) (1 + n) := by
  refine .op (Nat.le_refl 1) fun r => ?_
  split
  · split
    · trivial
    · split
      · trivial
      · exact h _
      · trivial
  · trivial
  · exact h _
  · trivial

theorem costs_common : Costs (fun _ => 1) parseRequestCommon 1 := costs_readOctet (n := 0) _ _ fun _ => trivial

theorem costs_setupRequest (common : RequestCommon) : Costs (fun _ => 1) (parseSetupRequest C common) 4 := by
  refine costs_readField (n := 3) _ _ _ fun _ => costs_readField (n := 2) _ _ _ fun _ => ?_
  dsimp only
  split
  · trivial
  refine .op (b := 1) (Nat.le_refl 1) fun _ => costs_readField (n := 0) _ _ _ fun _ => ?_
  unfold parseEPub
  split <;> trivial

theorem costs_processRequest (common : RequestCommon) : Costs (fun _ => 1) (parseProcessRequest common) 6 := by
  refine costs_readOctet (n := 5) _ _ fun _ => costs_readField (n := 4) _ _ _ fun _ =>
    costs_readField (n := 3) _ _ _ fun _ => costs_readField (n := 2) _ _ _ fun _ => ?_
  dsimp only
  split
  · trivial
  exact .op (b := 1) (Nat.le_refl 1) fun _ => costs_readField (n := 0) _ _ _ fun _ => trivial

theorem costs_writeError (bs : Bytes) : Costs (S := SSig C) w.of (writeErrorResponse bs) w.write := by
  refine Costs.op (b := 0) (Nat.le_refl _) ?_
  rintro ⟨n, e⟩
  cases e with
  | none => dsimp only; split <;> trivial
  | some e => trivial

theorem costs_fail (code : ErrorCode) (text : String) : Costs (S := SSig C) w.of (failWith code text) w.write :=
  Costs.bind (m := 0) (costs_writeError w _) fun ok => by cases ok <;> trivial

theorem costs_respond (bs : Bytes) : Costs (S := SSig C) w.of (respondWith bs) (2 * w.write) := by
  refine Costs.mono (Costs.bind (n := w.write + w.write) (m := 0) ?_ fun ok => by cases ok <;> trivial) (by omega)
  refine Costs.op (Nat.le_refl _) ?_
  rintro ⟨n, e⟩
  cases e with
  | none => dsimp only; split <;> trivial
  | some e =>
    dsimp only
    split
    · trivial
    · split
      · trivial
      · exact costs_writeError w _

theorem costs_ofRes (r : Res α) : Costs (S := SSig C) w.of (ofRes r) 0 := by
  cases r <;> trivial

theorem costs_setup (host : Except Err Bytes) (common : RequestCommon) :
    Costs w.of (setupHandler (inMemory C) host common) (4 * w.read + (w.setup + 2 * w.write)) := by
  refine (costs_onConn w (costs_setupRequest common)).bind fun parsed => ?_
  rcases parsed with _ | request
  · exact (costs_fail w _ _).mono (by omega)
  refine Costs.mono (Costs.op (a := w.genKey) (b := w.newSession + w.now + w.store + w.sign + 2 * w.write) (Nat.le_refl _) ?_)
    (by unfold Weights.setup; omega)
  rintro (_ | serverKey)
  · exact (costs_fail w _ _).mono (by omega)
  dsimp only
  split
  · exact (costs_fail w _ _).mono (by omega)
  split
  · exact (costs_fail w _ _).mono (by omega)
  refine Costs.mono (Costs.op (a := w.newSession) (b := w.now + w.store + w.sign + 2 * w.write) (Nat.le_refl _) fun session => ?_)
    (by omega)
  refine Costs.mono (Costs.bind (n := w.now + w.store) (m := w.sign + 2 * w.write) ?_ fun stored => ?_) (by omega)
  · exact .op (b := w.store) (Nat.le_refl _) fun _ => .op (b := 0) (Nat.le_refl _) fun _ => trivial
  rcases stored with _ | ⟨⟩
  · exact (costs_fail w _ _).mono (by omega)
  refine Costs.op (Nat.le_refl _) ?_
  rintro (_ | signature)
  · exact (costs_fail w _ _).mono (by omega)
  · exact ((costs_ofRes w _).bind fun _ => costs_respond w _).mono (by omega)

theorem costs_run (session : Ref) (host : Bytes) (request : ProcessRequest) (gcm message : Bytes) :
    Costs w.of (runHandler session host request gcm message : SProg C (Option Err)) (w.invoke + (w.aead + 2 * w.write)) := by
  refine Costs.op (Nat.le_refl _) fun handled => ?_
  cases handled with
  | panic m => trivial
  | error e => exact (costs_fail w _ _).mono (by omega)
  | reply written =>
    dsimp only
    split
    · refine Costs.mono (Costs.bind (costs_ofRes w _) (m := w.aead + 2 * w.write) fun _ => ?_) (by omega)
      exact .op (Nat.le_refl _) fun _ => costs_respond w _
    · trivial

theorem costs_process (host : Except Err Bytes) (common : RequestCommon) :
    Costs w.of (processHandler (inMemory C) host common) (6 * w.read + (w.process + 2 * w.write)) := by
  refine (costs_onConn w (costs_processRequest common)).bind fun parsed => ?_
  rcases parsed with _ | request
  · exact (costs_fail w _ _).mono (by omega)
  dsimp only
  split
  · exact (costs_fail w _ _).mono (by omega)
  refine Costs.mono (Costs.bind (n := w.load + w.now + w.store)
    (m := w.check + w.secret + w.invoke + w.aead + 2 * w.write) ?_ fun loaded => ?_) (by unfold Weights.process; omega)
  · refine Costs.mono (Costs.op (a := w.load) (b := w.now + w.store) (Nat.le_refl _) ?_) (by omega)
    rintro (_ | ⟨session, t⟩)
    · trivial
    · exact .op (b := w.store) (Nat.le_refl _) fun _ => .op (b := 0) (Nat.le_refl _) fun _ => trivial
  rcases loaded with _ | session
  · exact (costs_fail w _ _).mono (by omega)
  refine Costs.mono (Costs.op (a := w.check) (b := w.secret + w.invoke + w.aead + 2 * w.write) (Nat.le_refl _) fun fresh => ?_)
    (by omega)
  split
  case isFalse => exact (costs_fail w _ _).mono (by omega)
  refine Costs.mono (Costs.op (a := w.secret) (b := w.invoke + w.aead + 2 * w.write) (Nat.le_refl _) fun secret => ?_) (by omega)
  split
  · exact (costs_fail w _ _).mono (by omega)
  split
  · exact (costs_fail w _ _).mono (by omega)
  split
  · exact (costs_fail w _ _).mono (by omega)
  refine Costs.mono (Costs.bind (costs_ofRes w _) (m := w.invoke + w.aead + 2 * w.write) fun nonce => ?_) (by omega)
  split
  · exact (costs_fail w _ _).mono (by omega)
  exact (costs_run w _ _ _ _ _).mono (by omega)

theorem costs_fetchKey : Costs w.of (fetchKeyHandler (C := C)) (w.fetchKey + 2 * w.write) := by
  refine Costs.op (Nat.le_refl _) ?_
  rintro (_ | ⟨algorithm, key⟩)
  · exact (costs_fail w _ _).mono (by omega)
  · dsimp only
    split
    · exact (costs_fail w _ _).mono (by omega)
    · exact costs_respond w _

/-- **C169**, for any weights: serving one request costs at most the dearest of what the three kinds of requests cost. -/
theorem costs_serve (host : Except Err Bytes) :
    Costs w.of (serveRequest (inMemory C) host)
      (7 * w.read + 2 * w.write + max w.setup (max w.process w.fetchKey)) := by
  have h1 : w.setup ≤ max w.setup (max w.process w.fetchKey) := by omega
  have h2 : w.process ≤ max w.setup (max w.process w.fetchKey) := by omega
  have h3 : w.fetchKey ≤ max w.setup (max w.process w.fetchKey) := by omega
  generalize max w.setup (max w.process w.fetchKey) = most at h1 h2 h3 ⊢
  refine Costs.mono (Costs.bind (n := 1 * w.read) (m := 6 * w.read + 2 * w.write + most)
    (costs_onConn w costs_common) fun parsed => ?_) (by omega)
  rcases parsed with _ | common
  · trivial
  dsimp only
  split
  · trivial
  refine Costs.mono (Costs.bind (n := 6 * w.read + 2 * w.write + most) (m := 0) ?_ fun e => by cases e <;> trivial)
    (by omega)
  unfold handle
  split
  · exact (costs_respond w _).mono (by omega)
  split
  · exact (costs_setup w _ _).mono (by omega)
  split
  · exact (costs_process w _ _).mono (by omega)
  split
  · exact (costs_fetchKey w).mono (by omega)
  · trivial

end

section
variable {C : Crypto} {σ : Type}

/-- How many of the effects are of a kind. -/
def performed (kind : SOp → Bool) (effects : List ((o : SOp) × (SSig C).Ret o)) : Nat :=
  effects.countP fun e => kind e.1

theorem performed_le {w : Weights} {kind : SOp → Bool} {n : Nat} (hw : ∀ o, w.of o = if kind o then 1 else 0)
    (hn : 7 * w.read + 2 * w.write + max w.setup (max w.process w.fetchKey) ≤ n) (I : Interp (SSig C) σ) (s : σ)
    (host : Except Err Bytes) : performed kind ((serveRequest (inMemory C) host).trace I s) ≤ n := by
  have h := (costs_serve w (C := C) host).trace I s
  have he : (fun e : (o : SOp) × (SSig C).Ret o => w.of e.1) = fun e => if kind e.1 then 1 else 0 :=
    funext fun e => hw e.1
  rw [show (fun e : (o : (SSig C).Op) × (SSig C).Ret o => w.of e.1) = _ from he, sum_indicator] at h
  exact Nat.le_trans h hn

def SOp.reads : SOp → Bool | .read _ => true | _ => false
def SOp.writes : SOp → Bool | .write _ => true | _ => false
def SOp.keyGen : SOp → Bool | .genKey => true | _ => false
def SOp.signs : SOp → Bool | .sign _ _ => true | _ => false
def SOp.opens : SOp → Bool | .newSession _ _ _ => true | _ => false
def SOp.seals : SOp → Bool | .aead _ _ _ _ => true | _ => false
def SOp.invokes : SOp → Bool | .invoke _ _ _ _ _ => true | _ => false
def SOp.fetches : SOp → Bool | .fetchKey => true | _ => false
def SOp.checks : SOp → Bool | .check _ _ => true | _ => false

/-- **C169.**  In every environment, one request makes the server do at most sixteen things outside the computation;
among them at most seven reads of fields, two writes, one key generation, one signature, one new session, one check
of a counter, one call of the handler and one encryption; and only one of the three: an ephemeral key (setup), a
counter checked (process), the long-term key fetched. -/
theorem C169_bounded (I : Interp (SSig C) σ) (s : σ) (host : Except Err Bytes) :
    let effects := (serveRequest (inMemory C) host).trace I s
    effects.length ≤ 16 ∧ performed SOp.reads effects ≤ 7 ∧ performed SOp.writes effects ≤ 2 ∧
    performed SOp.signs effects ≤ 1 ∧ performed SOp.opens effects ≤ 1 ∧
    performed SOp.invokes effects ≤ 1 ∧ performed SOp.seals effects ≤ 1 ∧
    performed (fun o => o.keyGen || o.checks || o.fetches) effects ≤ 1 ∧
    performed (fun o => o.signs || o.invokes) effects ≤ 1 ∧
    performed (fun o => o.opens || o.seals) effects ≤ 1 := by
  intro effects
  refine ⟨?_, ?_, ?_, ?_, ?_, ?_, ?_, ?_, ?_, ?_⟩
  · have h := performed_le (w := ⟨1, 1, 1, 1, 1, 1, 1, 1, 1, 1, 1, 1, 1, 1⟩) (kind := fun _ => true) (n := 16)
      (fun o => by cases o <;> rfl) (by decide) I s host
    rwa [performed, List.countP_true] at h
  · exact performed_le (w := ⟨1, 0, 0, 0, 0, 0, 0, 0, 0, 0, 0, 0, 0, 0⟩) (fun o => by cases o <;> rfl) (by decide) I s host
  · exact performed_le (w := ⟨0, 1, 0, 0, 0, 0, 0, 0, 0, 0, 0, 0, 0, 0⟩) (fun o => by cases o <;> rfl) (by decide) I s host
  · exact performed_le (w := ⟨0, 0, 0, 0, 0, 0, 0, 1, 0, 0, 0, 0, 0, 0⟩) (fun o => by cases o <;> rfl) (by decide) I s host
  · exact performed_le (w := ⟨0, 0, 0, 1, 0, 0, 0, 0, 0, 0, 0, 0, 0, 0⟩) (fun o => by cases o <;> rfl) (by decide) I s host
  · exact performed_le (w := ⟨0, 0, 0, 0, 0, 0, 0, 0, 0, 0, 0, 1, 0, 0⟩) (fun o => by cases o <;> rfl) (by decide) I s host
  · exact performed_le (w := ⟨0, 0, 0, 0, 0, 0, 0, 0, 0, 0, 0, 0, 1, 0⟩) (fun o => by cases o <;> rfl) (by decide) I s host
  · exact performed_le (w := ⟨0, 0, 1, 0, 0, 0, 0, 0, 1, 1, 0, 0, 0, 0⟩) (fun o => by cases o <;> rfl) (by decide) I s host
  · exact performed_le (w := ⟨0, 0, 0, 0, 0, 0, 0, 1, 0, 0, 0, 1, 0, 0⟩) (fun o => by cases o <;> rfl) (by decide) I s host
  · exact performed_le (w := ⟨0, 0, 0, 1, 0, 0, 0, 0, 0, 0, 0, 0, 1, 0⟩) (fun o => by cases o <;> rfl) (by decide) I s host

/-- The bound is reached: a process request whose reply cannot be written costs sixteen effects, two of them writes. -/
example :
    let failing : Nat → Answer Toy.crypto := fun n => { SessionExample.env n with write := (1000, some (.other "broken")) }
    let effects := (serveRequest (inMemory Toy.crypto) (.ok (str "10.0.0.1"))).trace (seqI Toy.crypto 5000 failing)
      (SessionExample.start SessionExample.world OnceExample.message)
    effects.length = 16 ∧ performed SOp.writes effects = 2 ∧ performed SOp.invokes effects = 1 ∧
      performed SOp.seals effects = 1 ∧ performed SOp.checks effects = 1 := by decide +kernel

/-- A setup request from a stranger: one key, one signature, one session, eleven effects. -/
example :
    let effects := (serveRequest (inMemory Toy.crypto) (.ok (str "10.0.0.9"))).trace (seqI Toy.crypto 5000 SessionExample.env)
      (SessionExample.start SessionExample.world OnceExample.setup)
    effects.length = 11 ∧ performed SOp.keyGen effects = 1 ∧ performed SOp.signs effects = 1 ∧
      performed SOp.opens effects = 1 ∧ performed SOp.invokes effects = 0 := by decide +kernel

end

section
variable {C : Crypto} {σ α : Type}

theorem costs_onClientConn {f : COp → Nat} {p : RProg α} {n r : Nat} (h : Costs (fun _ => 1) p n)
    (hr : ∀ o, f (.read o) ≤ r) : Costs (S := CSig C) f (onClientConn p) (n * r) := by
  induction p generalizing n with
  | ret a => trivial
  | panic m => trivial
  | op o k ih =>
    have h1 : 1 ≤ n := h.1
    obtain ⟨m, rfl⟩ : ∃ m, n = m + 1 := ⟨n - 1, by omega⟩
    have hm : (m + 1) * r = m * r + r := by rw [Nat.add_mul, Nat.one_mul]
    have ho : f (.read o) ≤ r := hr o
    refine ⟨by show f (.read o) ≤ _; omega, fun x => (ih x (h.2 x)).mono ?_⟩
    show (m + 1 - 1) * r ≤ (m + 1) * r - f (.read o)
    rw [Nat.add_sub_cancel]
    omega

theorem costs_responseCommon : Costs (fun _ => 1) parseResponseCommon 1 := costs_readOctet (n := 0) _ _ fun _ => trivial

theorem costs_errorResponse (common : ResponseCommon) : Costs (fun _ => 1) (parseErrorResponse common) 4 := by
  refine costs_readField (n := 3) _ _ _ fun _ => costs_readField (n := 2) _ _ _ fun _ => ?_
  dsimp only
  split
  · trivial
  refine .op (a := 1) (b := 1) (Nat.le_refl 1) ?_
  rintro ⟨bs, e⟩
  cases e with
  | none => dsimp only; split <;> trivial
  | some e =>
    dsimp only
    split
    · trivial
    · split <;> trivial

theorem costs_processResponse (common : ResponseCommon) : Costs (fun _ => 1) (parseProcessResponse common) 4 := by
  refine costs_readField (n := 3) _ _ _ fun _ => costs_readField (n := 2) _ _ _ fun _ => ?_
  dsimp only
  split
  · trivial
  exact .op (b := 1) (Nat.le_refl 1) fun _ => costs_readField (n := 0) _ _ _ fun _ => trivial

theorem costs_ofClientRes (f : COp → Nat) (r : Res α) : Costs (S := CSig C) f (ofClientRes r) 0 := by
  cases r <;> trivial

theorem costs_clientWrite (f : COp → Nat) {d a e w : Nat} (hd : f .setWriteDeadline ≤ d) (ha : ∀ i, f (.addCounter i) ≤ a)
    (he : ∀ key nonce plaintext, f (.aead key nonce plaintext) ≤ e) (hw : ∀ bs, f (.write bs) ≤ w) (c : Client)
    (p : Bytes) : Costs (S := CSig C) f (c.write p) (d + (a + (e + w))) := by
  refine Costs.bind ?_ fun r => ?_
  · split
    · exact Costs.mono (Costs.op (b := 0) hd fun _ => trivial) (by omega)
    · trivial
  rcases r with _ | err
  case some => trivial
  dsimp only
  split
  · trivial
  split
  · trivial
  refine Costs.op (ha _) fun (counter : BitVec 64) => ?_
  split
  · trivial
  refine Costs.mono (Costs.bind (costs_ofClientRes f _) (m := e + w) fun nonce => ?_) (by omega)
  refine Costs.op (he _ _ _) fun _ => ?_
  exact Costs.mono (Costs.op (b := 0) (hw _) fun _ => trivial) (by omega)

theorem costs_clientRead (f : COp → Nat) {d r : Nat} (hd : f .setReadDeadline ≤ d) (hr : ∀ o, f (.read o) ≤ r) (c : Client)
    (n : Nat) : Costs (S := CSig C) f (c.read n) (d + 5 * r) := by
  refine Costs.bind ?_ fun r => ?_
  · split
    · exact Costs.mono (Costs.op (b := 0) hd fun _ => trivial) (by omega)
    · trivial
  rcases r with _ | err
  case some => trivial
  dsimp only
  split
  · trivial
  refine Costs.mono (Costs.bind (n := 1 * r) (m := 4 * r) (costs_onClientConn costs_responseCommon hr) fun parsed => ?_)
    (by omega)
  rcases parsed with _ | common
  · trivial
  dsimp only
  split
  · refine Costs.mono (Costs.bind (n := 4 * r) (m := 0) (costs_onClientConn (costs_errorResponse _) hr) fun parsed => ?_)
      (by omega)
    rcases parsed with _ | response <;> trivial
  refine Costs.mono (Costs.bind (n := 4 * r) (m := 0) (costs_onClientConn (costs_processResponse _) hr) fun parsed => ?_)
    (by omega)
  rcases parsed with _ | response
  · trivial
  dsimp only
  split
  · trivial
  split
  · trivial
  split
  · trivial
  refine Costs.bind (costs_ofClientRes f _) (m := 0) fun nonce => ?_
  split <;> trivial

/-- How many of the effects of a client are of a kind. -/
def performedC (kind : COp → Bool) (effects : List ((o : COp) × (CSig C).Ret o)) : Nat :=
  effects.countP fun e => kind e.1

theorem performedC_le {kind : COp → Bool} {n : Nat} {p : CProg C α} (h : Costs (S := CSig C) (fun o => if kind o then 1 else 0) p n)
    (I : Interp (CSig C) σ) (s : σ) : performedC kind (p.trace I s) ≤ n := by
  have h := h.trace I s
  rwa [show (fun e : (o : (CSig C).Op) × (CSig C).Ret o => if kind e.1 then 1 else 0) = fun e => if kind e.1 then 1 else 0
    from rfl, sum_indicator] at h

def COp.counts : COp → Bool | .addCounter _ => true | _ => false
def COp.seals : COp → Bool | .aead _ _ _ => true | _ => false
def COp.writes : COp → Bool | .write _ => true | _ => false
def COp.reads : COp → Bool | .read _ => true | _ => false

/-- **C169**, Write: in every environment one call uses at most one number, encrypts at most once, writes at most once
and reads nothing; with the deadline it does at most four things. -/
theorem C169_write (I : Interp (CSig C) σ) (s : σ) (c : Client) (p : Bytes) :
    let effects := (c.write p).trace I s
    effects.length ≤ 4 ∧ performedC COp.counts effects ≤ 1 ∧ performedC COp.seals effects ≤ 1 ∧
      performedC COp.writes effects ≤ 1 ∧ performedC COp.reads effects = 0 := by
  intro effects
  refine ⟨?_, ?_, ?_, ?_, Nat.le_zero.mp ?_⟩
  · have h := performedC_le (kind := fun _ => true) (C := C) (costs_clientWrite _ (d := 1) (a := 1) (e := 1) (w := 1)
      (Nat.le_refl _) (fun _ => Nat.le_refl _) (fun _ _ _ => Nat.le_refl _) (fun _ => Nat.le_refl _) c p) I s
    rwa [performedC, List.countP_true] at h
  · exact performedC_le (C := C) (costs_clientWrite _ (d := 0) (a := 1) (e := 0) (w := 0)
      (Nat.le_refl _) (fun _ => Nat.le_refl _) (fun _ _ _ => Nat.le_refl _) (fun _ => Nat.le_refl _) c p) I s
  · exact performedC_le (C := C) (costs_clientWrite _ (d := 0) (a := 0) (e := 1) (w := 0)
      (Nat.le_refl _) (fun _ => Nat.le_refl _) (fun _ _ _ => Nat.le_refl _) (fun _ => Nat.le_refl _) c p) I s
  · exact performedC_le (C := C) (costs_clientWrite _ (d := 0) (a := 0) (e := 0) (w := 1)
      (Nat.le_refl _) (fun _ => Nat.le_refl _) (fun _ _ _ => Nat.le_refl _) (fun _ => Nat.le_refl _) c p) I s
  · exact performedC_le (C := C) (costs_clientWrite _ (d := 0) (a := 0) (e := 0) (w := 0)
      (Nat.le_refl _) (fun _ => Nat.le_refl _) (fun _ _ _ => Nat.le_refl _) (fun _ => Nat.le_refl _) c p) I s

/-- **C169**, Read: in every environment one call reads at most five fields, writes nothing, encrypts nothing and uses
no number. -/
theorem C169_read (I : Interp (CSig C) σ) (s : σ) (c : Client) (n : Nat) :
    let effects := (c.read n).trace I s
    effects.length ≤ 6 ∧ performedC COp.reads effects ≤ 5 ∧
      performedC (fun o => o.writes || o.seals || o.counts) effects = 0 := by
  intro effects
  refine ⟨?_, ?_, Nat.le_zero.mp ?_⟩
  · have h := performedC_le (kind := fun _ => true) (C := C) (costs_clientRead _ (d := 1) (r := 1)
      (Nat.le_refl _) (fun _ => Nat.le_refl _) c n) I s
    rwa [performedC, List.countP_true] at h
  · exact performedC_le (C := C) (costs_clientRead _ (d := 0) (r := 1) (Nat.le_refl _) (fun _ => Nat.le_refl _) c n) I s
  · exact performedC_le (C := C) (costs_clientRead _ (d := 0) (r := 0) (Nat.le_refl _) (fun _ => Nat.le_refl _) c n) I s

/-- After a handshake a write with a deadline does all four; a read that receives an
error sets the deadline and reads four fields. -/
example :
    (match runClient HandshakeExample.env (dial false (.ok (str "example.com")) {})
        (HandshakeExample.start (.tcp [.data (HandshakeExample.answer 4 ++ (errorBytes codeServerError "no"))])) with
    | (.val (.ok c), s) =>
      let c : Client := { c with readTimeout := 5, writeTimeout := 5 }
      let written := (c.write (str "ping")).trace (cexec HandshakeExample.env) s
      let read := (c.read 10).trace (cexec HandshakeExample.env) s
      some (written.length, performedC COp.writes written, read.length, performedC COp.reads read)
    | _ => none) = some (4, 1, 5, 4) := by decide +kernel

end

end Goe2ee
