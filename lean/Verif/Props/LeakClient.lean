import Verif.Proofs.Handshake
import Verif.Proofs.Writes
import Verif.Proofs.Counter
import Verif.Props.Client

/-!
# C84: what the client discloses

What the application gives to `Write` leaves the client only encrypted, with a key agreed with a peer
whose signature verified.
-/

set_option autoImplicit false

namespace Goe2ee

section
variable {C : Crypto}

/-- A goroutine of the application that dials and then makes calls. -/
structure User where
  udp : Bool
  host : Except Err Bytes
  options : ClientOptions
  net : Transport
  calls : List CCall

/-- Dial, then the calls (none if dialling fails). -/
def User.prog (u : User) : CProg C Client :=
  (dial u.udp u.host u.options).bind fun (r : Except Err Client) =>
    match r with
    | .error _ => .ret (newClient u.host u.options)
    | .ok c => c.calls u.calls

/-- A process in which these goroutines start. -/
def CSys.ofUsers (C : Crypto) (users : List User) : CSys C :=
  { shared := { counters := [], sealed := [] },
    threads := users.map fun u => { conn := ⟨u.net, [], false⟩, prog := u.prog } }

/-- `secret` was agreed for the session `id` by a handshake: `acts` is what the environment did. The
key fetcher returned the key of the host; a signature of the transcript with the client's generated
key, the peer's key and the id verified under it; and the secret is the Diffie–Hellman secret of
those two keys. -/
def Agreed (acts : List (Nat × CEnv C)) (host : Except Err Bytes) (id : ID) (secret : Bytes) : Prop :=
  ∃ hostname longTerm random priv serverKey hash sig,
    host = .ok hostname ∧ (∃ act ∈ acts, act.2.fetch hostname = .ok longTerm) ∧
    (∃ act ∈ acts, act.2.random = .ok random) ∧ (∃ act ∈ acts, act.2.genKey = .ok priv) ∧
    Verifies C longTerm hash (Wire.transcript (C.marshalEPub (C.epub priv)) (C.marshalEPub serverKey)
      id.val) sig ∧
    id = uuidOf random ∧ C.ecdh priv serverKey = .ok secret

/-- What a client may write: `acts` is what its environment did, `sealed` the encryptions of the
process. -/
inductive CDisclosed (acts : List (Nat × CEnv C)) (sealed : List (Bytes × Bytes × Bytes)) (u : User) :
    Bytes → Prop where
  /-- a setup request: a random id and the public half of a generated key -/
  | setup {random : ID} {priv : C.EPriv} (drawn : ∃ act ∈ acts, act.2.random = .ok random)
      (generated : ∃ act ∈ acts, act.2.genKey = .ok priv) :
      CDisclosed acts sealed u
        (Wire.setupRequest (uuidOf random).val (C.marshalEPub (C.epub priv)))
  /-- a process request with something the application wrote, encrypted with an agreed key -/
  | process {id : ID} {secret key p : Bytes} {counter : BitVec 64} (agreed : Agreed acts u.host id secret)
      (derived : deriveKey C secret kdfInfo aesKeySize = .ok key) (written : .write p ∈ u.calls)
      (nonzero : counter ≠ 0)
      (encrypted : (key, Wire.nonce12 0 counter.toNat, p) ∈ sealed) :
      CDisclosed acts sealed u (Wire.processRequest u.options.expectReply id.val counter.toNat
        (C.aeadSeal key (Wire.nonce12 0 counter.toNat) p))

theorem CDisclosed.mono {acts : List (Nat × CEnv C)} {l l' : List (Bytes × Bytes × Bytes)}
    (hl : ∀ e ∈ l, e ∈ l') {u : User} {bs : Bytes} (h : CDisclosed acts l u bs) :
    CDisclosed acts l' u bs := by
  cases h with
  | setup h1 h2 => exact .setup h1 h2
  | process h1 h2 h3 h4 h5 => exact .process h1 h2 h3 h4 (hl _ h5)

variable (C) in
/-- What a goroutine learned from an effect. -/
inductive CFact where
  | longTerm (host : Bytes) (key : PublicKey)
  | random (id : ID)
  | key (k : C.EPriv)
  | sealed (key nonce plaintext ciphertext : Bytes)

/-- The fact is true: some answer of the environment or encryption says so. -/
def CFact.Holds (acts : List (Nat × CEnv C)) (sealed : List (Bytes × Bytes × Bytes)) : CFact C → Prop
  | .longTerm host pk => ∃ act ∈ acts, act.2.fetch host = .ok pk
  | .random id => ∃ act ∈ acts, act.2.random = .ok id
  | .key k => ∃ act ∈ acts, act.2.genKey = .ok k
  | .sealed k nonce plaintext ciphertext =>
    (k, nonce, plaintext) ∈ sealed ∧ ciphertext = C.aeadSeal k nonce plaintext

theorem CFact.Holds.mono {acts : List (Nat × CEnv C)} {l l' : List (Bytes × Bytes × Bytes)}
    (hl : ∀ e ∈ l, e ∈ l') {f : CFact C} (h : f.Holds acts l) : f.Holds acts l' := by
  cases f with
  | sealed k n p c => exact ⟨hl _ h.1, h.2⟩
  | _ => exact h

/-- What a successful result teaches. -/
def cnoted {α : Type} (f : α → CFact C) (r : Except Err α) (g : List (CFact C)) : List (CFact C) :=
  match r with
  | .ok a => f a :: g
  | .error _ => g

theorem cnoted_true {α : Type} {acts : List (Nat × CEnv C)} {l : List (Bytes × Bytes × Bytes)}
    (f : α → CFact C) (r : Except Err α) (g : List (CFact C)) (hg : ∀ x ∈ g, x.Holds acts l)
    (hf : ∀ a, r = .ok a → (f a).Holds acts l) : ∀ x ∈ cnoted f r g, x.Holds acts l := by
  intro x hx
  rcases r with e | a
  · exact hg x hx
  · rcases List.mem_cons.mp hx with rfl | hx
    · exact hf a rfl
    · exact hg x hx

variable (C) in
/-- The automaton that collects facts and allows to write what may be disclosed whenever the facts are
true. -/
def cleakA (u : User) : Auto (CSig C) (List (CFact C)) where
  pre
    | .write bs, g => ∀ acts sealed, (∀ f ∈ g, f.Holds acts sealed) → CDisclosed acts sealed u bs
    | _, _ => True
  next
    | .fetch host, r, g => cnoted (CFact.longTerm host) r g
    | .random, r, g => cnoted CFact.random r g
    | .genKey, r, g => cnoted CFact.key r g
    | .aead key nonce plaintext, ciphertext, g => .sealed key nonce plaintext ciphertext :: g
    | _, _, g => g

/-- The session of a client, if any, was agreed. -/
def SessionAgreed (u : User) (c : Client) (g : List (CFact C)) : Prop :=
  c.expectReply = u.options.expectReply ∧ ∀ session, c.session = some session →
    ∀ acts sealed, (∀ f ∈ g, f.Holds acts sealed) → Agreed acts u.host session.id session.secret

variable {u : User}

abbrev AnyC {α : Type} : α → List (CFact C) → Prop := fun _ _ => True

theorem cleak_reading {α : Type} {p : CProg C α} (hp : Uses (S := CSig C) COp.isReading p)
    {g : List (CFact C)} {Q : α → List (CFact C) → Prop} (hQ : ∀ a, Q a g) : Safe (cleakA C u) p g Q :=
  Safe.of_uses hp (fun o _ h => by cases o <;> first | trivial | exact h.elim)
    (fun o _ _ h => by cases o <;> first | rfl | exact h.elim) hQ

theorem cleak_parse {α : Type} (p : RProg α) {g : List (CFact C)} {Q : α → List (CFact C) → Prop}
    (hQ : ∀ a, Q a g) : Safe (cleakA C u) (onClientConn p) g Q :=
  cleak_reading (reading_onClientConn p) hQ

/-- The result of the handshake was agreed. -/
def HandshakeOK (u : User) (r : Except Err ClientSession) (g : List (CFact C)) : Prop :=
  ∀ session, r = .ok session →
    ∀ acts sealed, (∀ f ∈ g, f.Holds acts sealed) → Agreed acts u.host session.id session.secret

theorem handshakeOK_error (e : Err) (g : List (CFact C)) : HandshakeOK u (.error e) g :=
  fun _ h => by cases h

theorem cleak_handshake (g : List (CFact C)) :
    Safe (cleakA C u) (handshake u.host) g (HandshakeOK u) := by
  unfold handshake
  cases hh : u.host with
  | error e => exact handshakeOK_error _ _
  | ok hostname =>
  refine ⟨trivial, fun (fetched : Except Err PublicKey) => ?_⟩
  rcases fetched with e | longTerm
  · exact handshakeOK_error _ _
  refine ⟨trivial, fun (random : Except Err ID) => ?_⟩
  rcases random with e | random
  · exact handshakeOK_error _ _
  dsimp only [uuid]
  refine ⟨trivial, fun (generated : Except Err C.EPriv) => ?_⟩
  rcases generated with e | priv
  · exact handshakeOK_error _ _
  refine ⟨?_, fun (r : Nat × Option Err) => ?_⟩
  · intro acts sealed hf
    rw [C02_setup_request_layout]
    exact .setup (hf (.random random) (List.mem_cons_of_mem _ (List.mem_cons_self ..)))
      (hf (.key priv) (List.mem_cons_self ..))
  rcases r with ⟨n, _ | e⟩
  rotate_left
  · exact handshakeOK_error _ _
  dsimp only
  split
  · exact handshakeOK_error _ _
  refine Safe.bind (cleak_parse _ fun parsed => ?_)
  rcases parsed with e | common
  · exact handshakeOK_error _ _
  dsimp only
  split
  · refine Safe.bind (cleak_parse _ fun parsed => ?_)
    rcases parsed with e | _ <;> exact handshakeOK_error _ _
  refine Safe.bind (cleak_parse _ fun parsed => ?_)
  rcases parsed with e | response
  · exact handshakeOK_error _ _
  dsimp only
  cases HashType.cryptoHash response.hashType with
  | panic m => trivial
  | val hash =>
  dsimp only [ofClientRes, Prog.ret_bind]
  cases hv : verifySignature C longTerm hash
      (setupTranscript C (C.epub priv) response.publicKey (uuidOf random)) response.signature with
  | panic m => trivial
  | val v =>
  match v, hv with
  | .error e, _ => exact handshakeOK_error _ _
  | .ok false, _ => exact handshakeOK_error _ _
  | .ok true, hv =>
  dsimp only [ofClientRes, Prog.ret_bind]
  cases he : C.ecdh priv response.publicKey with
  | error e => exact handshakeOK_error _ _
  | ok secret =>
  refine ⟨trivial, fun (counter : Nat) => ?_⟩
  intro session hs acts sealed hf
  cases hs
  have hver := verifySignature_true hv
  rw [C13_transcript_layout] at hver
  exact ⟨hostname, longTerm, random, priv, response.publicKey, hash, response.signature, hh,
    hf (.longTerm hostname longTerm)
      (List.mem_cons_of_mem _ (List.mem_cons_of_mem _ (List.mem_cons_self ..))),
    hf (.random random) (List.mem_cons_of_mem _ (List.mem_cons_self ..)),
    hf (.key priv) (List.mem_cons_self ..), hver, rfl, he⟩

theorem cleak_handshakeOrClose (g : List (CFact C)) :
    Safe (cleakA C u) (handshakeOrClose (newClient u.host u.options)) g
      (fun r g' => ∀ c, r = .ok c → SessionAgreed u c g') := by
  unfold handshakeOrClose
  refine Safe.bind ((cleak_handshake g).mono fun result g' h => ?_)
  rcases result with e | session
  · refine ⟨trivial, fun (r : Option Err) => ?_⟩
    rcases r with _ | _ <;> exact fun c hc => by cases hc
  · intro c hc
    cases hc
    exact ⟨rfl, fun s hs => h s (by cases hs; rfl)⟩

theorem cleak_dial (g : List (CFact C)) :
    Safe (cleakA C u) (dial u.udp u.host u.options) g (fun r g' => ∀ c, r = .ok c → SessionAgreed u c g') := by
  unfold dial
  split
  · refine ⟨trivial, fun (r : Option Err) => ?_⟩
    rcases r with _ | e
    · exact cleak_handshakeOrClose _
    · exact fun c hc => by cases hc
  · refine ⟨trivial, fun (r : Option Err) => ?_⟩
    rcases r with _ | e
    rotate_left
    · exact fun c hc => by cases hc
    refine ⟨trivial, fun (r : Option Err) => ?_⟩
    rcases r with _ | e
    · exact cleak_handshakeOrClose _
    · exact fun c hc => by cases hc

theorem processRequest_bytes (id : ID) (counter : BitVec 64) (msg : Bytes) (expectReply : Bool) :
    (newProcessRequest id counter msg expectReply).bytes =
      Wire.processRequest expectReply id.val counter.toNat msg := by
  cases expectReply <;>
    simp [ProcessRequest.bytes, newProcessRequest, RequestCommon.bytes, Wire.processRequest, beEnc_eight,
      ← be64_mod msg.length, version1, actionProcess]

theorem cleak_write (c : Client) (p : Bytes) (hp : .write p ∈ u.calls) (g : List (CFact C))
    (hc : SessionAgreed u c g) : Safe (cleakA C u) (c.write p) g (fun r g' => SessionAgreed u r.2 g') := by
  unfold Client.write
  refine Safe.bind (Safe.mono (Q := fun _ g' => g' = g) ?_ fun r g' hg => ?_)
  · split
    · exact ⟨trivial, fun _ => rfl⟩
    · rfl
  subst hg
  rcases r with _ | e
  rotate_left
  · exact hc
  dsimp only
  cases hs : c.session with
  | none => trivial
  | some session =>
  dsimp only
  cases hn : newGCM C session.secret with
  | error e => exact hc
  | ok key =>
  refine ⟨trivial, fun (counter : BitVec 64) => ?_⟩
  dsimp only
  split
  · exact hc
  rename_i hne
  rw [show gcmNonceSize = 12 from rfl, C12_nonce_layout]
  dsimp only [ofClientRes, Prog.ret_bind]
  have hold : ∀ {acts sealed} {f : CFact C} {g : List (CFact C)}, (∀ x ∈ f :: g, x.Holds acts sealed) →
      ∀ x ∈ g, x.Holds acts sealed := fun h x hx => h x (List.mem_cons_of_mem _ hx)
  refine ⟨trivial, fun (sealed : Bytes) => ⟨?_, fun (r : Nat × Option Err) => ?_⟩⟩
  · intro acts l hf
    obtain ⟨h1, h2⟩ := hf _ (List.mem_cons_self ..)
    rw [processRequest_bytes, h2, hc.1]
    exact .process (hc.2 session hs acts l (hold hf)) (newGCM_key hn) hp hne h1
  · exact ⟨hc.1, fun s h acts l hf => hc.2 s (hs.trans h) acts l (hold hf)⟩

theorem cleak_read (c : Client) (n : Nat) (g : List (CFact C)) (hc : SessionAgreed u c g) :
    Safe (cleakA C u) (c.read n) g (fun r g' => SessionAgreed u r.2 g') := by
  have hbuf : ∀ c : Client, SessionAgreed u c g → SessionAgreed u (readBuffer c n).2 g := by
    intro c h
    rw [readBuffer]
    split <;> exact h
  unfold Client.read
  refine Safe.bind (Safe.mono (Q := fun _ g' => g' = g) ?_ fun r g' hg => ?_)
  · split
    · exact ⟨trivial, fun _ => rfl⟩
    · rfl
  subst hg
  rcases r with _ | e
  rotate_left
  · exact hc
  dsimp only
  split
  · exact hbuf c hc
  refine Safe.bind (cleak_parse _ fun parsed => ?_)
  rcases parsed with _ | common
  · exact hc
  dsimp only
  split
  · refine Safe.bind (cleak_parse _ fun parsed => ?_)
    cases parsed <;> exact hc
  refine Safe.bind (cleak_parse _ fun parsed => ?_)
  rcases parsed with _ | response
  · exact hc
  dsimp only
  split
  · exact hc
  split
  · trivial
  split
  · exact hc
  rw [show gcmNonceSize = 12 from rfl, C12_nonce_layout]
  dsimp only [ofClientRes, Prog.ret_bind]
  split
  · exact hc
  · exact hbuf _ hc

theorem cleak_calls (calls : List CCall) (hcalls : ∀ x ∈ calls, x ∈ u.calls) (c : Client)
    (g : List (CFact C)) (hc : SessionAgreed u c g) : Safe (cleakA C u) (c.calls calls) g AnyC := by
  induction calls generalizing c g with
  | nil => trivial
  | cons call calls ih =>
    refine Safe.bind ?_
    have hrest : ∀ x ∈ calls, x ∈ u.calls := fun x hx => hcalls x (List.mem_cons_of_mem _ hx)
    cases call with
    | write p =>
      exact Safe.bind ((cleak_write c p (hcalls _ (List.mem_cons_self ..)) g hc).mono
        fun r g' h => ih hrest _ g' h)
    | read n =>
      exact Safe.bind ((cleak_read c n g hc).mono fun r g' h => ih hrest _ g' h)

theorem cleak_prog (g : List (CFact C)) : Safe (cleakA C u) u.prog g AnyC := by
  refine Safe.bind ((cleak_dial g).mono fun r g' h => ?_)
  rcases r with e | c
  · trivial
  · exact cleak_calls u.calls (fun _ hx => hx) c g' (h c rfl)

/-- The goroutine respects the automaton, its facts are true and its writes allowed. -/
def CLeakOK (acts : List (Nat × CEnv C)) (sealed : List (Bytes × Bytes × Bytes)) (u : User)
    (t : CThread C) : Prop :=
  ∃ g, Safe (cleakA C u) t.prog g AnyC ∧ (∀ f ∈ g, f.Holds acts sealed) ∧
    ∀ wr ∈ t.conn.writes, CDisclosed acts sealed u wr.1

theorem cexec_sealed_grows (env : CEnv C) (o : COp) (s : CConn × CShared) :
    ∀ e ∈ s.2.sealed, e ∈ (cexec env o s).2.2.sealed := by
  intro e he
  cases o with
  | close =>
    simp only [cexec]
    split <;> exact he
  | aead k n p => exact List.mem_append_left _ he
  | _ => exact he

theorem cleak_step (acts : List (Nat × CEnv C)) (env : CEnv C) (he : ∃ act ∈ acts, act.2 = env)
    (u : User) (o : COp) (k : COp.Ret C o → CProg C Client) (conn : CConn) (w : CShared)
    (h : CLeakOK acts w.sealed u ⟨conn, .op o k⟩) :
    CLeakOK acts (cexec env o (conn, w)).2.2.sealed u
      ⟨(cexec env o (conn, w)).2.1, k (cexec env o (conn, w)).1⟩ := by
  obtain ⟨g, hs, hf, hw⟩ := h
  have hgrow := cexec_sealed_grows env o (conn, w)
  have hold : ∀ f ∈ g, f.Holds acts (cexec env o (conn, w)).2.2.sealed :=
    fun f hm => (hf f hm).mono hgrow
  have hwr : ∀ wr ∈ conn.writes, CDisclosed acts (cexec env o (conn, w)).2.2.sealed u wr.1 :=
    fun wr hm => (hw wr hm).mono hgrow
  obtain ⟨act, hact, rfl⟩ := he
  refine ⟨_, hs.2 _, ?_, ?_⟩
  · cases o with
    | fetch host => exact cnoted_true (CFact.longTerm host) _ _ hold fun a ha => ⟨act, hact, ha⟩
    | random => exact cnoted_true CFact.random _ _ hold fun a ha => ⟨act, hact, ha⟩
    | genKey => exact cnoted_true CFact.key _ _ hold fun a ha => ⟨act, hact, ha⟩
    | aead key n p =>
      intro f hm
      rcases List.mem_cons.mp hm with rfl | hm
      · exact ⟨by simp [cexec], rfl⟩
      · exact hold f hm
    | _ => exact hold
  · cases o with
    | write bs =>
      intro wr hm
      rcases List.mem_append.mp hm with hm | hm
      · exact hwr wr hm
      · rw [List.mem_singleton] at hm
        subst hm
        exact hs.1 acts _ hold
    | close =>
      have : (cexec act.2 .close (conn, w)).2.1.writes = conn.writes := by
        simp only [cexec]; split <;> rfl
      rw [this]
      exact hwr
    | _ => exact hwr

theorem cleak_run (all acts : List (Nat × CEnv C)) (ha : ∀ act ∈ acts, act ∈ all) (users : List User)
    (s : CSys C) (hl : s.threads.length = users.length)
    (h : ∀ (i : Nat) (u : User) (t : CThread C), users[i]? = some u → s.threads[i]? = some t →
      CLeakOK all s.shared.sealed u t) :
    ∀ (i : Nat) (u : User) (t : CThread C), users[i]? = some u → (s.run acts).threads[i]? = some t →
      CLeakOK all (s.run acts).shared.sealed u t := by
  induction acts generalizing s with
  | nil => exact h
  | cons act acts ih =>
    refine ih (fun a hm => ha a (List.mem_cons_of_mem _ hm)) (s.step act) ?_ ?_
    · unfold CSys.step
      split
      · exact hl
      · split
        · simpa using hl
        · exact hl
    · intro i u t hu ht
      unfold CSys.step at ht ⊢
      split at ht
      · exact h i u t hu ht
      rename_i t₀ ht₀
      split at ht
      · rename_i o k hprog
        dsimp only at ht ⊢
        by_cases hi : act.1 = i
        · subst hi
          rw [List.getElem?_set_self (List.getElem?_eq_some_iff.mp ht₀).1] at ht
          cases ht
          have := h act.1 u t₀ hu ht₀
          refine cleak_step all act.2 ⟨act, ha act (List.mem_cons_self ..), rfl⟩ u o k t₀.conn s.shared ?_
          rw [← hprog]
          exact this
        · rw [List.getElem?_set_ne hi] at ht
          obtain ⟨g, h1, h2, h3⟩ := h i u t hu ht
          have hgrow := cexec_sealed_grows act.2 o (t₀.conn, s.shared)
          exact ⟨g, h1, fun f hf => (h2 f hf).mono hgrow, fun wr hm => (h3 wr hm).mono hgrow⟩
      · exact h i u t hu ht

/-- **C84.** Whatever the environment does and however the goroutines of a process interleave: all a
client writes to its connection is a setup request, or a process request with an argument of `Write`
encrypted with a key that was derived from a secret agreed in a handshake whose transcript was signed
with the key that the key fetcher returned for the host.  Nothing the application writes leaves the
process otherwise, whatever the peer sends. -/
theorem C84_client_discloses (users : List User) (acts : List (Nat × CEnv C)) :
    let s := (CSys.ofUsers C users).run acts
    ∀ (i : Nat) (u : User) (t : CThread C), users[i]? = some u → s.threads[i]? = some t →
      ∀ wr ∈ t.conn.writes, CDisclosed acts s.shared.sealed u wr.1 := by
  intro s i u t hu ht
  obtain ⟨g, -, -, h⟩ := cleak_run acts acts (fun _ h => h) users (CSys.ofUsers C users)
    (by simp [CSys.ofUsers]) (by
      intro i u t hu ht
      simp only [CSys.ofUsers, List.getElem?_map, hu, Option.map_some, Option.some.injEq] at ht
      subst ht
      exact ⟨[], cleak_prog [], by simp, by simp⟩) i u t hu ht
  exact h

end

namespace LeakExample
open HandshakeExample

/-- A goroutine that dials over TCP, where an honest server answers, and writes "ping" twice. -/
def user (hashOctet : Byte) : User :=
  { udp := false, host := .ok (str "example.com"), options := {}, net := .tcp [.data (answer hashOctet)],
    calls := [.write (str "ping"), .write (str "ping")] }

/-- Two goroutines take turns; the second is answered with a wrong hash function, so that the signature
does not verify. -/
def after : CSys Toy.crypto :=
  (CSys.ofUsers Toy.crypto [user 4, user 3]).run
    (List.replicate 40 [(0, HandshakeExample.env), (1, HandshakeExample.env)]).flatten

/-- The key both sides derive from the toy Diffie–Hellman secret 5 + 9. -/
def key : Bytes := ((deriveKey Toy.crypto (beEnc 32 14) kdfInfo aesKeySize).toOption).getD []

def id : Bytes := (uuidOf ⟨List.replicate 16 1, rfl⟩).val

end LeakExample

open LeakExample in
/-- The first goroutine sends a setup request and two ciphertexts; the second only its setup
request. -/
example : (LeakExample.after.threads.map fun t => t.conn.writes.map (·.1)) =
    [[Wire.setupRequest LeakExample.id (Toy.crypto.marshalEPub (5 : BitVec 256)),
      Wire.processRequest true LeakExample.id 1
        (Toy.crypto.aeadSeal LeakExample.key (Wire.nonce12 0 1) (str "ping")),
      Wire.processRequest true LeakExample.id 2
        (Toy.crypto.aeadSeal LeakExample.key (Wire.nonce12 0 2) (str "ping"))],
     [Wire.setupRequest LeakExample.id (Toy.crypto.marshalEPub (5 : BitVec 256))]] := by
  decide +kernel

end Goe2ee
