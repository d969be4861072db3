import Verif.Proofs.Ephemeral
import Verif.Proofs.Once
import Verif.Props.Handshake
import Verif.Props.EndToEnd

/-!
# C137: the server's ephemeral keys
-/

set_option autoImplicit false

namespace Goe2ee

section
variable {C : Crypto}

/-- The transcripts signed. -/
def selSign : SOp → Option Bytes
  | .sign _ content => some content
  | _ => none

/-- The secrets of new sessions. -/
def selSession : SOp → Option Bytes
  | .newSession secret _ _ => some secret
  | _ => none

/-- What `sel` may select: one of the two uses of a key. -/
structure SelOK (sel : SOp → Option Bytes) (F : C.EPriv → Bytes → Prop) : Prop where
  keyless : ∀ o, o.isPlain → (∀ hash content, o ≠ .sign hash content) → (∀ s h i, o ≠ .newSession s h i) → sel o = none
  check : ∀ r c, sel (.check r c) = none
  secret : ∀ r, sel (.secretOf r) = none
  invoke : ∀ r c h i m, sel (.invoke r c h i m) = none
  aead : ∀ r k n p, sel (.aead r k n p) = none
  one : (∀ hash content, sel (.sign hash content) = none) ∨ (∀ s h i, sel (.newSession s h i) = none)
  sign : ∀ k ck id hash b, sel (.sign hash (setupTranscript C ck (C.epub k) id)) = some b → F k b
  session : ∀ k ck secret host id b, C.ecdh k ck = .ok secret → sel (.newSession secret host id) = some b → F k b

section
variable {sel : SOp → Option Bytes} {F : C.EPriv → Bytes → Prop}

theorem SelOK.read (hs : SelOK sel F) (o : SOp) (h : o.isRead) : o.keyless sel := by
  cases o <;> first | exact h.elim | exact hs.keyless _ trivial (by intros; simp) (by intros; simp)

theorem SelOK.write (hs : SelOK sel F) (o : SOp) (h : o.isWrite) : o.keyless sel := by
  cases o <;> first | exact h.elim | exact hs.keyless _ trivial (by intros; simp) (by intros; simp)

theorem SelOK.table (hs : SelOK sel F) (o : SOp) (h : o.isTable) : o.keyless sel := by
  cases o <;> first | exact h.elim | exact hs.keyless _ trivial (by intros; simp) (by intros; simp)

theorem eph_fail (hs : SelOK sel F) (code : ErrorCode) (text : String) (g : Option C.EPriv) :
    Safe (ephA sel F) (failWith code text) g fun _ _ => True :=
  eph_plain ((uses_failWith code text).mono hs.write) fun _ => trivial

theorem eph_respond (hs : SelOK sel F) (bs : Bytes) (g : Option C.EPriv) :
    Safe (ephA sel F) (respondWith bs) g fun _ _ => True :=
  eph_plain ((uses_respondWith bs).mono hs.write) fun _ => trivial

theorem eph_setup (hs : SelOK sel F) {M : Manager C} (hM : M.Passive) (host : Except Err Bytes)
    (common : RequestCommon) (g : Option C.EPriv) :
    Safe (ephA sel F) (setupHandler M host common) g fun _ _ => True := by
  unfold setupHandler
  refine Safe.bind (eph_plain ((uses_onConn _).mono hs.read) fun parsed => ?_)
  split
  · exact eph_fail hs _ _ _
  rename_i request
  refine ⟨fun b hb => ?_, fun (generated : Except Err C.EPriv) => ?_⟩
  · rw [hs.keyless .genKey trivial (by intros; simp) (by intros; simp)] at hb
    cases hb
  rcases generated with _ | k
  · exact eph_fail hs _ _ _
  show Safe (ephA sel F) _ (some k) _
  dsimp only
  split
  · exact eph_fail hs _ _ _
  rename_i secret hsecret
  split
  · exact eph_fail hs _ _ _
  rename_i host
  refine ⟨fun b hb => ⟨k, rfl, hs.session k _ _ _ _ b hsecret hb⟩, fun session => ?_⟩
  refine Safe.bind (eph_plain ((hM.store _ _).mono hs.table) fun stored => ?_)
  split
  · exact eph_fail hs _ _ _
  refine ⟨fun b hb => ⟨k, ?_, hs.sign k _ _ _ b hb⟩, fun (signed : Except Err Bytes) => ?_⟩
  · rcases hs.one with h | h
    · rw [h] at hb; cases hb
    · exact if_neg (by rw [h]; simp)
  rcases signed with _ | signature
  · exact eph_fail hs _ _ _
  exact eph_respond hs _ _

theorem eph_process (hs : SelOK sel F) {M : Manager C} (hM : M.Passive) (host : Except Err Bytes)
    (common : RequestCommon) (g : Option C.EPriv) :
    Safe (ephA sel F) (processHandler M host common) g fun _ _ => True := by
  unfold processHandler
  refine Safe.bind (eph_plain ((uses_onConn _).mono hs.read) fun parsed => ?_)
  split
  · exact eph_fail hs _ _ _
  split
  · exact eph_fail hs _ _ _
  refine Safe.bind (eph_plain ((hM.load _).mono hs.table) fun loaded => ?_)
  split
  · exact eph_fail hs _ _ _
  refine ⟨fun b hb => (by rw [hs.check] at hb; cases hb), fun (fresh : Bool) => ?_⟩
  cases fresh with
  | false => exact eph_fail hs _ _ _
  | true =>
    refine ⟨fun b hb => (by rw [hs.secret] at hb; cases hb), fun (secret : Bytes) => ?_⟩
    dsimp only
    split
    · exact eph_fail hs _ _ _
    split
    · exact eph_fail hs _ _ _
    split
    · exact eph_fail hs _ _ _
    rw [show gcmNonceSize = 12 from rfl, C12_nonce_layout]
    dsimp only [ofRes, Prog.ret_bind]
    split
    · exact eph_fail hs _ _ _
    unfold runHandler
    refine ⟨fun b hb => (by rw [hs.invoke] at hb; cases hb), fun (handled : HRes) => ?_⟩
    rcases handled with written | e | m
    rotate_left
    · exact eph_fail hs _ _ _
    · trivial
    dsimp only
    split
    · rw [show gcmNonceSize = 12 from rfl, C12_nonce_layout]
      exact ⟨fun b hb => (by rw [hs.aead] at hb; cases hb), fun sealed => eph_respond hs _ _⟩
    · trivial

theorem eph_serve (hs : SelOK sel F) {M : Manager C} (hM : M.Passive) (host : Except Err Bytes)
    (g : Option C.EPriv) : Safe (ephA sel F) (serveRequest M host) g fun _ _ => True := by
  unfold serveRequest
  refine Safe.bind (eph_plain ((uses_onConn _).mono hs.read) fun parsed => ?_)
  split
  · trivial
  split
  · trivial
  have : ∀ common, Safe (ephA sel F) (handle M host common) g fun _ _ => True := by
    intro common
    unfold handle
    split
    · exact eph_respond hs _ _
    split
    · exact eph_setup hs hM _ _ _
    split
    · exact eph_process hs hM _ _ _
    split
    · unfold fetchKeyHandler
      refine ⟨fun b hb => ?_, fun (fetched : Except Err (KeyAlgorithm × PublicKey)) => ?_⟩
      · rw [hs.keyless .fetchKey trivial (by intros; simp) (by intros; simp)] at hb
        cases hb
      rcases fetched with _ | ⟨alg, pk⟩
      · exact eph_fail hs _ _ _
      dsimp only
      split
      · exact eph_fail hs _ _ _
      · exact eph_respond hs _ _
    · trivial
  refine Safe.bind ((this _).mono fun err g' _ => ?_)
  split <;> trivial

theorem SelOK.plain (hs : SelOK sel F) {o : SOp} (h : o.isPlain) (h1 : ∀ hash content, o ≠ .sign hash content)
    (h2 : ∀ s h i, o ≠ .newSession s h i) (h3 : o ≠ .genKey) : o.keyless sel := by
  cases o <;> first | exact absurd rfl h3 | exact hs.keyless _ h h1 h2

theorem eph_op (hs : SelOK sel F) {α : Type} {o : SOp} {k : SOp.Ret C o → SProg C α} {g : Option C.EPriv}
    {Q : α → Option C.EPriv → Prop} (h : o.isPlain) (h1 : ∀ hash content, o ≠ .sign hash content)
    (h2 : ∀ s h i, o ≠ .newSession s h i) (h3 : o ≠ .genKey) (hk : ∀ r, Safe (ephA sel F) (k r) g Q) :
    Safe (ephA sel F) (.op o k) g Q := by
  have hsel := hs.keyless o h h1 h2
  refine ⟨fun b hb => (by rw [hsel] at hb; cases hb), fun r => ?_⟩
  have : (ephA sel F).next o r g = g := by
    cases o <;> first | exact absurd rfl h3 | exact if_neg (by rw [hsel]; simp)
  rw [this]
  exact hk r

/-- An effect that has nothing to do with keys. -/
macro "eph_step " hs:term : tactic =>
  `(tactic| refine eph_op $hs trivial (by intros; simp) (by intros; simp) (by simp) fun _ => ?_)

theorem eph_conn (hs : SelOK sel F) {M : Manager C} (hM : M.Passive) (host : Except Err Bytes)
    (g : Option C.EPriv) : Safe (ephA sel F) (connPass M host) g fun _ _ => True := by
  unfold connPass
  refine eph_op hs trivial (by intros; simp) (by intros; simp) (by simp) fun (closed : Bool) => ?_
  cases closed
  · refine eph_op hs trivial (by intros; simp) (by intros; simp) (by simp) fun _ => eph_serve hs hM _ _
  · trivial

theorem eph_packet (hs : SelOK sel F) {M : Manager C} (hM : M.Passive) (host : Except Err Bytes)
    (g : Option C.EPriv) : Safe (ephA sel F) (packetBody M host) g fun _ _ => True := by
  unfold packetBody
  eph_step hs
  exact Safe.bind ((eph_serve hs hM host _).mono fun _ _ _ => trivial)

theorem eph_peer (hs : SelOK sel F) {M : Manager C} (hM : M.Passive) (p : Peer) (g : Option C.EPriv) :
    ThreadOK (ephA sel F) (Thread.ofPeer M p) g := by
  cases p with
  | tcp host input =>
    refine ThreadOK.always (fun g => eph_conn hs hM _ g) (fun g => eph_conn hs hM _ g) (fun g => ?_) g
    show Safe (ephA sel F) connDeferred g _
    unfold connDeferred
    eph_step hs
    eph_step hs
    trivial
  | udp host d =>
    refine ThreadOK.always (fun g => eph_packet hs hM _ g) (fun g => ?_) (fun g => ?_) g
    · show Safe (ephA sel F) (.ret false) g _
      trivial
    show Safe (ephA sel F) packetDeferred g _
    unfold packetDeferred
    eph_step hs
    trivial

theorem eph_accept (hs : SelOK sel F) (g : Option C.EPriv) :
    Safe (ephA sel F) acceptPass g fun _ _ => True := by
  unfold acceptPass
  refine eph_op hs trivial (by intros; simp) (by intros; simp) (by simp) fun (closed : Bool) => ?_
  cases closed
  rotate_left
  · trivial
  refine eph_op hs trivial (by intros; simp) (by intros; simp) (by simp) fun (accepted : Except Err Peer) => ?_
  rcases accepted with _ | peer
  · trivial
  eph_step hs
  eph_step hs
  trivial

theorem eph_receive (hs : SelOK sel F) (g : Option C.EPriv) :
    Safe (ephA sel F) packetPass g fun _ _ => True := by
  unfold packetPass
  refine eph_op hs trivial (by intros; simp) (by intros; simp) (by simp) fun (closed : Bool) => ?_
  cases closed
  rotate_left
  · trivial
  refine eph_op hs trivial (by intros; simp) (by intros; simp) (by simp) fun (received : Except Err Peer) => ?_
  rcases received with _ | peer
  · trivial
  eph_step hs
  trivial

theorem eph_close (hs : SelOK sel F) (g : Option C.EPriv) :
    Safe (ephA sel F) closeServer g fun _ _ => True := by
  unfold closeServer
  refine eph_op hs trivial (by intros; simp) (by intros; simp) (by simp) fun (ok : Bool) => ?_
  cases ok
  · trivial
  eph_step hs
  eph_step hs
  trivial

theorem eph_gc (hs : SelOK sel F) (ttl : Nat) (g : Option C.EPriv) :
    Safe (ephA sel F) (gcVisit ttl) g fun _ _ => True := by
  unfold gcVisit
  eph_step hs
  refine eph_op hs trivial (by intros; simp) (by intros; simp) (by simp) fun (value : Option (Ref × Nat)) => ?_
  rcases value with _ | ⟨r, last⟩
  · trivial
  refine eph_op hs trivial (by intros; simp) (by intros; simp) (by simp) fun (t : Nat) => ?_
  dsimp only
  split
  · eph_step hs
    trivial
  · trivial

theorem eph_repeating {p : SProg C Bool} (hp : ∀ g, Safe (ephA sel F) p g fun _ _ => True) (g : Option C.EPriv) :
    ThreadOK (ephA sel F) (Thread.repeating p) g :=
  ThreadOK.always (t := Thread.repeating p) hp hp (fun _ => trivial) g

theorem eph_start (hs : SelOK sel F) (ttl closers : Nat) :
    EphOK sel F (Sys.start (C := C) ttl closers)
      (List.replicate (Sys.start (C := C) ttl closers).threads.length none) := by
  refine ⟨by simp, fun i t g ht _ => ?_, rfl⟩
  exact start_threads (P := fun t => ∀ g, ThreadOK (ephA sel F) t g) (eph_repeating (eph_accept hs))
    (eph_repeating (eph_receive hs)) (eph_repeating (eph_gc hs ttl))
    (fun g => ThreadOK.always (t := { conn := .none, prog := closeServer, loop := .ret false, deferred := .ret false })
      (fun g => eph_close hs g) (fun _ => trivial) (fun _ => trivial) g)
    t (List.mem_of_getElem? ht) g

theorem eph_uses (hs : SelOK sel F) {M : Manager C} (hM : M.Passive) (timeout ttl closers : Nat)
    (acts : List (Nat × Answer C)) :
    ∃ l : List (C.EPriv × Bytes),
      l.map (·.2) = ((Sys.start ttl closers).effects M timeout acts).filterMap sel ∧ (∀ x ∈ l, F x.1 x.2) ∧
      OwnKeys (·.1) l ((Sys.start ttl closers).generated M timeout acts) := by
  obtain ⟨l, unused, h1, h2, h3⟩ := EphOK.run (hs.keyless .genKey trivial (by intros; simp) (by intros; simp))
    (fun p => eph_peer hs hM p none) timeout acts _ _ (eph_start hs ttl closers)
  rw [filterMap_replicate_none] at h3
  exact ⟨l, h1, h2, unused, h3⟩

end

theorem selSign_ok : SelOK (C := C) selSign fun k b => ∃ ck, ∃ id : ID,
    b = Wire.transcript (C.marshalEPub ck) (C.marshalEPub (C.epub k)) id where
  keyless o _ h1 _ := by cases o <;> first | rfl | exact absurd rfl (h1 _ _)
  check _ _ := rfl
  secret _ := rfl
  invoke _ _ _ _ _ := rfl
  aead _ _ _ _ := rfl
  one := .inr fun _ _ _ => rfl
  sign k ck id hash b h := ⟨ck, id, by rw [← C13_transcript_layout]; exact (Option.some.inj h).symm⟩
  session _ _ _ _ _ _ _ h := by cases h

theorem selSession_ok : SelOK (C := C) selSession fun k b => ∃ ck, C.ecdh k ck = .ok b where
  keyless o _ _ h1 := by cases o <;> first | rfl | exact absurd rfl (h1 _ _ _)
  check _ _ := rfl
  secret _ := rfl
  invoke _ _ _ _ _ := rfl
  aead _ _ _ _ := rfl
  one := .inl fun _ _ => rfl
  sign _ _ _ _ _ h := by cases h
  session k ck secret _ _ b he h := ⟨ck, by rw [he]; exact congrArg _ (Option.some.inj h)⟩

/-! ## The sessions in memory -/

theorem set_secret (heap : List (Bytes × ReplayWindow)) (r : Nat) (secret : Bytes) (window window' : ReplayWindow)
    (h : heap[r]? = some (secret, window)) : (heap.set r (secret, window')).map (·.1) = heap.map (·.1) := by
  rw [List.map_set]
  refine set_same ?_
  rw [List.getElem?_map, h]
  rfl

theorem exec_secrets (timeout : Nat) (a : Answer C) (o : SOp) (c : Conn) (w : World) :
    (exec C timeout a o (c, w)).2.2.heap.map (·.1) = w.heap.map (·.1) ++ (selSession o).toList := by
  cases o with
  | newSession secret host id => simp [exec, selSession]
  | check r counter =>
    show _ = _ ++ []
    rw [List.append_nil]
    unfold exec
    dsimp only
    split
    · rfl
    · rename_i h
      exact set_secret _ _ _ _ _ h
  | write bs =>
    show _ = _ ++ []
    rw [List.append_nil]
    unfold exec execWrite
    dsimp only
    split <;> (try split) <;> (try split) <;> rfl
  | flush =>
    show _ = _ ++ []
    rw [List.append_nil]
    unfold exec
    dsimp only
    split <;> rfl
  | _ =>
    show _ = _ ++ []
    rw [List.append_nil]
    rfl

theorem step_secrets (M : Manager C) (timeout : Nat) (s : Sys C) (act : Nat × Answer C) :
    (s.step M timeout act).world.heap.map (·.1) =
      s.world.heap.map (·.1) ++ (s.effect act).filterMap selSession := by
  unfold Sys.step Sys.effect
  cases ht : s.threads[act.1]? with
  | none => simp
  | some t =>
    dsimp only
    unfold Thread.step
    split
    · simp_all
    · simp_all
    · simp_all
    · rename_i o k ho
      rw [ho]
      dsimp only
      split
      · rw [exec_secrets]
        simp only [List.filterMap_cons, List.filterMap_nil]
        cases selSession o <;> rfl
      · simp

theorem run_secrets (M : Manager C) (timeout : Nat) (acts : List (Nat × Answer C)) (s : Sys C) :
    (s.run M timeout acts).world.heap.map (·.1) =
      s.world.heap.map (·.1) ++ (s.effects M timeout acts).filterMap selSession := by
  induction acts generalizing s with
  | nil => simp [Sys.run, Sys.effects]
  | cons act acts ih =>
    show ((s.step M timeout act).run M timeout acts).world.heap.map (·.1) = _
    rw [ih, step_secrets, Sys.effects, List.filterMap_append, List.append_assoc]

/-! ## C137 -/

/-- **C137.** The server uses every ephemeral key for one handshake only, whatever clients send, over TCP and UDP, and
however the goroutines interleave: the contents that the key manager signs are transcripts, with keys that the server
generated and no key used twice, and the secrets of the sessions come from keys in the same way. -/
theorem C137_ephemeral_keys_once {M : Manager C} (hM : M.Passive) (timeout ttl closers : Nat)
    (acts : List (Nat × Answer C)) :
    (∃ l : List (C.EPriv × C.EPub × ID),
      contentsSigned ((Sys.start ttl closers).effects M timeout acts) =
        l.map (fun x => Wire.transcript (C.marshalEPub x.2.1) (C.marshalEPub (C.epub x.1)) x.2.2) ∧
      OwnKeys (·.1) l ((Sys.start ttl closers).generated M timeout acts)) ∧
    (∃ l : List (C.EPriv × C.EPub × Bytes),
      ((Sys.start ttl closers).run M timeout acts).world.heap.map (·.1) = l.map (·.2.2) ∧
      (∀ x ∈ l, C.ecdh x.1 x.2.1 = .ok x.2.2) ∧
      OwnKeys (·.1) l ((Sys.start ttl closers).generated M timeout acts)) := by
  have hlift : ∀ {A : Type} (G : C.EPriv → A → Bytes → Prop) (l : List (C.EPriv × Bytes)),
      (∀ x ∈ l, ∃ a, G x.1 a x.2) →
      ∃ l' : List (C.EPriv × A × Bytes), l'.map (fun x => (x.1, x.2.2)) = l ∧ ∀ x ∈ l', G x.1 x.2.1 x.2.2 := by
    intro A G l
    induction l with
    | nil => exact fun _ => ⟨[], rfl, by simp⟩
    | cons x l ih =>
      intro h
      obtain ⟨l', h1, h2⟩ := ih fun y hy => h y (List.mem_cons_of_mem _ hy)
      obtain ⟨a, ha⟩ := h x (List.mem_cons_self ..)
      refine ⟨(x.1, a, x.2) :: l', by simp [h1], ?_⟩
      intro y hy
      rcases List.mem_cons.mp hy with rfl | hy
      · exact ha
      · exact h2 y hy
  constructor
  · obtain ⟨l, h1, h2, unused, h3⟩ := eph_uses selSign_ok hM timeout ttl closers acts
    obtain ⟨l', g1, g2⟩ := hlift (A := C.EPub × ID)
      (fun k a b => b = Wire.transcript (C.marshalEPub a.1) (C.marshalEPub (C.epub k)) a.2) l
      fun x hx => (h2 x hx).elim fun ck h => h.elim fun id h => ⟨(ck, id), h⟩
    refine ⟨l'.map fun x => (x.1, x.2.1), ?_, unused, ?_⟩
    · have : contentsSigned ((Sys.start ttl closers).effects M timeout acts) =
          ((Sys.start ttl closers).effects M timeout acts).filterMap selSign := by
        unfold contentsSigned
        congr 1
      rw [this, ← h1, ← g1, List.map_map, List.map_map]
      exact List.map_congr_left fun x hx => g2 x hx
    · rw [← g1, List.map_map] at h3
      rw [List.map_map]
      exact h3
  · obtain ⟨l, h1, h2, unused, h3⟩ := eph_uses selSession_ok hM timeout ttl closers acts
    obtain ⟨l', g1, g2⟩ := hlift (A := C.EPub) (fun k a b => C.ecdh k a = .ok b) l h2
    refine ⟨l', ?_, g2, unused, ?_⟩
    · rw [run_secrets, ← h1, ← g1, List.map_map]
      rfl
    · rw [← g1, List.map_map] at h3
      exact h3

/-- Keys generated differ from one another: then all handshakes have different keys, so whoever learns one key learns
nothing that belongs to another handshake. -/
theorem OwnKeys.nodup {K H : Type} {key : H → K} {handshakes : List H} {generated : List K}
    (h : OwnKeys key handshakes generated) (hg : generated.Nodup) : (handshakes.map key).Nodup := by
  obtain ⟨unused, h⟩ := h
  exact (List.nodup_append.mp (h.nodup_iff.mpr hg)).1

end

/-- The schedule of `OnceExample`: two handshakes, with the keys 9 and 11, and two sessions. -/
example : (((Sys.start 0 0).generated (inMemory Toy.crypto) 5000 OnceExample.schedule2).map
      fun (k : BitVec 256) => k.toNat) = [9, 11] ∧
    contentsSigned ((Sys.start 0 0).effects (inMemory Toy.crypto) 5000 OnceExample.schedule2) =
      [Wire.transcript (Toy.crypto.marshalEPub (5 : BitVec 256)) (Toy.crypto.marshalEPub (9 : BitVec 256)) OnceExample.id,
       Wire.transcript (Toy.crypto.marshalEPub (5 : BitVec 256)) (Toy.crypto.marshalEPub (11 : BitVec 256)) OnceExample.id] ∧
    ((Sys.start 0 0).run (inMemory Toy.crypto) 5000 OnceExample.schedule2).world.heap.length = 2 := by
  decide +kernel

end Goe2ee
