import Verif.Proofs.SystemRun
import Verif.Proofs.Base64

/-!
# C129: a server, its clients and anybody else, all at once
-/

set_option autoImplicit false

namespace Goe2ee

section
variable {C : Crypto} {n : Nat}

/-- A client of the server: it reads the replies, has no timeouts, knows the long-term key of the server, and neither its
messages nor the replies are larger than a gibibyte. -/
structure ClientOf (S : Site C) (x : Party C) (secret signature : Bytes) : Prop where
  expect : x.options.expectReply = true
  noReadTimeout : ¬ x.options.readTimeout > 0
  noWriteTimeout : ¬ x.options.writeTimeout > 0
  signs : SignsWith C S.privateKey x.signRandom S.key x.clientKey x.serverKey (uuidOf x.random) secret signature
  messages : ∀ m ∈ x.msgs, m.length + 16 ≤ 2 ^ 30
  count : x.msgs.length < 2 ^ 64
  replies : ∀ m ∈ x.msgs, (S.app x.host m).length + 16 ≤ 2 ^ 30

/-- The server tells the clients apart, and from anybody else: by the SHA-256 of the host and the session id. -/
structure ToldApart (X : Fin n → Party C) (σ : Nat → Act C n) : Prop where
  clients : ∀ i j, i ≠ j → C.sha256 ((X i).host ++ (uuidOf (X i).random).val) ≠
    C.sha256 ((X j).host ++ (uuidOf (X j).random).val)
  others : ∀ t peer host, σ t = .joins peer → peer.host = .ok host → ∀ (id : ID) i,
    C.sha256 (host ++ id.val) ≠ C.sha256 ((X i).host ++ (uuidOf (X i).random).val)

/-- The server is running; it may have sessions already. -/
structure Running (w : World) : Prop where
  running : w.quit = false
  sessions : ∀ key r t, w.table key = some (r, t) → r < w.heap.length

theorem ClientOf.works (hC : C.Lawful) {S : Site C} {x : Party C} {secret gcm signature : Bytes}
    (h : ClientOf S x secret signature) (hgcm : newGCM C secret = .ok gcm) : (termsOf S x secret gcm signature).Works := by
  obtain ⟨h1, h2, h3⟩ := h.signs.facts hC
  exact ⟨hgcm, h.signs.agreed, hC.ecdh_comm _ _ _ h.signs.agreed, h2, h3, h1⟩

section
variable {S : Site C} {X : Fin n → Party C} {secret signature gcm : Fin n → Bytes} {σ : Nat → Act C n} {w : World}

theorem ToldApart.keys (h : ToldApart X σ) (i j : Fin n) (hij : i ≠ j) :
    (allTerms S X secret gcm signature i).tableKey ≠ (allTerms S X secret gcm signature j).tableKey :=
  fun he => h.clients i j hij (b64Encode_inj _ _ he)

theorem netInv_start (hC : C.Lawful) (hX : ∀ i, ClientOf S (X i) (secret i) (signature i))
    (hgcm : ∀ i, newGCM C (secret i) = .ok (gcm i)) (hw : Running w) :
    NetInv S X secret gcm signature (Network.start X w) (fun _ => .new)
      (fun i => ⟨false, none, 0, 0, (X i).msgs.length⟩) where
  books := ⟨hw.running, fun _ => trivial, (fun _ _ _ _ h => by cases h), fun key _ r t ht => ⟨hw.sessions key r t ht, nofun⟩⟩
  links := fun i => ⟨_, _, _, rfl, rfl,
    ⟨fun _ => rfl, nofun, nofun, nofun, Nat.le_refl _, by simpa using (hX i).count⟩, [], [], [],
    speaks_dial hC ((hX i).works hC (hgcm i)) (X i).options (hX i).expect (hX i).noReadTimeout (X i).msgs (hX i).messages
      (hX i).replies,
    rfl, .inl ⟨rfl, .inl ⟨rfl, rfl, trivial⟩⟩⟩
  memory := fun i a h => by cases h
  others := nofun

/-- What the schedule is for one client. -/
def localSchedule (S : Site C) (X : Fin n → Party C) (secret gcm signature : Fin n → Bytes) (w : World)
    (σ : Nat → Act C n) (i : Fin n) (t : Nat) : Nat × FlowEnv C :=
  match σ t with
  | .go j side tick =>
    (if j = i then side else 2,
      mended (allTerms S X secret gcm signature i) ((Network.after S X w σ t).env S X i tick))
  | _ => (2, mended (allTerms S X secret gcm signature i) ((Network.after S X w σ t).env S X i 0))

theorem localSchedule_env (i : Fin n) (t : Nat) :
    ∃ env, (localSchedule S X secret gcm signature w σ i t).2 = mended (allTerms S X secret gcm signature i) env := by
  unfold localSchedule
  split <;> exact ⟨_, rfl⟩

theorem network_after (hC : C.Lawful) (hX : ∀ i, ClientOf S (X i) (secret i) (signature i))
    (hgcm : ∀ i, newGCM C (secret i) = .ok (gcm i)) (hσ : ToldApart X σ) (hw : Running w) (t : Nat) :
    (∃ G D, NetInv S X secret gcm signature (Network.after S X w σ t) G D) ∧
    ∀ i, ((Network.after S X w σ t).links i).flow =
      flowAfter (inMemory C) (.ok (X i).host) (X i).roomUp (X i).roomDown
        (dialAndExchange (.ok (X i).hostname) (X i).options (X i).msgs)
        (localSchedule S X secret gcm signature w σ i) t := by
  induction t with
  | zero => exact ⟨⟨_, _, netInv_start hC hX hgcm hw⟩, fun _ => rfl⟩
  | succ t ih =>
    obtain ⟨⟨G, D, hinv⟩, hflow⟩ := ih
    show (∃ G D, NetInv S X secret gcm signature ((Network.after S X w σ t).step S X (σ t)) G D) ∧
      ∀ i, (((Network.after S X w σ t).step S X (σ t)).links i).flow =
        Loops.step _ _ (flowAfter _ _ _ _ _ _ t) (localSchedule S X secret gcm signature w σ i t)
    have hidle : ∀ i env, Loops.step (flowBody (inMemory C) (.ok (X i).host)) (flowExec (X i).roomUp (X i).roomDown)
        ((Network.after S X w σ t).links i).flow (2, env) = ((Network.after S X w σ t).links i).flow := by
      intro i env
      obtain ⟨q, p, v, hf, -⟩ := hinv.links i
      rw [hf]
      rfl
    cases hact : σ t with
    | joins peer =>
      refine ⟨⟨G, D, hinv.joins peer fun h hh id i he => hσ.others t peer h hact hh id i (b64Encode_inj _ _ he)⟩,
        fun i => ?_⟩
      rw [← hflow]
      unfold localSchedule
      rw [hact]
      exact (hidle i _).symm
    | serves j a =>
      obtain ⟨h1, h2⟩ := hinv.serves j a
      refine ⟨⟨G, D, h1⟩, fun i => ?_⟩
      rw [← hflow, h2]
      unfold localSchedule
      rw [hact]
      exact (hidle i _).symm
    | go j side tick =>
      obtain ⟨h1, h2, h3⟩ := hinv.go hC (fun i => (hX i).works hC (hgcm i)) hσ.keys j side tick
      refine ⟨h1, fun i => ?_⟩
      rw [← hflow]
      unfold localSchedule
      rw [hact]
      dsimp only
      by_cases hi : j = i
      · subst hi
        rw [if_pos rfl]
        exact h2
      · rw [if_neg hi, h3 i fun h => hi h.symm]
        exact (hidle i _).symm

end

section
variable (hC : C.Lawful) (S : Site C) (X : Fin n → Party C) (secret signature : Fin n → Bytes)
  (hX : ∀ i, ClientOf S (X i) (secret i) (signature i)) (σ : Nat → Act C n) (hσ : ToldApart X σ) (w : World)
  (hw : Running w)
include hC hX hσ hw

/-- **C129**: any number of clients dial a server and exchange messages with it, all at once, while anybody else sends
anything to the server.  At any time, in any schedule: what a client has read are the replies to its first messages, in
order and complete; every `Write` has succeeded; and its connection is open. -/
theorem C129_replies_in_order (t : Nat) (i : Fin n) :
    let v := ((Network.after S X w σ t).links i).flow.world
    v.got.map Prod.fst = ((X i).msgs.map (S.app (X i).host)).take v.got.length ∧
      (∀ r ∈ v.got, r.1 ≠ [] → r.2 = some .eof) ∧ (∀ r ∈ v.written, r.2 = none) ∧ v.closed = false := by
  have hg := fun i => newGCM_ok hC (secret i)
  obtain ⟨gcm, hgcm⟩ : ∃ gcm : Fin n → Bytes, ∀ i, newGCM C (secret i) = .ok (gcm i) :=
    ⟨fun i => Classical.choose (hg i), fun i => (Classical.choose_spec (hg i)).2⟩
  rw [(network_after (σ := σ) hC hX hgcm hσ hw t).2 i]
  refine C128_replies_in_order (f := S.app (X i).host) hC (X i).host (X i).roomUp (X i).roomDown (X i).hostname
    (X i).options (hX i).expect (hX i).noReadTimeout S.privateKey (X i).signRandom S.key (X i).random (X i).clientKey
    (X i).serverKey (secret i) (signature i) (hX i).signs (X i).msgs (hX i).messages (hX i).replies _ (fun t => ?_)
    (fun t => ?_) (hX i).noWriteTimeout t
  · obtain ⟨env, he⟩ := localSchedule_env (S := S) (X := X) (secret := secret) (gcm := gcm) (signature := signature)
      (w := w) (σ := σ) i t
    rw [he]
    exact mended_dial (allTerms S X secret gcm signature i) env
  · obtain ⟨env, he⟩ := localSchedule_env (S := S) (X := X) (secret := secret) (gcm := gcm) (signature := signature)
      (w := w) (σ := σ) i t
    rw [he]
    exact mended_env (allTerms S X secret gcm signature i) env

/-- **C129**: and if the goroutines of the clients, and those of the server for them, keep running, then every client reads
the reply to every message. -/
theorem C129_all_replies (hopen : ∀ k n x p, C.aeadOpen k n x = some p → p.length ≤ x.length) (hfair : NetworkFair σ)
    (i : Fin n) (hup : 0 < (X i).roomUp) (hdown : 0 < (X i).roomDown) :
    ∃ t, ((Network.after S X w σ t).links i).flow.world.got.map Prod.fst = (X i).msgs.map (S.app (X i).host) := by
  have hg := fun i => newGCM_ok hC (secret i)
  obtain ⟨gcm, hgcm⟩ : ∃ gcm : Fin n → Bytes, ∀ i, newGCM C (secret i) = .ok (gcm i) :=
    ⟨fun i => Classical.choose (hg i), fun i => (Classical.choose_spec (hg i)).2⟩
  have hlocal := fun t => (network_after (σ := σ) hC hX hgcm hσ hw t).2 i
  have henv := fun t => localSchedule_env (S := S) (X := X) (secret := secret) (gcm := gcm) (signature := signature)
    (w := w) (σ := σ) i t
  have hfair' : FlowFair (localSchedule S X secret gcm signature w σ i) := by
    intro side hside t
    obtain ⟨u, hu, tick, ha⟩ := hfair i side hside t
    refine ⟨u, hu, ?_⟩
    unfold localSchedule
    rw [ha]
    exact if_pos rfl
  obtain ⟨t, ht⟩ := C128_all_replies (f := S.app (X i).host) hC (X i).host (X i).roomUp (X i).roomDown (X i).hostname
    (X i).options (hX i).expect (hX i).noReadTimeout S.privateKey (X i).signRandom S.key (X i).random (X i).clientKey
    (X i).serverKey (secret i) (signature i) (hX i).signs (X i).msgs (hX i).messages (hX i).replies
    (localSchedule S X secret gcm signature w σ i)
    (fun t => by obtain ⟨env, he⟩ := henv t; rw [he]; exact mended_dial (allTerms S X secret gcm signature i) env)
    (fun t => by obtain ⟨env, he⟩ := henv t; rw [he]; exact mended_env (allTerms S X secret gcm signature i) env)
    (hX i).noWriteTimeout hopen hup hdown hfair'
  exact ⟨t, by rw [hlocal t]; exact ht⟩

end

/-- C130: whoever else sends something to the server, what a client reads are the replies to its messages. -/
def C130_claim : Prop :=
  ∀ (C : Crypto), C.Lawful → ∀ (n : Nat) (S : Site C) (X : Fin n → Party C) (secret signature : Fin n → Bytes),
    (∀ i, ClientOf S (X i) (secret i) (signature i)) →
    (∀ i j, i ≠ j → C.sha256 ((X i).host ++ (uuidOf (X i).random).val) ≠
      C.sha256 ((X j).host ++ (uuidOf (X j).random).val)) →
    ∀ (σ : Nat → Act C n) (w : World), Running w → ∀ (t : Nat) (i : Fin n),
      let v := ((Network.after S X w σ t).links i).flow.world
      v.got.map Prod.fst = ((X i).msgs.map (S.app (X i).host)).take v.got.length

/-- **C130**, unless somebody else is at the host of a client (or finds a collision of SHA-256). -/
theorem C130_other_hosts_partial (hC : C.Lawful) (S : Site C) (X : Fin n → Party C) (secret signature : Fin n → Bytes)
    (hX : ∀ i, ClientOf S (X i) (secret i) (signature i))
    (hclients : ∀ i j, i ≠ j → C.sha256 ((X i).host ++ (uuidOf (X i).random).val) ≠
      C.sha256 ((X j).host ++ (uuidOf (X j).random).val))
    (σ : Nat → Act C n) (w : World) (hw : Running w)
    (hosts : ∀ t peer host, σ t = .joins peer → peer.host = .ok host → ∀ i, host ≠ (X i).host)
    (hsha : ∀ t peer host, σ t = .joins peer → peer.host = .ok host → ∀ (id : ID) i,
      C.sha256 (host ++ id.val) = C.sha256 ((X i).host ++ (uuidOf (X i).random).val) →
        host ++ id.val = (X i).host ++ (uuidOf (X i).random).val)
    (t : Nat) (i : Fin n) :
    let v := ((Network.after S X w σ t).links i).flow.world
    v.got.map Prod.fst = ((X i).msgs.map (S.app (X i).host)).take v.got.length := by
  refine (C129_replies_in_order hC S X secret signature hX σ ⟨hclients, fun t peer host h1 h2 id i h3 => ?_⟩ w hw t i).1
  have h4 := hsha t peer host h1 h2 id i h3
  exact hosts t peer host h1 h2 i (List.append_inj_left' h4 (id.property.trans (uuidOf (X i).random).property.symm))

end

/-! ## Examples -/

namespace SystemExample

/-- The server has the long-term key 77; its application replies with the address of the client and the message. -/
def site : Site Toy.crypto :=
  { privateKey := .ed25519 (77 : BitVec 256), key := .ed25519 (beEnc 32 77), app := fun host m => host ++ m }

/-- All clients happen to choose the same session id and ephemeral key. -/
def party (host : Bytes) (serverKey : BitVec 256) (msgs : List Bytes) : Party Toy.crypto :=
  { host, hostname := str "example.com", options := { readTimeout := 0, writeTimeout := 0 }, msgs,
    roomUp := 16, roomDown := 12, random := ⟨List.replicate 16 1, rfl⟩, clientKey := (5 : BitVec 256), serverKey,
    signRandom := 0 }

def parties : Fin 2 → Party Toy.crypto
  | 0 => party (str "1.1.1.1") 9 [str "a"]
  | 1 => party (str "2.2.2.2") 11 [str "b"]

def answer : Answer Toy.crypto :=
  { genKey := .ok (9 : BitVec 256), sign := fun _ _ => .ok [1, 2, 3], fetchKey := .error .eof,
    handle := .reply [], write := (0, none), tick := 0, key := [], choose := 0, peer := .error .eof }

/-- Somebody sends a setup request, with the same session id and another ephemeral key. -/
def stranger (host : Bytes) : Peer :=
  .tcp (.ok host) [.data (Wire.setupRequest (uuidOf ⟨List.replicate 16 1, rfl⟩).val (Toy.crypto.marshalEPub (6 : BitVec 256)))]

def schedule (t : Nat) : Act Toy.crypto 2 :=
  if t = 0 then .joins (stranger (str "3.3.3.3"))
  else if t % 9 = 0 then .serves 0 answer
  else .go ⟨t % 2, by omega⟩ (t / 2 % 2) 1

/-- The stranger comes after the handshake. -/
def meddling (t : Nat) : Act Toy.crypto 1 :=
  if t = 400 then .joins (stranger (str "1.1.1.1"))
  else if 400 < t ∧ t ≤ 430 then .serves 0 answer
  else .go 0 (t % 2) 1

def world : World := { heap := [], table := fun _ => none, now := 0, quit := false, wg := 0, spawned := [], log := [] }

def secretWith (serverKey : BitVec 256) : Bytes :=
  match Toy.crypto.ecdh serverKey (5 : BitVec 256) with
  | .ok secret => secret
  | .error _ => []

def signatureWith (serverKey : BitVec 256) : Bytes :=
  match signServer (.ed25519 (77 : BitVec 256) : PrivateKey Toy.crypto) 0 7 (Wire.transcript
    (Toy.crypto.marshalEPub (5 : BitVec 256)) (Toy.crypto.marshalEPub serverKey)
    (uuidOf ⟨List.replicate 16 1, rfl⟩).val) with
  | .ok signature => signature
  | .error _ => []

theorem running : Running world := ⟨rfl, fun _ _ _ h => by cases h⟩

theorem clientOf (host : Bytes) (hl : host.length ≤ 100) (serverKey : BitVec 256) (hs : ∃ secret, Toy.crypto.ecdh serverKey
    (5 : BitVec 256) = .ok secret) (m : Bytes) (hm : m.length ≤ 100) :
    ClientOf site (party host serverKey [m]) (secretWith serverKey) (signatureWith serverKey) where
  expect := rfl
  noReadTimeout := by show ¬ (0 : Int) > 0; decide
  noWriteTimeout := by show ¬ (0 : Int) > 0; decide
  signs := ⟨⟨_, rfl⟩, by
    obtain ⟨secret, h⟩ := hs
    show Toy.crypto.ecdh serverKey (5 : BitVec 256) = .ok (secretWith serverKey)
    unfold secretWith
    rw [h], rfl⟩
  messages := by
    intro m' h
    obtain rfl := List.mem_singleton.mp h
    have : (2 : Nat) ^ 30 = 1073741824 := rfl
    omega
  count := by show 1 < 2 ^ 64; decide
  replies := by
    intro m' h
    obtain rfl := List.mem_singleton.mp h
    show (host ++ m').length + 16 ≤ 2 ^ 30
    have : (2 : Nat) ^ 30 = 1073741824 := rfl
    rw [List.length_append]
    omega

/-- The hash function of the example has no collisions among short strings. -/
theorem sum32_inj {a b : Bytes} (ha : a.length ≤ 30) (hb : b.length ≤ 30) (h : Toy.crypto.sha256 a = Toy.crypto.sha256 b) :
    a = b := by
  have hlt : ∀ a : Bytes, a.length ≤ 30 → beDec a * 31 + a.length + 7 < 256 ^ 32 := by
    intro a ha
    have h1 := beDec_lt a
    have h2 : 256 ^ a.length ≤ 256 ^ 30 := Nat.pow_le_pow_right (by decide) ha
    omega
  have h1 := beEnc_inj (hlt a ha) (hlt b hb) h
  have h2 : a.length = b.length := by omega
  have h3 : beDec a = beDec b := by omega
  have h4 := congrArg (beEnc a.length) h3
  rwa [beEnc_beDec, h2, beEnc_beDec] at h4

end SystemExample

open SystemExample

example (i : Fin 2) : ClientOf site (parties i) (secretWith (parties i).serverKey) (signatureWith (parties i).serverKey) :=
  match i with
  | 0 => clientOf (str "1.1.1.1") (by decide +kernel) 9 ⟨_, rfl⟩ _ (by decide +kernel)
  | 1 => clientOf (str "2.2.2.2") (by decide +kernel) 11 ⟨_, rfl⟩ _ (by decide +kernel)

example : ToldApart parties schedule where
  clients := by decide +kernel
  others := by
    intro t peer host h1 h2 id i h3
    unfold schedule at h1
    split at h1
    · cases h1
      cases h2
      have hi : (parties i).host.length = 7 := by
        clear h3
        revert i
        decide +kernel
      have hs : (str "3.3.3.3").length = 7 := by decide +kernel
      have h4 := sum32_inj (by rw [List.length_append, id.property, hs]; decide)
        (by rw [List.length_append, hi, (uuidOf _).property]; decide) h3
      have h5 := List.append_inj_left h4 (hs.trans hi.symm)
      clear h3 h4 hi
      revert i
      decide +kernel
    · split at h1 <;> cases h1

/-- Both clients have their replies, and the stranger has a session. -/
example : (((Network.after site parties world schedule 1400).links 0).flow.world.got,
      ((Network.after site parties world schedule 1400).links 1).flow.world.got,
      (Network.after site parties world schedule 1400).world.heap.length) =
    ([(str "1.1.1.1a", some .eof)], [(str "2.2.2.2b", some .eof)], 3) := by decide +kernel

/-- With somebody else at the host of the client. -/
theorem C130_meddled : ((Network.after site (fun _ => party (str "1.1.1.1") 9 [str "a"]) world meddling 650).links
    0).flow.world.got = [([], some (.remote "failed to read data" 2
      (str "failed to decrypt message")))] := by decide +kernel

/-- **C130 is refuted**: somebody at the same host replaces the session with a single request. -/
theorem C130_refuted : ¬ C130_claim := by
  intro h
  have h1 := h Toy.crypto Toy.lawful 1 site (fun _ => party (str "1.1.1.1") 9 [str "a"]) (fun _ => secretWith 9)
    (fun _ => signatureWith 9)
    (fun _ => clientOf (str "1.1.1.1") (by decide +kernel) 9 ⟨_, rfl⟩ _ (by decide +kernel))
    (fun i j hij => absurd (Subsingleton.elim i j) hij) meddling world running 650 0
  dsimp only at h1
  rw [C130_meddled] at h1
  revert h1
  decide +kernel

end Goe2ee
