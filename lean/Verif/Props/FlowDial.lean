import Verif.Proofs.FlowDial
import Verif.Props.FlowContent
import Verif.Props.Handshake

/-!
# C128: handshake, messages and replies over a connection of bounded capacity
-/

set_option autoImplicit false

namespace Goe2ee

section
variable {C : Crypto}

/-- What happens besides the connection during an honest handshake: the client knows the server's long-term key, both
generate their keys, and the server signs with `signer`. -/
structure HonestDial (hostname : Bytes) (key : PublicKey) (random : ID) (clientKey serverKey : C.EPriv)
    (signer : Nat → Bytes → Except Err Bytes) (env : FlowEnv C) : Prop where
  connect : env.client .connect = none
  keepAlive : env.client .setKeepAlive = none
  fetch : env.client (.fetch hostname) = .ok key
  random : env.client .random = .ok random
  clientKey : env.client .genKey = .ok clientKey
  serverKey : env.server .genKey = .ok serverKey
  sign : ∀ hash content, env.server (.sign hash content) = signer hash content

variable {hostname : Bytes} {key : PublicKey} {random : ID} {clientKey serverKey : C.EPriv}
  {signer : Nat → Bytes → Except Err Bytes} {secret signature : Bytes} {f : Bytes → Bytes} {env : FlowEnv C}

theorem HonestDial.client (h : HonestDial hostname key random clientKey serverKey signer env) (o : COp) :
    DialRet hostname key random clientKey o (clientAnswer env o) := by
  cases o <;> first
    | exact h.connect | exact h.keepAlive | exact h.random | exact h.clientKey | trivial
    | (intro hh; rw [hh]; exact h.fetch)

theorem HonestDial.server (h : HonestDial hostname key random clientKey serverKey signer env)
    (h' : HonestEnv secret f env) (o : SOp) : SetupRet serverKey signer o (serverAnswer env o) := by
  cases o <;> first
    | exact h'.running | exact h.serverKey | exact h.sign _ _ | trivial

/-- The server waits for a request. -/
def IdleD (secret : Bytes) (f : Bytes → Bytes) (msgs : List Bytes) (gcm : Bytes) (id : ID) (p : FlowProg C FlowLoop) : Prop :=
  (Waiting ShortReply p ∨ FreshLoop ShortReply p) ∧ ServerStands secret f (· ∈ msgs) gcm id p [] []

/-- The same, whatever the messages. -/
def IdleS (secret : Bytes) (f : Bytes → Bytes) (gcm : Bytes) (id : ID) (p : FlowProg C FlowLoop) : Prop :=
  ServerStands secret f (fun _ => True) gcm id p [] []

theorem stands_idle {S : Bytes → Prop} (hS : ∃ m : Bytes, m.length + 16 ≤ 2 ^ 30 ∧ S m) (hC : C.Lawful) (host : Bytes)
    (roomUp roomDown : Nat) {gcm : Bytes} {id : ID} (hgcm : newGCM C secret = .ok gcm) (h2 : HonestEnv secret f env)
    {p : FlowProg C FlowLoop} {w : FlowWorld} (hup : w.up = []) (h4 : ServerStands secret f S gcm id p [] []) :
    (turn (inMemory C) (.ok host) roomUp roomDown env 1 p w).2 = w ∧
      ServerStands secret f S gcm id (turn (inMemory C) (.ok host) roomUp roomDown env 1 p w).1 [] [] := by
  have hw : (turn (inMemory C) (.ok host) roomUp roomDown env 1 p w).2 = w := by
    cases p with
    | ret l => rfl
    | panic e => rfl
    | op op k =>
      obtain ⟨req, reply, hq⟩ := exists_question C f gcm id hS
      have hq0 := hq
      obtain ⟨m0, -, hr0⟩ := hq0
      cases op with
      | send b =>
        rcases h4 with h | ⟨-, -, h⟩
        · obtain ⟨-, out', h, -⟩ := h
          cases h
        · exact ((answers_ne hr0).1 (h req reply hq).1).elim
      | recv => rw [turn_server_empty hup]
      | server so => rfl
      | hangUp => rcases h4 with h | ⟨-, -, h⟩ <;> first | exact h.elim | exact (h req reply hq).elim
      | client so => rfl
      | wrote r => rcases h4 with h | ⟨-, -, h⟩ <;> first | exact h.elim | exact (h req reply hq).elim
      | gotData r => rcases h4 with h | ⟨-, -, h⟩ <;> first | exact h.elim | exact (h req reply hq).elim
  obtain ⟨up, down, out', h5, h6, h7, h8⟩ := serverAt_turn (host := host) (roomUp := roomUp) (roomDown := roomDown)
    hS hC hgcm h2.ret (w := w) (todo := []) (by rw [hup]; exact h4)
  refine ⟨hw, ?_⟩
  rw [hw] at h5
  have hu : w.up = up := congrArg FlowWorld.up h5
  have hd : w.down = down := congrArg FlowWorld.down h5
  rw [← hu, hup] at h8
  rw [← hd, List.append_nil] at h6
  rw [List.append_right_eq_self.mp h6] at h8
  exact h8

theorem some_message {msgs : List Bytes} (hm : ∀ p ∈ msgs, p.length + 16 ≤ 2 ^ 30) (hne : msgs ≠ []) :
    ∃ m : Bytes, m.length + 16 ≤ 2 ^ 30 ∧ m ∈ msgs := by
  cases msgs with
  | nil => exact (hne rfl).elim
  | cons m ms => exact ⟨m, hm m List.mem_cons_self, List.mem_cons_self⟩

theorem sets_honest (hC : C.Lawful) (host : Bytes) (roomUp roomDown : Nat) {gcm : Bytes} {id : ID}
    (hgcm : newGCM C secret = .ok gcm) {msgs : List Bytes} (hm : ∀ p ∈ msgs, p.length + 16 ≤ 2 ^ 30)
    (hf : ∀ m ∈ msgs, (f m).length + 16 ≤ 2 ^ 30) (hne : msgs ≠ []) (hsig0 : 0 < signature.length)
    (he : C.ecdh serverKey (C.epub clientKey) = .ok secret)
    (hsig : signer cryptoSHA512 (setupTranscript C (C.epub clientKey) (C.epub serverKey) id) = .ok signature)
    (h1 : HonestDial hostname key random clientKey serverKey signer env) (h2 : HonestEnv secret f env) :
    Sets (SetupRet serverKey signer) (inMemory C) (.ok host) roomUp roomDown (dialRequest C id clientKey)
      (dialResponse C serverKey signature) (IdleD secret f msgs gcm id) env where
  answers := h1.server h2
  pass := replies_serverPass hC host hsig0 he hsig
  resp := by rw [dialResponse_eq _ _ hsig0]; simp
  idle := by
    intro p w hup hcl ⟨h3, h4⟩
    have hS := some_message hm hne
    have hsame := turn_shortened (env := env) (roomUp := roomUp) (roomDown := roomDown) (inMemory C) (.ok host) 1 w (p := p)
      (msgs := msgs) (by rintro o k rfl; exact h4.calls hS)
    obtain ⟨h5, h6⟩ := stands_idle hS hC host roomUp roomDown hgcm h2 hup h4
    refine ⟨h5, ?_, h6⟩
    rcases idle_server (host := .ok host) (roomUp := roomUp) (roomDown := roomDown) (inMemory_passive C)
      (env := shortened msgs env) (envGood_shortened hf h2) hup h3 with ⟨h9, -⟩ | ⟨-, h10⟩
    · rw [hsame, h5] at h9
      rw [h9] at hcl
      cases hcl
    · rw [hsame] at h10
      exact h10
  back := ⟨.inl (.inl rfl), .inl ⟨rfl, .inl ⟨rfl, rfl⟩⟩⟩

theorem sets_safe (hC : C.Lawful) (host : Bytes) (roomUp roomDown : Nat) {gcm : Bytes} {id : ID}
    (hgcm : newGCM C secret = .ok gcm) (hsig0 : 0 < signature.length)
    (he : C.ecdh serverKey (C.epub clientKey) = .ok secret)
    (hsig : signer cryptoSHA512 (setupTranscript C (C.epub clientKey) (C.epub serverKey) id) = .ok signature)
    (h1 : HonestDial hostname key random clientKey serverKey signer env) (h2 : HonestEnv secret f env) :
    Sets (SetupRet serverKey signer) (inMemory C) (.ok host) roomUp roomDown (dialRequest C id clientKey)
      (dialResponse C serverKey signature) (IdleS secret f gcm id) env where
  answers := h1.server h2
  pass := replies_serverPass hC host hsig0 he hsig
  resp := by rw [dialResponse_eq _ _ hsig0]; simp
  idle := fun p w hup _ h => stands_idle ⟨[], by simp, trivial⟩ hC host roomUp roomDown hgcm h2 hup h
  back := .inl ⟨rfl, .inl ⟨rfl, rfl⟩⟩

section
variable {options : ClientOptions} {msgs : List Bytes}

/-- At any time: the handshake is under way, or messages are exchanged. -/
def InvD (secret : Bytes) (f : Bytes → Bytes) (gcm : Bytes) (hostname : Bytes) (options : ClientOptions) (key : PublicKey)
    (random : ID) (clientKey serverKey : C.EPriv) (signer : Nat → Bytes → Except Err Bytes) (signature : Bytes)
    (roomUp : Nat) (msgs : List Bytes) (q p : FlowProg C FlowLoop) (w : FlowWorld) : Prop :=
  InvH (SetupRet serverKey signer) (DialRet hostname key random clientKey)
    (AfterDial hostname options msgs secret (uuidOf random)) (dialRequest C (uuidOf random) clientKey)
    (dialResponse C serverKey signature) (IdleS secret f gcm (uuidOf random)) roomUp q p w ∨
  InvT secret f (fun _ => True) gcm (uuidOf random) msgs q p w

theorem setUpT_dialled (he : options.expectReply = true) (hr : ¬ options.readTimeout > 0) (id : ID) (n : Nat) :
    SetUpT secret id (dialled hostname options secret id n) := ⟨he, hr, rfl, _, rfl, rfl, rfl⟩

theorem invT_over (hC : C.Lawful) {gcm : Bytes} (hgcm : newGCM C secret = .ok gcm)
    (he : options.expectReply = true) (hr : ¬ options.readTimeout > 0) {S : Bytes → Prop}
    (hf : ∀ m ∈ msgs, (f m).length + 16 ≤ 2 ^ 30) (hm : ∀ p ∈ msgs, p.length + 16 ≤ 2 ^ 30 ∧ S p) {id : ID}
    {q p : FlowProg C FlowLoop} {w : FlowWorld}
    (h : AfterDial hostname options msgs secret id q ∧ w = {} ∧ ServerStands secret f S gcm id p [] []) :
    InvT secret f S gcm id msgs q p w := by
  obtain ⟨⟨n, rfl⟩, rfl, h⟩ := h
  exact ⟨rfl, (fun _ h => by cases h), (fun _ h => by cases h), .idle, msgs,
    talks_exchangeAll hC hgcm msgs hf hm _ (setUpT_dialled he hr id n), rfl, rfl, rfl, h⟩

end

/-- The server's long-term key and what it signs. -/
structure SignsWith (C : Crypto) (privateKey : PrivateKey C) (rnd : Nat) (key : PublicKey) (clientKey serverKey : C.EPriv)
    (id : ID) (secret signature : Bytes) : Prop where
  published : ∃ algorithm, fetchServerKey privateKey = .ok (algorithm, key)
  agreed : C.ecdh serverKey (C.epub clientKey) = .ok secret
  signed : signServer privateKey rnd 7 (Wire.transcript (C.marshalEPub (C.epub clientKey))
      (C.marshalEPub (C.epub serverKey)) id.val) = .ok signature

theorem SignsWith.facts (hC : C.Lawful) {privateKey : PrivateKey C} {rnd : Nat} {id : ID}
    (h : SignsWith C privateKey rnd key clientKey serverKey id secret signature) :
    (0 < signature.length ∧ signature.length ≤ 65536) ∧
    signServer privateKey rnd cryptoSHA512 (setupTranscript C (C.epub clientKey) (C.epub serverKey) id) = .ok signature ∧
    verifySignature C key 7 (setupTranscript C (C.epub clientKey) (C.epub serverKey) id) signature = .val (.ok true) := by
  obtain ⟨⟨algorithm, hkey⟩, -, hsig⟩ := h
  refine ⟨?_, ?_, ?_⟩
  · unfold signServer at hsig
    split at hsig
    case isFalse => cases hsig
    dsimp only at hsig
    cases privateKey with
    | rsa k => exact hC.rsa_sig _ _ _ _ hsig
    | ecdsa k => exact hC.ecdsa_sig _ _ _ _ hsig
    | ed25519 k => cases hsig; exact hC.ed_sig _ _
    | otherType => cases hsig
  · rw [C13_transcript_layout]
    exact hsig
  · obtain ⟨algorithm', key', hkey', -, -, hv⟩ := C40_signature_verifies hC privateKey rnd 7 _ signature hsig
    rw [hkey] at hkey'
    cases hkey'
    rw [C13_transcript_layout]
    exact hv

section
variable (hC : C.Lawful) (host : Bytes) (roomUp roomDown : Nat) (hostname : Bytes) (options : ClientOptions)
  (hexpect : options.expectReply = true) (hread : ¬ options.readTimeout > 0)
  (privateKey : PrivateKey C) (rnd : Nat) (key : PublicKey) (random : ID) (clientKey serverKey : C.EPriv)
  (secret signature : Bytes)
  (hkeys : SignsWith C privateKey rnd key clientKey serverKey (uuidOf random) secret signature)
  (msgs : List Bytes) (hm : ∀ p ∈ msgs, p.length + 16 ≤ 2 ^ 30) (hf : ∀ m ∈ msgs, (f m).length + 16 ≤ 2 ^ 30)
  (σ : Nat → Nat × FlowEnv C)
  (hdial : ∀ t, HonestDial hostname key random clientKey serverKey (signServer privateKey rnd) (σ t).2)
  (henv : ∀ t, HonestEnv secret f (σ t).2)
include hC hexpect hread hkeys hm hf hdial henv

theorem trace_invD {gcm : Bytes} (hgcm : newGCM C secret = .ok gcm) (t : Nat) :
    InvD secret f gcm hostname options key random clientKey serverKey (signServer privateKey rnd) signature roomUp msgs
      (flowTrace (inMemory C) (.ok host) roomUp roomDown (atStart (dialAndExchange (.ok hostname) options msgs)) σ t).1
      (flowTrace (inMemory C) (.ok host) roomUp roomDown (atStart (dialAndExchange (.ok hostname) options msgs)) σ t).2.1
      (flowTrace (inMemory C) (.ok host) roomUp roomDown (atStart (dialAndExchange (.ok hostname) options msgs)) σ t).2.2 := by
  obtain ⟨⟨hl0, hl1⟩, hsig, hv⟩ := hkeys.facts hC
  have hsets := fun t => sets_safe (hostname := hostname) (key := key) (random := random) hC host roomUp roomDown hgcm
    hl0 hkeys.agreed hsig (hdial t) (henv t)
  refine trace_inv (app := atStart _) (InvD secret f gcm hostname options key random clientKey serverKey
    (signServer privateKey rnd) signature roomUp msgs) ?_ ?_ ?_ t
  · rintro n q p w (h | h)
    · rcases h.client (hsets n) (hdial n).client with h' | h'
      · exact .inr ((invT_over hC hgcm hexpect hread hf (fun p hp => ⟨hm p hp, trivial⟩) h').client (henv n).ret (henv n).benign)
      · exact .inl h'
    · exact .inr (h.client (henv n).ret (henv n).benign)
  · rintro n q p w (h | h)
    · exact .inl (h.server (hsets n))
    · exact .inr (h.server ⟨[], by simp, trivial⟩ hC hgcm (henv n).ret)
  · exact .inl ⟨Nat.zero_le _, rfl, rfl, rfl, _, _, _, opens_dial hC hostname options msgs key random hl0 hl1
      (hC.ecdh_comm _ _ _ hkeys.agreed) hv, rfl, .inl ⟨rfl, rfl, rfl⟩⟩

/-- **C128**: dial, then exchange messages, at any time, in any schedule and over a connection of any capacity: the dial
has not failed, the replies that the application has read are those to its first messages, in order and complete, every
`Write` has succeeded, and the connection is open. -/
theorem C128_replies_in_order (_hwrite : ¬ options.writeTimeout > 0) (t : Nat) :
    let w := (flowAfter (inMemory C) (.ok host) roomUp roomDown (dialAndExchange (.ok hostname) options msgs) σ t).world
    w.got.map Prod.fst = (msgs.map f).take w.got.length ∧ (∀ r ∈ w.got, r.1 ≠ [] → r.2 = some .eof) ∧
      (∀ r ∈ w.written, r.2 = none) ∧ w.closed = false := by
  obtain ⟨gcm, -, hgcm⟩ := newGCM_ok hC secret
  simp only [flowAfter_trace]
  rcases trace_invD hC host roomUp roomDown hostname options hexpect hread privateKey rnd key random clientKey serverKey
    secret signature hkeys msgs hm hf σ hdial henv hgcm t with ⟨-, hcl, hw, hg, -⟩ | ⟨hcl, hw, hg, st, ms, -, hgot, -⟩
  · rw [hw, hg]
    exact ⟨rfl, (fun _ h => by cases h), (fun _ h => by cases h), hcl⟩
  · refine ⟨?_, hg, hw, hcl⟩
    rw [← hgot, List.take_append_of_le_length (by simp), List.take_of_length_le (by simp)]

/-- **C128**: and if both ends keep running, the dial succeeds and the application reads the reply to every message. -/
theorem C128_all_replies (hwrite : ¬ options.writeTimeout > 0)
    (hopen : ∀ k n x p, C.aeadOpen k n x = some p → p.length ≤ x.length)
    (hup : 0 < roomUp) (hdown : 0 < roomDown) (hfair : FlowFair σ) :
    ∃ t, (flowAfter (inMemory C) (.ok host) roomUp roomDown (dialAndExchange (.ok hostname) options msgs) σ
      t).world.got.map Prod.fst = msgs.map f := by
  by_cases hne : msgs = []
  · subst hne
    exact ⟨0, rfl⟩
  have hS := some_message hm hne
  obtain ⟨gcm, -, hgcm⟩ := newGCM_ok hC secret
  obtain ⟨⟨hl0, hl1⟩, hsig, hv⟩ := hkeys.facts hC
  have hsets := fun t => sets_honest (hostname := hostname) (key := key) (random := random) hC host roomUp roomDown hgcm hm hf
    hne hl0 hkeys.agreed hsig (hdial t) (henv t)
  obtain ⟨t0, hafter, hw, hp, hstand⟩ := dial_over (app := atStart (dialAndExchange (.ok hostname) options msgs))
    hsets (fun t => (hdial t).client) ⟨Nat.zero_le _, rfl, rfl, rfl, _, _, _, opens_dial hC hostname options msgs key random
      hl0 hl1 (hC.ecdh_comm _ _ _ hkeys.agreed) hv, rfl, .inl ⟨rfl, rfl, rfl⟩⟩ hfair hup hdown
  have hadd := fun n => flowTrace_add (M := inMemory C) (host := .ok host) (roomUp := roomUp) (roomDown := roomDown)
    (σ := σ) (app := atStart (dialAndExchange (.ok hostname) options msgs)) t0 n
  have hsafe := C128_replies_in_order hC host roomUp roomDown hostname options hexpect hread privateKey rnd key random
    clientKey serverKey secret signature hkeys msgs hm hf σ hdial henv hwrite
  simp only [flowAfter_trace] at hsafe ⊢
  generalize flowTrace (inMemory C) (.ok host) roomUp roomDown (atStart (dialAndExchange (.ok hostname) options msgs)) σ t0
    = app at hafter hw hp hstand hadd
  have hsame := fun n => trace_shortened (host := host) (roomUp := roomUp) (roomDown := roomDown) (app := app)
    (σ := fun j => σ (t0 + j)) hS hC hgcm (fun n => (henv (t0 + n)).ret) (fun n => (henv (t0 + n)).benign)
    (invT_over hC hgcm hexpect hread hf (fun p hp => ⟨hm p hp, hp⟩) ⟨hafter, hw, hstand⟩) n
  obtain ⟨c, hq⟩ := hafter
  have hfair' : FlowFair fun j => ((σ (t0 + j)).1, shortened msgs (σ (t0 + j)).2) := by
    intro i hi n
    obtain ⟨m, hm, h⟩ := hfair i hi (t0 + n)
    refine ⟨m - t0, by omega, ?_⟩
    show (σ (t0 + (m - t0))).1 = i
    rw [show t0 + (m - t0) = m by omega]
    exact h
  have hgood : ∀ m, EnvGood ShortReply (shortened msgs (σ (t0 + m)).2) := fun m => envGood_shortened hf (henv (t0 + m))
  have hinv : ∀ m, InvX ShortReply msgs.length roomUp
      (flowTrace (inMemory C) (.ok host) roomUp roomDown app
        (fun j => ((σ (t0 + j)).1, shortened msgs (σ (t0 + j)).2)) m).1
      (flowTrace (inMemory C) (.ok host) roomUp roomDown app
        (fun j => ((σ (t0 + j)).1, shortened msgs (σ (t0 + j)).2)) m).2.1
      (flowTrace (inMemory C) (.ok host) roomUp roomDown app
        (fun j => ((σ (t0 + j)).1, shortened msgs (σ (t0 + j)).2)) m).2.2 := by
    refine trace_inv (InvX ShortReply msgs.length roomUp) (fun _ _ _ _ h => h.client)
      (fun j _ _ _ h => h.server (inMemory_passive C) (hgood j)) ?_
    rw [hw, hq]
    exact ⟨Nat.zero_le _, .inr ⟨_, Nat.zero_add _, tally_exchangeAll msgs _ rfl, .inr ⟨rfl, .inl
      ⟨exchanges_exchangeAll hC hopen (fun _ h => h) msgs hm _ ⟨hexpect, rfl, hread, rfl⟩, rfl, rfl, hp⟩⟩⟩⟩
  obtain ⟨n, hn⟩ := exchanges_done (inMemory_passive C) hfair' hup hdown hinv hgood
    (fun m ⟨r, hr, he⟩ => he ((hsafe (t0 + m)).2.2.1 r (by rw [hadd m, ← hsame m]; exact hr))) _ 0 rfl
  refine ⟨t0 + n, ?_⟩
  rw [(hsafe (t0 + n)).1, hadd n, ← hsame n, hn, List.take_of_length_le (by simp)]

end

end

/-! ## Examples -/

section
open FlowDemo HandshakeExample

/-- The secret of the ephemeral keys 5 and 9. -/
def FlowDemo.agreed : Bytes :=
  match Toy.crypto.ecdh (9 : BitVec 256) (5 : BitVec 256) with
  | .ok secret => secret
  | .error _ => []

/-- The server has the long-term key 77; its application replies with the message and an exclamation mark. -/
def FlowDemo.dialEnv (n : Nat) : FlowEnv Toy.crypto :=
  { server := fun o => match o with
      | .invoke _ _ _ _ m => HRes.reply (m ++ str "!")
      | .secretOf _ => FlowDemo.agreed
      | .genKey => .ok (9 : BitVec 256)
      | .sign hash content => signServer (.ed25519 (77 : BitVec 256) : PrivateKey Toy.crypto) 0 hash content
      | o => FlowDemo.server o
    client := fun o => match o with
      | .fetch _ => .ok (.ed25519 (beEnc 32 77))
      | .random => .ok ⟨List.replicate 16 1, rfl⟩
      | .genKey => .ok (5 : BitVec 256)
      | o => FlowDemo.client (BitVec.ofNat 64 (n % 100 + 1)) o }

/-- The hypotheses can be met. -/
example (n : Nat) : HonestEnv FlowDemo.agreed (· ++ str "!") (FlowDemo.dialEnv n) where
  running := rfl
  known := fun _ => rfl
  secretOf := fun _ => rfl
  fresh := fun _ _ => rfl
  reply := fun _ _ _ _ _ => rfl
  counter := fun _ => by
    show BitVec.ofNat 64 (n % 100 + 1) ≠ 0#64
    intro h
    have := congrArg BitVec.toNat h
    simp only [BitVec.toNat_ofNat] at this
    omega
  deadline := rfl

example (n : Nat) : HonestDial (str "example.com") (.ed25519 (beEnc 32 77)) ⟨List.replicate 16 1, rfl⟩ (5 : BitVec 256)
    (9 : BitVec 256) (signServer (.ed25519 (77 : BitVec 256) : PrivateKey Toy.crypto) 0) (FlowDemo.dialEnv n) :=
  ⟨rfl, rfl, rfl, rfl, rfl, rfl, fun _ _ => rfl⟩

example : SignsWith Toy.crypto (.ed25519 (77 : BitVec 256)) 0 (.ed25519 (beEnc 32 77)) (5 : BitVec 256) (9 : BitVec 256)
    (uuidOf ⟨List.replicate 16 1, rfl⟩) FlowDemo.agreed HandshakeExample.signature where
  published := ⟨_, rfl⟩
  agreed := rfl
  signed := rfl

/-- Over a connection that takes 16 octets in one direction and 12 in the other. -/
example : (flowAfter (inMemory Toy.crypto) (.ok []) 16 12
      (dialAndExchange (.ok (str "example.com")) { readTimeout := 0, writeTimeout := 0 } [str "a", str "b"])
      (fun n => (n % 2, FlowDemo.dialEnv n)) 780).world.got =
    [(str "a!", some .eof), (str "b!", some .eof)] := by decide +kernel

end

end Goe2ee
