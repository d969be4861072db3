import Verif.Proofs.QuickStart
import Verif.Props.FlowDial

/-!
# C153: the quick start of README.md works
-/

set_option autoImplicit false

namespace Goe2ee

/-- How the buffer of `io.ReadAll` grows: the free octets for each call of `Read` while it reads `n` octets.  There is
always room, and there are enough calls to notice the end. -/
def BufferGrows (grows : Nat → List Nat) : Prop := ∀ n, n < (grows n).length ∧ ∀ room ∈ grows n, 0 < room

theorem echoAll_run (rooms : List Nat) (hr : ∀ room ∈ rooms, 0 < room) (data : Bytes) (s : HBuffers)
    (hl : s.reader.length < rooms.length) :
    (echoAll rooms data).run (handlerExec true) s = (.val none, ⟨[], s.writer ++ (data ++ s.reader)⟩) := by
  induction rooms generalizing data s with
  | nil => exact absurd hl (Nat.not_lt_zero _)
  | cons room rooms ih =>
    obtain ⟨reader, writer⟩ := s
    have h0 := hr room List.mem_cons_self
    rw [echoAll]
    simp only [Prog.run]
    by_cases he : reader = []
    · subst he
      simp [handlerExec, Nat.ne_of_gt h0, Prog.run]
    · simp only [handlerExec, if_neg he]
      rw [ih (fun r h => hr r (List.mem_cons_of_mem _ h)) _ _ (by
        have := List.length_pos_iff.mpr he
        simp only [List.length_cons] at hl
        simp only [List.length_drop]
        omega)]
      simp

/-- **C153**: the server of the quick start sends back what it received, whatever it is. -/
theorem C153_echo (grows : Nat → List Nat) (hg : BufferGrows grows) (message : Bytes) :
    outcomeOf true (echoAll (grows message.length) []) message = .reply message := by
  rw [outcomeOf, echoAll_run _ (hg _).2 [] ⟨message, []⟩ (hg _).1]
  rfl

section
variable {C : Crypto}

/-- The server of the quick start, besides its connections: it is not closed and has the long-term key `privateKey`; once
it has generated its key `serverKey` for the client, it keeps the session and accepts the counter; its application is
that of README.md. -/
structure QuickServer (grows : Nat → List Nat) (privateKey : PrivateKey C) (rnd : Nat) (serverKey : C.EPriv) (secret : Bytes)
    (env : FlowEnv C) : Prop where
  running : env.server .quitClosed = false
  fetchKey : env.server .fetchKey = fetchServerKey privateKey
  serverKey : env.server .genKey = .ok serverKey
  sign : ∀ hash content, env.server (.sign hash content) = signServer privateKey rnd hash content
  known : ∀ key, Option.isSome (α := Ref × Nat) (env.server (.mapLoad key)) = true
  secretOf : ∀ r, env.server (.secretOf r) = secret
  fresh : ∀ r counter, env.server (.check r counter) = true
  handler : ∀ r counter host id message,
    env.server (.invoke r counter host id message) = outcomeOf true (echoAll (grows message.length) []) message

/-- The client of the quick start, besides its connection: the fetcher returns `key`; connecting and setting options and
deadlines works; the first counter is 1. -/
structure QuickClient (hostname : Bytes) (key : PublicKey) (random : ID) (clientKey : C.EPriv) (env : FlowEnv C) : Prop where
  connect : env.client .connect = none
  keepAlive : env.client .setKeepAlive = none
  fetch : env.client (.fetch hostname) = .ok key
  random : env.client .random = .ok random
  clientKey : env.client .genKey = .ok clientKey
  readDeadline : env.client .setReadDeadline = none
  writeDeadline : env.client .setWriteDeadline = none
  counter : ∀ r, env.client (.addCounter r) = (1 : BitVec 64)

variable {grows : Nat → List Nat} {privateKey : PrivateKey C} {rnd : Nat} {serverKey clientKey : C.EPriv}
  {secret hostname : Bytes} {key : PublicKey} {random : ID} {env : FlowEnv C}

theorem QuickServer.ret (hg : BufferGrows grows) (h : QuickServer grows privateKey rnd serverKey secret env) (o : SOp) :
    QuickRet serverKey (signServer privateKey rnd) secret id o (serverAnswer env o) := by
  refine ⟨?_, ?_⟩
  · cases o <;> first
      | exact h.running | exact h.serverKey | exact h.sign _ _ | trivial
  · cases o <;> first
      | exact h.running | exact h.known _ | exact h.secretOf _ | exact h.fresh _ _
      | exact (h.handler _ _ _ _ _).trans (C153_echo grows hg _) | rfl | trivial

theorem QuickClient.ret (h : QuickClient hostname key random clientKey env) (o : COp) :
    QuickDial hostname key random clientKey o (clientAnswer env o) := by
  refine ⟨?_, ?_⟩
  · cases o <;> first
      | exact h.connect | exact h.keepAlive | exact h.random | exact h.clientKey | trivial
      | (intro hh; rw [hh]; exact h.fetch)
  · cases o <;> first
      | exact h.counter _ | exact h.readDeadline | exact h.writeDeadline | rfl | trivial

/-! ## The key -/

/-- What matters for the fetcher. -/
def FetchServed (algorithm : KeyAlgorithm) (key : PublicKey) : (o : SOp) → o.Ret C → Prop
  | .quitClosed, (r : Bool) => r = false
  | .fetchKey, (r : Except Err (KeyAlgorithm × PublicKey)) => r = .ok (algorithm, key)
  | _, _ => True

def Connects : (o : COp) → o.Ret C → Prop
  | .connect, (r : Option Err) => r = none
  | _, _ => True

/-- **C153**: on its own connection, whatever that takes, the key fetcher of the quick start gets the public key of the
server, if both ends keep running. -/
theorem C153_fetch (hC : C.Lawful) (host : Except Err Bytes) (roomUp roomDown : Nat) (hup : 0 < roomUp)
    (hdown : 0 < roomDown) (privateKey : PrivateKey C) (algorithm : KeyAlgorithm) (key : PublicKey) (raw : Bytes)
    (hkey : fetchServerKey privateKey = .ok (algorithm, key)) (hraw : C.marshalPKIX key = .ok raw)
    (hl : raw.length ≤ 65536) (next : Except Err PublicKey → FlowProg C FlowLoop) (σ : Nat → Nat × FlowEnv C)
    (hfair : FlowFair σ) (hrunning : ∀ t, (σ t).2.server .quitClosed = false)
    (hserver : ∀ t, (σ t).2.server .fetchKey = fetchServerKey privateKey)
    (hconnect : ∀ t, (σ t).2.client .connect = none) :
    ∃ t, (flowAfter (inMemory C) host roomUp roomDown (fetchOver (str "tcp") next) σ t).threads[0]? =
      some (next (.ok key)) := by
  have hpass := replies_fetchKey (C := C) (A := FetchServed algorithm key) (key := key) (algorithm := algorithm) host hraw
    (fun r h => h) (fun r h => h)
  have hne : (newFetchKeyResponse algorithm raw).bytes ≠ [] := by
    simp [FetchKeyResponse.bytes, newFetchKeyResponse, ResponseCommon.bytes]
  have hreq : fetchKeyRequest.bytes ≠ [] := by decide
  obtain ⟨t, h, -⟩ := dial_over (app := atStart (fetchOver (str "tcp") next)) (M := inMemory C) (host := host)
    (roomUp := roomUp) (roomDown := roomDown) (σ := σ) (B := Connects)
    (fun t => sets_next (env := (σ t).2) (fun o => by
      cases o <;> first | exact hrunning t | exact (hserver t).trans hkey | trivial) hpass hne hpass hreq)
    (fun t o => by cases o <;> first | exact hconnect t | trivial)
    (invH_start (opens_fetch hC (.inl rfl) next hraw hl (fun r h => h)) (.inl rfl)) hfair hup hdown
  refine ⟨t, ?_⟩
  rw [flowAfter_trace]
  exact congrArg some h

/-! ## The message -/

section
variable (hC : C.Lawful) (host : Bytes) (roomUp roomDown : Nat) (hostname : Bytes) (options : ClientOptions)
  (hexpect : options.expectReply = true) (grows : Nat → List Nat) (hg : BufferGrows grows)
  (privateKey : PrivateKey C) (rnd : Nat) (key : PublicKey) (random : ID) (clientKey serverKey : C.EPriv)
  (secret signature : Bytes)
  (hkeys : SignsWith C privateKey rnd key clientKey serverKey (uuidOf random) secret signature)
  (message : Bytes) (hne : message ≠ []) (hm : message.length + 16 ≤ 2 ^ 30)
  (σ : Nat → Nat × FlowEnv C)
  (hserver : ∀ t, QuickServer grows privateKey rnd serverKey secret (σ t).2)
  (hclient : ∀ t, QuickClient hostname key random clientKey (σ t).2)

/-- The client after the dial. -/
def AfterQuick (hostname : Bytes) (options : ClientOptions) (secret : Bytes) (id : ID) (message : Bytes) (rooms : List Nat)
    (q : FlowProg C FlowLoop) : Prop :=
  ∃ n, q = writeThenReadAll (dialled hostname options secret id n) message rooms

include hC hexpect hg hkeys hne hm

/-- The two phases. -/
theorem quick_phases : ∃ req resp : Bytes, req ≠ [] ∧ resp ≠ [] ∧
    Replies (QuickRet serverKey (signServer privateKey rnd) secret id) (serverPass (inMemory C) (.ok host)) req resp
      (· = .serving) ∧
    (∀ q, AfterQuick hostname options secret (uuidOf random) message (grows message.length) q →
      Opens (QuickDial hostname key random clientKey) (Replied message) q req resp) ∧
    dialResponse C serverKey signature ≠ [] ∧
    Replies (QuickRet serverKey (signServer privateKey rnd) secret id) (serverPass (inMemory C) (.ok host))
      (dialRequest C (uuidOf random) clientKey) (dialResponse C serverKey signature) (· = .serving) ∧
    Opens (QuickDial hostname key random clientKey)
      (AfterQuick hostname options secret (uuidOf random) message (grows message.length))
      (quickStart (.ok hostname) options message (grows message.length)) (dialRequest C (uuidOf random) clientKey)
      (dialResponse C serverKey signature) := by
  obtain ⟨gcm, -, hgcm⟩ := newGCM_ok hC secret
  obtain ⟨⟨hl0, hl1⟩, hsig, hv⟩ := hkeys.facts hC
  obtain ⟨n1, h1⟩ : ∃ x, nonce directionClientToServer (1 : BitVec 64) gcmNonceSize = .val x := ⟨_, rfl⟩
  obtain ⟨n2, h2⟩ : ∃ x, nonce directionServerToClient (1 : BitVec 64) gcmNonceSize = .val x := ⟨_, rfl⟩
  have hans : Answers C id gcm (uuidOf random) message
    (newProcessRequest (uuidOf random) 1 (C.aeadSeal gcm n1 message) true).bytes
    (newProcessResponse 1 (C.aeadSeal gcm n2 message)).bytes := ⟨1, n1, n2, h1, h2, rfl, rfl⟩
  refine ⟨_, _, (answers_ne hans).1, (answers_ne hans).2, replies_process hC host hgcm (uuidOf random) hm hans, ?_, ?_, ?_, ?_⟩
  · rintro q ⟨n, rfl⟩
    exact opens_message (f := id) hC (dialled hostname options secret (uuidOf random) n) hexpect rfl
      { secret, id := uuidOf random, sendCounter := n } rfl hgcm message h1 h2 hm hne _ (hg _).2 (Nat.le_of_lt (hg _).1)
  · rw [dialResponse_eq _ _ hl0]
    simp
  · exact Replies.mono (fun _ _ h => h.1) (replies_serverPass hC host hl0 hkeys.agreed hsig)
  · exact opens_dialTCP hC hostname options key random _ (fun _ _ h => h.1) hl0 hl1 (hC.ecdh_comm _ _ _ hkeys.agreed) hv

include hserver hclient

/-- **C153**: at any time, in any schedule and whatever the connection takes: neither the dial nor `Write` has failed, the
connection is open, and `io.ReadAll` has returned nothing else than the message, without an error. -/
theorem C153_no_error (t : Nat) :
    let w := (flowAfter (inMemory C) (.ok host) roomUp roomDown
      (quickStart (.ok hostname) options message (grows message.length)) σ t).world
    w.written = [] ∧ w.closed = false ∧ (w.got = [] ∨ w.got = [(message, none)]) := by
  obtain ⟨req, resp, hreq, hresp, hpass, hopens, hne0, hpass0, hopens0⟩ := quick_phases hC host hostname options hexpect
    grows hg privateKey rnd key random clientKey serverKey secret signature hkeys message hne hm
  have hsets := fun t => sets_next (roomUp := roomUp) (roomDown := roomDown) ((hserver t).ret hg) hpass0 hne0 hpass hreq
  have hsets' := fun t => sets_next (roomUp := roomUp) (roomDown := roomDown) ((hserver t).ret hg) hpass hresp hpass hreq
  let Phase1 := InvH (QuickRet serverKey (signServer privateKey rnd) secret id) (QuickDial hostname key random clientKey)
    (AfterQuick hostname options secret (uuidOf random) message (grows message.length)) (dialRequest C (uuidOf random) clientKey)
    (dialResponse C serverKey signature) (Next (QuickRet serverKey (signServer privateKey rnd) secret id) req resp) roomUp
  let Phase2 := InvH (QuickRet serverKey (signServer privateKey rnd) secret id) (QuickDial hostname key random clientKey)
    (Replied message) req resp (Next (QuickRet serverKey (signServer privateKey rnd) secret id) req resp) roomUp
  let I := fun (q p : FlowProg C FlowLoop) (w : FlowWorld) => Phase1 q p w ∨ Phase2 q p w ∨
    (q = .ret .ended ∧ w = { got := [(message, none)] } ∧
      Next (QuickRet serverKey (signServer privateKey rnd) secret id) req resp p)
  have hphase2 : ∀ n q p w, Phase2 q p w → I (turn (inMemory C) (.ok host) roomUp roomDown (σ n).2 0 q w).1 p
      (turn (inMemory C) (.ok host) roomUp roomDown (σ n).2 0 q w).2 := by
    intro n q p w h
    rcases h.client (hsets' n) (hclient n).ret with ⟨rfl, rfl, h'⟩ | h
    · exact .inr (.inr ⟨rfl, rfl, h'⟩)
    · exact .inr (.inl h)
  have hinv := trace_inv (M := inMemory C) (host := .ok host) (roomUp := roomUp) (roomDown := roomDown) (σ := σ)
    (app := atStart (quickStart (.ok hostname) options message (grows message.length))) I ?_ ?_
    (.inl (invH_start hopens0 (.inl rfl))) t
  · dsimp only
    rw [flowAfter_trace]
    rcases hinv with ⟨-, hcl, hw, hgot, -⟩ | ⟨-, hcl, hw, hgot, -⟩ | ⟨-, hw, -⟩
    · exact ⟨hw, hcl, .inl hgot⟩
    · exact ⟨hw, hcl, .inl hgot⟩
    · dsimp only
      rw [hw]
      exact ⟨rfl, rfl, .inr rfl⟩
  · rintro n q p w (h | h | ⟨rfl, rfl, h⟩)
    · rcases h.client (hsets n) (hclient n).ret with ⟨h1, rfl, h3⟩ | h
      · exact hphase2 n q p _ (invH_start (hopens q h1) h3)
      · exact .inl h
    · exact hphase2 n q p w h
    · exact .inr (.inr ⟨rfl, rfl, h⟩)
  · rintro n q p w (h | h | ⟨rfl, rfl, h⟩)
    · exact .inl (h.server (hsets n))
    · exact .inr (.inl (h.server (hsets' n)))
    · obtain ⟨h1, h2⟩ := next_idle (M := inMemory C) (host := .ok host) (roomUp := roomUp) (roomDown := roomDown)
        ((hserver n).ret hg) hpass hreq (p := p) (w := { got := [(message, none)] }) rfl h
      exact .inr (.inr ⟨rfl, h1, h2⟩)

/-- **C153**: and if both ends keep running, `io.ReadAll` returns the message. -/
theorem C153_quick_start (hup : 0 < roomUp) (hdown : 0 < roomDown) (hfair : FlowFair σ) :
    ∃ t, (flowAfter (inMemory C) (.ok host) roomUp roomDown
      (quickStart (.ok hostname) options message (grows message.length)) σ t).world.got = [(message, none)] := by
  have hsafe := C153_no_error hC host roomUp roomDown hostname options hexpect grows hg privateKey rnd key random clientKey
    serverKey secret signature hkeys message hne hm σ hserver hclient
  obtain ⟨req, resp, hreq, hresp, hpass, hopens, hne0, hpass0, hopens0⟩ := quick_phases hC host hostname options hexpect
    grows hg privateKey rnd key random clientKey serverKey secret signature hkeys message hne hm
  obtain ⟨t0, h1, h2, h3⟩ := dial_over
    (app := atStart (quickStart (.ok hostname) options message (grows message.length))) (M := inMemory C) (host := .ok host)
    (roomUp := roomUp) (roomDown := roomDown) (σ := σ)
    (fun t => sets_next ((hserver t).ret hg) hpass0 hne0 hpass hreq) (fun t => (hclient t).ret)
    (invH_start hopens0 (.inl rfl)) hfair hup hdown
  have hadd := fun n => flowTrace_add (M := inMemory C) (host := .ok host) (roomUp := roomUp) (roomDown := roomDown)
    (σ := σ) (app := atStart (quickStart (.ok hostname) options message (grows message.length))) t0 n
  have hfair' : FlowFair fun j => σ (t0 + j) := by
    intro i hi n
    obtain ⟨m, hm, h⟩ := hfair i hi (t0 + n)
    refine ⟨m - t0, by omega, ?_⟩
    show (σ (t0 + (m - t0))).1 = i
    rw [show t0 + (m - t0) = m by omega]
    exact h
  obtain ⟨t1, h4, -, -⟩ := dial_over
    (app := flowTrace (inMemory C) (.ok host) roomUp roomDown
      (atStart (quickStart (.ok hostname) options message (grows message.length))) σ t0) (M := inMemory C) (host := .ok host)
    (roomUp := roomUp) (roomDown := roomDown) (σ := fun j => σ (t0 + j))
    (fun t => sets_next ((hserver _).ret hg) hpass hresp hpass hreq) (fun t => (hclient _).ret)
    (by rw [h2]; exact invH_start (hopens _ h1) h3) hfair' hup hdown
  rw [← hadd t1] at h4
  obtain ⟨m, hm', hturn, -, hstay⟩ := client_turn (M := inMemory C) (host := .ok host) (roomUp := roomUp)
    (roomDown := roomDown) (app := atStart (quickStart (.ok hostname) options message (grows message.length))) hfair (t0 + t1)
  refine ⟨m + 1, ?_⟩
  have hlast := hsafe (m + 1)
  dsimp only at hlast
  rw [flowAfter_trace] at hlast ⊢
  have hnext := trace_client (M := inMemory C) (host := .ok host) (roomUp := roomUp) (roomDown := roomDown)
    (app := atStart (quickStart (.ok hostname) options message (grows message.length))) hturn
  rw [(hstay m hm' (Nat.le_refl _)).trans h4] at hnext
  refine hlast.2.2.resolve_left fun h => ?_
  dsimp only at h
  rw [hnext] at h
  exact absurd h (by simp [turn, flowExec])

end

end

/-! ## Examples -/

namespace QuickStartExample

/-- As in Go: 512 octets to begin with. -/
def grows (n : Nat) : List Nat := List.replicate (n + 1) 512

example : BufferGrows grows := fun n => ⟨by simp [grows], fun room h => by
  obtain ⟨-, rfl⟩ := List.mem_replicate.mp h
  decide⟩

/-- The environment of `FlowDemo`, with the server of the quick start and its first message. -/
def env : FlowEnv Toy.crypto :=
  { server := fun o => match o with
      | .invoke _ _ _ _ m => outcomeOf true (echoAll (grows m.length) []) m
      | .fetchKey => fetchServerKey (.ed25519 (77 : BitVec 256) : PrivateKey Toy.crypto)
      | o => (FlowDemo.dialEnv 0).server o
    client := fun o => match o with
      | .addCounter _ => (1 : BitVec 64)
      | o => (FlowDemo.dialEnv 0).client o }

/-- The hypotheses can be met. -/
example : QuickServer grows (.ed25519 (77 : BitVec 256)) 0 (9 : BitVec 256) FlowDemo.agreed env :=
  ⟨rfl, rfl, rfl, fun _ _ => rfl, fun _ => rfl, fun _ => rfl, fun _ _ => rfl, fun _ _ _ _ _ => rfl⟩

example : QuickClient (str "localhost") (.ed25519 (beEnc 32 77)) ⟨List.replicate 16 1, rfl⟩ (5 : BitVec 256) env :=
  ⟨rfl, rfl, rfl, rfl, rfl, rfl, rfl, fun _ => rfl⟩

/-- "hello", as in README.md, with the default options, over a connection that takes 16 octets in one direction and 12 in
the other. -/
example : (flowAfter (inMemory Toy.crypto) (.ok []) 16 12
      (quickStart (.ok (str "localhost")) {} (str "hello") (grows 5)) (fun n => (n % 2, env)) 600).world.got =
    [(str "hello", none)] := by decide +kernel

/-- The key is fetched; afterwards the program records 1. -/
example : (flowAfter (inMemory Toy.crypto) (.ok []) 16 12
      (fetchOver (str "tcp") fun r => .op (.wrote (if r.toOption = some (.ed25519 (beEnc 32 77)) then 1 else 0, none))
        fun _ => .ret .ended) (fun n => (n % 2, env)) 300).world.written = [(1, none)] := by decide +kernel

/-- A server that keeps the first octet to itself. -/
example : outcomeOf true (.op (.read 1) fun _ => echoAll (grows 5) []) (str "hello") = .reply (str "ello") := by
  decide +kernel

end QuickStartExample

end Goe2ee
