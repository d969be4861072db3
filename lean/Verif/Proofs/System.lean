import Verif.Model.System
import Verif.Proofs.FlowDial

/-!
# What one client and its goroutine at the server do to the state of the server

`Attends T p g inp out Q`: the server reads exactly `inp`, then sends exactly `out`, and touches nothing but the session of
its client, whose stage is `g`.  `Speaks T q d todo inp`: the client sends exactly `todo`, then reads exactly `inp`, then
goes on with further requests; `d` is what it knows about its counter.
-/

set_option autoImplicit false

namespace Goe2ee

/-- The stages of a session: the setup request is not sent yet; it is sent; the session is created; it is in the table,
and `top` is the highest counter accepted; the message with counter `c` is sent and not yet accepted. -/
inductive SessionStage where
  | new
  | settingUp
  | created (r : Ref)
  | kept (r : Ref) (top : BitVec 64)
  | asked (r : Ref) (c top : BitVec 64)

/-- What is fixed for a client and its session. -/
structure Terms (C : Crypto) where
  host : Bytes
  hostname : Bytes
  key : PublicKey
  random : ID
  clientKey : C.EPriv
  serverKey : C.EPriv
  signer : Nat → Bytes → Except Err Bytes
  signature : Bytes
  secret : Bytes
  gcm : Bytes
  f : Bytes → Bytes

section
variable {C : Crypto}

def Terms.id (T : Terms C) : ID := uuidOf T.random

/-- Where the session is in the table. -/
def Terms.tableKey (T : Terms C) : Bytes := sessionKey C T.host T.id

/-- The cryptography works. -/
structure Terms.Works (T : Terms C) : Prop where
  gcm : newGCM C T.secret = .ok T.gcm
  agreed : C.ecdh T.serverKey (C.epub T.clientKey) = .ok T.secret
  agreed' : C.ecdh T.clientKey (C.epub T.serverKey) = .ok T.secret
  signed : T.signer cryptoSHA512 (setupTranscript C (C.epub T.clientKey) (C.epub T.serverKey) T.id) = .ok T.signature
  verified : verifySignature C T.key 7 (setupTranscript C (C.epub T.clientKey) (C.epub T.serverKey) T.id) T.signature =
    .val (.ok true)
  short : 0 < T.signature.length ∧ T.signature.length ≤ 65536

/-- Effects before a request has arrived. -/
def Waits : SOp → Prop
  | .quitClosed => True
  | .setDeadlines => True
  | _ => False

/-- Effects after it has arrived. -/
def Works (T : Terms C) : SessionStage → SOp → Prop
  | g, .newSession s _ _ => g = .settingUp ∧ s = T.secret
  | g, .mapStore key v => key = T.tableKey ∧ (g = .created v.1 ∨ ∃ c top, g = .asked v.1 c top)
  | g, .mapLoad key => key = T.tableKey ∧ ∃ r c top, g = .asked r c top
  | g, .check r c => ∃ top, g = .asked r c top
  | g, .secretOf r => ∃ top, g = .kept r top
  | _, .invoke _ _ host _ _ => host = T.host
  | _, .now => True
  | _, .genKey => True
  | _, .sign _ _ => True
  | _, .aead _ _ _ _ => True
  | _, _ => False

/-- What they return. -/
def Gives (T : Terms C) : SessionStage → (o : SOp) → o.Ret C → Prop
  | g, .mapLoad _, (v : Option (Ref × Nat)) => ∀ r c top, g = .asked r c top → ∃ t, v = some (r, t)
  | _, o, v => HonestRet T.secret T.f o v ∧ SetupRet T.serverKey T.signer o v

/-- The stage after it. -/
def SessionStage.next : SessionStage → (o : SOp) → o.Ret C → SessionStage
  | .settingUp, .newSession _ _ _, (r : Ref) => .created r
  | .created r, .mapStore _ _, _ => .kept r 0
  | .asked r _ _, .check _ c, _ => .kept r c
  | g, _, _ => g

variable (T : Terms C)

/-- See above. -/
def Attends {α : Type} : FlowProg C α → SessionStage → (inp out : Bytes) → (α → SessionStage → Bytes → Bytes → Prop) → Prop
  | .ret a, g, inp, out, Q => Q a g inp out
  | .op (.send b) k, g, inp, out, Q => inp = [] ∧ ∃ out', out = b :: out' ∧ Attends (k true) g [] out' Q
  | .op .recv k, g, inp, out, Q => out ≠ [] ∧ ∃ b inp', inp = b :: inp' ∧ Attends (k (some b)) g inp' out Q
  | .op (.server o) k, g, inp, out, Q => (Waits o ∨ (inp = [] ∧ out ≠ [] ∧ Works T g o)) ∧
      ∀ r, Gives T g o r → Attends (k r) (g.next o r) inp out Q
  | _, _, _, _, _ => False

/-- The request for the message `m` with a counter, and the reply to it. -/
def AnswersAt (counter : BitVec 64) (m req reply : Bytes) : Prop :=
  ∃ (n1 n2 : Bytes), nonce directionClientToServer counter gcmNonceSize = .val n1 ∧
    nonce directionServerToClient counter gcmNonceSize = .val n2 ∧
    req = (newProcessRequest T.id counter (C.aeadSeal T.gcm n1 m) true).bytes ∧
    reply = (newProcessResponse counter (C.aeadSeal T.gcm n2 (T.f m))).bytes

/-- A request and its reply, and the stage before and after the request was sent. -/
def Asked (g g' : SessionStage) (req reply : Bytes) : Prop :=
  (g = .new ∧ g' = .settingUp ∧ req = dialRequest C T.id T.clientKey ∧ reply = dialResponse C T.serverKey T.signature) ∨
  ∃ r top c m, g = .kept r top ∧ g' = .asked r c top ∧ m.length + 16 ≤ 2 ^ 30 ∧ AnswersAt T c m req reply

/-- No request is to be served. -/
def Settled : SessionStage → Prop
  | .new => True
  | .kept _ _ => True
  | _ => False

/-- After a pass nothing, or a whole request, is to be read. -/
def Rests (l : FlowLoop) (g : SessionStage) (inp out : Bytes) : Prop :=
  l = .serving ∧ ((inp = [] ∧ out = [] ∧ Settled g) ∨ ∃ g0, Asked T g0 g inp out)

/-- The server still has to read `inp` and to send `out`, or it waits for a request. -/
def Stands (p : FlowProg C FlowLoop) (g : SessionStage) (inp out : Bytes) : Prop :=
  Attends T p g inp out (Rests T) ∨
  (inp = [] ∧ out = [] ∧ Settled g ∧ ∀ g' req reply, Asked T g g' req reply → Attends T p g' req reply (Rests T))

variable {T}

theorem asked_ne (hs : 0 < T.signature.length) {g g' : SessionStage} {req reply : Bytes} (h : Asked T g g' req reply) :
    req ≠ [] ∧ reply ≠ [] := by
  rcases h with ⟨-, -, rfl, rfl⟩ | ⟨r, top, c, m, -, -, -, n1, n2, -, -, rfl, rfl⟩
  · rw [dialRequest_eq, dialResponse_eq _ _ hs]
    simp
  · constructor
    · simp [ProcessRequest.bytes, newProcessRequest, RequestCommon.bytes]
    · simp [ProcessResponse.bytes, newProcessResponse, ResponseCommon.bytes]

theorem exists_asked (T : Terms C) {g : SessionStage} (h : Settled g) : ∃ g' req reply, Asked T g g' req reply := by
  cases g with
  | new => exact ⟨_, _, _, .inl ⟨rfl, rfl, rfl, rfl⟩⟩
  | kept r top => exact ⟨_, _, _, .inr ⟨r, top, 0, [], rfl, rfl, by simp, _, _, rfl, rfl, rfl, rfl⟩⟩
  | settingUp => exact h.elim
  | created r => exact h.elim
  | asked r c top => exact h.elim

theorem waits_next {g : SessionStage} {o : SOp} (h : Waits o) (r : o.Ret C) : g.next o r = g := by
  cases o <;> first | exact h.elim | (cases g <;> rfl)

theorem waits_gives {o : SOp} (h : Waits o) : ∃ r, ∀ g, Gives T g o r := by
  cases o <;> first
    | exact h.elim
    | exact ⟨false, fun g => ⟨rfl, rfl⟩⟩
    | exact ⟨(), fun g => ⟨trivial, trivial⟩⟩

theorem Attends.bind {α β : Type} {p : FlowProg C α} {k : α → FlowProg C β} {g : SessionStage} {inp out : Bytes}
    {Q : β → SessionStage → Bytes → Bytes → Prop}
    (h : Attends T p g inp out fun a g inp out => Attends T (k a) g inp out Q) : Attends T (p.bind k) g inp out Q := by
  induction p generalizing g inp out with
  | ret a => exact h
  | panic m => exact h.elim
  | op o k ih =>
    cases o with
    | send b =>
      obtain ⟨h1, out', h2, h3⟩ := h
      exact ⟨h1, out', h2, ih _ h3⟩
    | recv =>
      obtain ⟨h1, b, inp', h2, h3⟩ := h
      exact ⟨h1, b, inp', h2, ih _ h3⟩
    | server o => exact ⟨h.1, fun r hr => ih _ (h.2 r hr)⟩
    | hangUp => exact h.elim
    | client o => exact h.elim
    | wrote r => exact h.elim
    | gotData r => exact h.elim

theorem Attends.thenHangUp {p : FlowProg C Bool} {g : SessionStage} {inp out : Bytes}
    {Q : FlowLoop → SessionStage → Bytes → Bytes → Prop}
    (h : Attends T p g inp out fun go g inp out => go = true ∧ Q .serving g inp out) :
    Attends T (thenHangUp p) g inp out Q := by
  induction p generalizing g inp out with
  | ret a =>
    unfold Goe2ee.thenHangUp
    obtain ⟨rfl, h⟩ := h
    exact h
  | panic m => exact h.elim
  | op o k ih =>
    cases o with
    | send b =>
      obtain ⟨h1, out', h2, h3⟩ := h
      exact ⟨h1, out', h2, ih _ h3⟩
    | recv =>
      obtain ⟨h1, b, inp', h2, h3⟩ := h
      exact ⟨h1, b, inp', h2, ih _ h3⟩
    | server o => exact ⟨h.1, fun r hr => ih _ (h.2 r hr)⟩
    | hangUp => exact h.elim
    | client o => exact h.elim
    | wrote r => exact h.elim
    | gotData r => exact h.elim

/-! ## The server -/

section
variable {α : Type} {g : SessionStage} {out : Bytes}

theorem attends_recvAll (xs : Bytes) (acc rest : Bytes) (hout : out ≠ []) {Q : Bytes × Bool → SessionStage → Bytes → Bytes → Prop}
    (h : Q (acc ++ xs, true) g rest out) : Attends T (recvAll xs.length acc) g (xs ++ rest) out Q := by
  induction xs generalizing acc with
  | nil => simpa [recvAll, Attends] using h
  | cons x xs ih => exact ⟨hout, x, xs ++ rest, rfl, ih (acc ++ [x]) (by simpa using h)⟩

theorem attends_readOctet (what : String) (k : Byte → RProg (Except Err α)) (b : Byte) (rest : Bytes) (hout : out ≠ [])
    {Q : Except Err α → SessionStage → Bytes → Bytes → Prop} (h : Attends T (parserFlow (k b)) g rest out Q) :
    Attends T (parserFlow (readOctet what k)) g (b :: rest) out Q := by
  show Attends T (((recvAll (Int.toNat 1) []).bind _).bind _) g ([b] ++ rest) out Q
  rw [Prog.bind_assoc]
  exact Attends.bind (attends_recvAll [b] [] rest hout h)

theorem attends_readField (n : Nat) (what : String) (k : Bytes → RProg (Except Err α)) (bs rest : Bytes)
    (hout : out ≠ []) (hn : bs.length = n) {Q : Except Err α → SessionStage → Bytes → Bytes → Prop}
    (h : Attends T (parserFlow (k bs)) g rest out Q) :
    Attends T (parserFlow (readField n what k)) g (bs ++ rest) out Q := by
  show Attends T (((recvAll n []).bind _).bind _) g (bs ++ rest) out Q
  rw [Prog.bind_assoc]
  subst hn
  exact Attends.bind (attends_recvAll bs [] rest hout h)

theorem attends_parseProcessRequest (common : RequestCommon) (flags : Byte) (id : ID) (counter : BitVec 64)
    (msg : Bytes) (hl : msg.length ≤ 2 ^ 30) (rest : Bytes) (hout : out ≠ [])
    {Q : Except Err ProcessRequest → SessionStage → Bytes → Bytes → Prop}
    (h : Q (.ok { common, expectReply := ((flags &&& 0xF0#8) >>> 7) == 1#8,
                   reserved := ((flags <<< 1) >>> 1) &&& 0xFF#8, id, counter,
                   messageSize := BitVec.ofNat 64 msg.length, message := msg }) g rest out) :
    Attends T (parserFlow (parseProcessRequest common)) g
      (flags :: (id.val ++ (beEnc 8 counter.toNat ++ (beEnc 8 msg.length ++ (msg ++ rest))))) out Q := by
  have hm : BitVec.ofNat 64 (beDec (beEnc 8 msg.length)) = BitVec.ofNat 64 msg.length := by
    rw [beDec_beEnc, Nat.mod_eq_of_lt (by omega)]
  have hn : (BitVec.ofNat 64 msg.length).toNat = msg.length := by
    rw [BitVec.toNat_ofNat, Nat.mod_eq_of_lt (by omega)]
  refine attends_readOctet _ _ _ _ hout (attends_readField _ _ _ _ _ hout id.property
    (attends_readField _ _ _ _ _ hout (beEnc_length _ _) (attends_readField _ _ _ _ _ hout (beEnc_length _ _) ?_)))
  simp only [hm, hn, maxMessageSize]
  rw [if_neg (by omega)]
  refine attends_readField _ _ _ _ _ hout rfl ?_
  rw [toID_val, ofNat_beDec_beEnc8]
  exact h

theorem attends_parseSetupRequest (hC : C.Lawful) (common : RequestCommon) (id : ID) (pk : C.EPub) (rest : Bytes)
    (hout : out ≠ []) {Q : Except Err (SetupRequest C) → SessionStage → Bytes → Bytes → Prop}
    (h : Q (.ok { common, id, publicKey := pk }) g rest out) :
    Attends T (parserFlow (parseSetupRequest C common)) g
      (id.val ++ (beEnc 4 (C.marshalEPub pk).length ++ (C.marshalEPub pk ++ rest))) out Q := by
  have hl := hC.marshalEPub_length pk
  have hn := toNat_ofNat_beDec_beEnc4 (C.marshalEPub pk).length (by omega)
  refine attends_readField _ _ _ _ _ hout id.property (attends_readField _ _ _ _ _ hout (beEnc_length _ _) ?_)
  simp only [hn, maxKeySize]
  rw [if_neg (by omega)]
  show Attends T (parserFlow (readField _ _ _)) _ _ _ _
  refine attends_readField _ _ _ _ _ hout rfl ?_
  simp only [parseEPub, hC.parse_marshalEPub, toID_val]
  exact h

theorem attends_sendAll (bs : Bytes) (n : Nat) {Q : Nat × Option Err → SessionStage → Bytes → Bytes → Prop}
    (h : Q (n + bs.length, none) g [] []) : Attends T (sendAll bs n) g [] bs Q := by
  induction bs generalizing n with
  | nil => simpa [sendAll, Attends] using h
  | cons b bs ih =>
    refine ⟨rfl, bs, rfl, ih (n + 1) ?_⟩
    simpa [Nat.add_assoc, Nat.add_comm 1] using h

theorem attends_respondWith (bs : Bytes) {Q : Option Err → SessionStage → Bytes → Bytes → Prop} (h : Q none g [] []) :
    Attends T (serverFlow (respondWith bs)) g [] bs Q := by
  show Attends T ((sendAll bs 0).bind _) g [] bs Q
  refine Attends.bind (attends_sendAll bs 0 ?_)
  simpa [serverFlow, Prog.lift, Attends] using h

theorem attends_op (o : SOp) (k : o.Ret C → SProg C α) {inp : Bytes} {Q : α → SessionStage → Bytes → Bytes → Prop}
    (ho : serverFlowOp (C := C) o = .op (.server o) .ret) (hw : Waits o ∨ (inp = [] ∧ out ≠ [] ∧ Works T g o))
    (h : ∀ r, Gives T g o r → Attends T (serverFlow (k r)) (g.next o r) inp out Q) :
    Attends T (serverFlow (.op o k)) g inp out Q := by
  show Attends T ((serverFlowOp o).bind _) g inp out Q
  rw [ho]
  exact ⟨hw, fun r hr => h r hr⟩

end

theorem attends_process (hC : C.Lawful) (hT : T.Works) (common : RequestCommon) (r0 : Ref) (top : BitVec 64)
    (counter : BitVec 64) (m n1 n2 : Bytes)
    (hm : m.length + 16 ≤ 2 ^ 30) (h1 : nonce directionClientToServer counter gcmNonceSize = .val n1)
    (h2 : nonce directionServerToClient counter gcmNonceSize = .val n2)
    {Q : Option Err → SessionStage → Bytes → Bytes → Prop} (h : Q none (.kept r0 counter) [] []) :
    Attends T (serverFlow (processHandler (inMemory C) (.ok T.host) common)) (.asked r0 counter top)
      (0x80#8 :: (T.id.val ++ (beEnc 8 counter.toNat ++ (beEnc 8 (C.aeadSeal T.gcm n1 m).length ++ C.aeadSeal T.gcm n1 m))))
      (newProcessResponse counter (C.aeadSeal T.gcm n2 (T.f m))).bytes Q := by
  have hlen : (C.aeadSeal T.gcm n1 m).length ≤ 2 ^ 30 := by rw [hC.seal_length]; exact hm
  obtain ⟨key, hk1, hk2⟩ := newGCM_ok hC T.secret
  have hkey : key = T.gcm := by have hgcm := hT.gcm; rw [hk2] at hgcm; exact Except.ok.inj hgcm
  subst hkey
  obtain ⟨key', hk1', -, hk3, hk4⟩ := C55_aead_key C hC T.secret
  obtain rfl : key' = T.gcm := by rw [hk1'] at hk1; exact Except.ok.inj hk1
  have hout : (newProcessResponse counter (C.aeadSeal T.gcm n2 (T.f m))).bytes ≠ [] := by
    simp [ProcessResponse.bytes, newProcessResponse, ResponseCommon.bytes]
  generalize hresp : (newProcessResponse counter (C.aeadSeal T.gcm n2 (T.f m))).bytes = resp at hout
  rw [processHandler, serverFlow_bind, serverFlow_onConn]
  apply Attends.bind
  generalize hsealed : C.aeadSeal T.gcm n1 m = sealed at hlen ⊢
  rw [show 0x80#8 :: (T.id.val ++ (beEnc 8 counter.toNat ++ (beEnc 8 sealed.length ++ sealed))) =
    0x80#8 :: (T.id.val ++ (beEnc 8 counter.toNat ++ (beEnc 8 sealed.length ++ (sealed ++ [])))) by simp]
  refine attends_parseProcessRequest common _ T.id counter sealed hlen [] hout ?_
  simp only []
  rw [serverFlow_bind]
  apply Attends.bind
  refine attends_op _ _ rfl (.inr ⟨rfl, hout, rfl, _, _, _, rfl⟩) fun (loaded : Option (Ref × Nat)) hl => ?_
  obtain ⟨t, rfl⟩ := hl _ _ _ rfl
  refine attends_op _ _ rfl (.inr ⟨rfl, hout, trivial⟩) fun t _ => ?_
  refine attends_op _ _ rfl (.inr ⟨rfl, hout, rfl, .inr ⟨_, _, rfl⟩⟩) fun _ _ => ?_
  refine attends_op _ _ rfl (.inr ⟨rfl, hout, _, rfl⟩) fun (fresh : Bool) ⟨(hf : fresh = true), _⟩ => ?_
  subst hf
  rw [if_pos rfl]
  refine attends_op _ _ rfl (.inr ⟨rfl, hout, _, rfl⟩) fun (s : Bytes) ⟨(hs : s = T.secret), _⟩ => ?_
  subst hs
  simp only [hk1', hk3, hk4, h1, ofRes, Prog.bind, ← hsealed, hC.open_seal]
  refine attends_op _ _ rfl (.inr ⟨rfl, hout, rfl⟩) fun (handled : HRes) ⟨(hh : handled = .reply (T.f m)), _⟩ => ?_
  subst hh
  simp only []
  rw [if_pos (by decide)]
  simp only [h2, ofRes, Prog.bind]
  refine attends_op _ _ rfl (.inr ⟨rfl, hout, trivial⟩) fun (sealed : Bytes) ⟨hs, _⟩ => ?_
  have hs : sealed = C.aeadSeal T.gcm n2 (T.f m) := hs
  subst hs
  rw [← hresp]
  exact attends_respondWith _ h

theorem attends_setup (hC : C.Lawful) (hT : T.Works) (common : RequestCommon)
    {Q : Option Err → SessionStage → Bytes → Bytes → Prop} (h : ∀ r, Q none (.kept r 0) [] []) :
    Attends T (serverFlow (setupHandler (inMemory C) (.ok T.host) common)) .settingUp
      (T.id.val ++ (beEnc 4 (C.marshalEPub (C.epub T.clientKey)).length ++ (C.marshalEPub (C.epub T.clientKey) ++ [])))
      (dialResponse C T.serverKey T.signature) Q := by
  have hout : dialResponse C T.serverKey T.signature ≠ [] := by rw [dialResponse_eq _ _ hT.short.1]; simp
  rw [setupHandler, serverFlow_bind, serverFlow_onConn]
  apply Attends.bind
  refine attends_parseSetupRequest hC _ T.id _ _ hout ?_
  refine attends_op _ _ rfl (.inr ⟨rfl, hout, trivial⟩) fun (generated : Except Err C.EPriv) ⟨_, (hg : generated = .ok T.serverKey)⟩ => ?_
  subst hg
  simp only [hT.agreed]
  refine attends_op _ _ rfl (.inr ⟨rfl, hout, rfl, rfl⟩) fun (session : Ref) _ => ?_
  refine attends_op _ _ rfl (.inr ⟨rfl, hout, trivial⟩) fun (t : Nat) _ => ?_
  refine attends_op _ _ rfl (.inr ⟨rfl, hout, rfl, .inl rfl⟩) fun _ _ => ?_
  refine attends_op _ _ rfl (.inr ⟨rfl, hout, trivial⟩) fun (signed : Except Err Bytes) ⟨_, (hs : signed = T.signer _ _)⟩ => ?_
  rw [hT.signed] at hs
  subst hs
  show Attends T (serverFlow (respondWith (dialResponse C T.serverKey T.signature))) _ _ _ _
  exact attends_respondWith _ (h session)

theorem attends_pass (hC : C.Lawful) (hT : T.Works) {g0 g : SessionStage} {req reply : Bytes} (h : Asked T g0 g req reply) :
    Attends T (serverPass (inMemory C) (.ok T.host)) g req reply (Rests T) := by
  have hne := (asked_ne hT.short.1 h).2
  apply Attends.thenHangUp
  refine attends_op _ _ rfl (.inl trivial) fun (closed : Bool) ⟨(hcl : closed = false), _⟩ => ?_
  subst hcl
  rw [if_neg (by simp)]
  refine attends_op _ _ rfl (.inl trivial) fun _ _ => ?_
  rw [waits_next (C := C) (o := .setDeadlines) trivial, show g.next (C := C) SOp.quitClosed (false : Bool) = g by cases g <;> rfl]
  rw [serveRequest, serverFlow_bind, serverFlow_onConn]
  rcases h with ⟨rfl, rfl, rfl, rfl⟩ | ⟨r, top, counter, m, rfl, rfl, hm, n1, n2, h1, h2, rfl, rfl⟩
  · rw [dialRequest_eq]
    refine Attends.bind (attends_readOctet _ _ _ _ hne ?_)
    show Attends T (serverFlow (if ((0x12#8 &&& 0xF0#8) >>> 4 : Byte) ≠ version1 then _ else _)) _ _ _ _
    rw [if_neg (by decide), serverFlow_bind]
    apply Attends.bind
    rw [handle, if_neg (by decide), if_pos (by decide)]
    exact attends_setup hC hT _ fun r => ⟨rfl, rfl, .inl ⟨rfl, rfl, trivial⟩⟩
  · have hlen : (C.aeadSeal T.gcm n1 m).length ≤ 2 ^ 30 := by rw [hC.seal_length]; exact hm
    have hb : (newProcessRequest T.id counter (C.aeadSeal T.gcm n1 m) true).bytes = 0x13#8 :: 0x80#8 ::
        (T.id.val ++ (beEnc 8 counter.toNat ++ (beEnc 8 (C.aeadSeal T.gcm n1 m).length ++ C.aeadSeal T.gcm n1 m))) := by
      simp [ProcessRequest.bytes, newProcessRequest, RequestCommon.bytes, version1, actionProcess,
        Nat.mod_eq_of_lt (show (C.aeadSeal T.gcm n1 m).length < 18446744073709551616 by omega)]
    rw [hb]
    refine Attends.bind (attends_readOctet _ _ _ _ hne ?_)
    show Attends T (serverFlow (if ((0x13#8 &&& 0xF0#8) >>> 4 : Byte) ≠ version1 then _ else _)) _ _ _ _
    rw [if_neg (by decide), serverFlow_bind]
    apply Attends.bind
    rw [handle, if_neg (by decide), if_neg (by decide), if_pos (by decide)]
    exact attends_process hC hT _ r top counter m n1 n2 hm h1 h2 ⟨rfl, rfl, .inl ⟨rfl, rfl, trivial⟩⟩

/-- What a step of the server changes. -/
def stageAfter (env : FlowEnv C) (g : SessionStage) : FlowProg C FlowLoop → SessionStage
  | .op (.server o) _ => g.next o (serverAnswer env o)
  | _ => g

/-- The next effect of the server is one of those that the proof knows. -/
def Fine (T : Terms C) (g : SessionStage) (p : FlowProg C FlowLoop) : Prop :=
  match p with
  | .op (.server o) _ => Waits o ∨ Works T g o
  | .op .hangUp _ => False
  | .op (.client _) _ => False
  | _ => True

/-- Between two requests. -/
theorem Attends.extend {p : FlowProg C FlowLoop} {g g' : SessionStage} (h : Attends T p g [] [] (Rests T)) {req reply : Bytes}
    (hq : Asked T g g' req reply) : Attends T p g' req reply (Rests T) := by
  induction p with
  | ret l => exact ⟨h.1, .inr ⟨g, hq⟩⟩
  | panic m => exact h
  | op o k ih =>
    cases o with
    | send b => obtain ⟨-, out', h, -⟩ := h; cases h
    | recv => exact (h.1 rfl).elim
    | hangUp => exact h
    | server o =>
      obtain ⟨h1 | h1, h2⟩ := h
      · refine ⟨.inl h1, fun r hr => ?_⟩
        rw [waits_next h1]
        have hg : Gives T g o r := by
          cases o <;> first | exact h1.elim | exact hr
        have := h2 r hg
        rw [waits_next h1] at this
        exact ih _ this
      · exact (h1.2.1 rfl).elim
    | client o => exact h
    | wrote r => exact h
    | gotData r => exact h

/-- Once the reply was sent, the request was read. -/
theorem Attends.over (hs : 0 < T.signature.length) {p : FlowProg C FlowLoop} {g : SessionStage} {inp : Bytes}
    (h : Attends T p g inp [] (Rests T)) : inp = [] ∧ Settled g := by
  induction p generalizing inp with
  | ret l =>
    obtain ⟨-, h | ⟨g0, h⟩⟩ := h
    · exact ⟨h.1, h.2.2⟩
    · exact ((asked_ne hs h).2 rfl).elim
  | panic m => exact h.elim
  | op o k ih =>
    cases o with
    | send b => obtain ⟨-, out', h, -⟩ := h; cases h
    | recv => exact (h.1 rfl).elim
    | hangUp => exact h.elim
    | server o =>
      obtain ⟨h1 | h1, h2⟩ := h
      · obtain ⟨r, hr⟩ := waits_gives (T := T) h1
        have := h2 r (hr g)
        rw [waits_next h1] at this
        exact ih _ this
      · exact (h1.2.1 rfl).elim
    | client o => exact h.elim
    | wrote r => exact h.elim
    | gotData r => exact h.elim

theorem Stands.over (hs : 0 < T.signature.length) {p : FlowProg C FlowLoop} {g : SessionStage} {inp : Bytes}
    (h : Stands T p g inp []) : inp = [] ∧ Settled g := by
  rcases h with h | ⟨h1, -, h2, -⟩
  · exact h.over hs
  · exact ⟨h1, h2⟩

theorem Stands.asked (hs : 0 < T.signature.length) {p : FlowProg C FlowLoop} {g g' : SessionStage} {inp req reply : Bytes}
    (h : Stands T p g inp []) (ha : Asked T g g' req reply) : Stands T p g' req reply := by
  have hi := (h.over hs).1
  subst hi
  rcases h with h | ⟨-, -, -, h⟩
  · exact .inl (h.extend ha)
  · exact .inl (h _ _ _ ha)

theorem Stands.fine (hs : 0 < T.signature.length) {p : FlowProg C FlowLoop} {g : SessionStage} {inp out : Bytes}
    (h : Stands T p g inp out) : Fine T g p := by
  rcases h with h | ⟨-, -, h2, h⟩
  · cases p with
    | ret l => trivial
    | panic m => trivial
    | op o k =>
      cases o with
      | server o => exact h.1.imp id fun h => h.2.2
      | hangUp => exact h
      | send b => trivial
      | recv => trivial
      | client o => exact h
      | wrote r => trivial
      | gotData r => trivial
  · obtain ⟨g', req, reply, ha⟩ := exists_asked T h2
    have h := h _ _ _ ha
    cases p with
    | ret l => trivial
    | panic m => trivial
    | op o k =>
      cases o with
      | server o => exact .inl (h.1.resolve_right fun h => (asked_ne hs ha).1 h.1)
      | hangUp => exact h
      | send b => trivial
      | recv => trivial
      | client o => exact h
      | wrote r => trivial
      | gotData r => trivial

/-- A step of the server. -/
theorem stands_turn (hC : C.Lawful) (hT : T.Works) {roomUp roomDown : Nat} {env : FlowEnv C} {p : FlowProg C FlowLoop}
    {g : SessionStage} {w : FlowWorld} {todo out : Bytes} (h : Stands T p g (w.up ++ todo) out)
    (henv : ∀ o k, p = .op (.server o) k → Gives T g o (serverAnswer env o)) :
    ∃ up down out', (turn (inMemory C) (.ok T.host) roomUp roomDown env 1 p w).2 = { w with up, down } ∧
      down ++ out' = w.down ++ out ∧
      Stands T (turn (inMemory C) (.ok T.host) roomUp roomDown env 1 p w).1 (stageAfter env g p) (up ++ todo) out' := by
  have hpass : ∀ g g' req reply, Asked T g g' req reply →
      Attends T (serverPass (inMemory C) (.ok T.host)) g' req reply (Rests T) :=
    fun g g' req reply h => attends_pass hC hT h
  rcases h with h | ⟨h1, h2, h3, h⟩
  · cases p with
    | ret l =>
      obtain ⟨rfl, ⟨h1, h2, h3⟩ | ⟨g0, hq'⟩⟩ := h
      · exact ⟨w.up, w.down, out, rfl, rfl, .inr ⟨h1, h2, h3, hpass _⟩⟩
      · exact ⟨w.up, w.down, out, rfl, rfl, .inl (hpass _ _ _ _ hq')⟩
    | panic e => exact h.elim
    | op op k =>
      cases op with
      | send b =>
        by_cases hd : w.down.length < roomDown
        · rw [turn_server_send hd]
          obtain ⟨h1, out', rfl, h3⟩ := h
          exact ⟨w.up, w.down ++ [b], out', rfl, by simp, .inl (h1 ▸ h3)⟩
        · rw [turn_server_full hd]
          exact ⟨w.up, w.down, out, rfl, rfl, .inl h⟩
      | recv =>
        cases hw : w.up with
        | nil =>
          rw [turn_server_empty hw]
          rw [hw] at h
          exact ⟨[], w.down, out, by rw [← hw], rfl, .inl h⟩
        | cons b up =>
          rw [turn_server_recv hw]
          obtain ⟨h1, b', rest, h2, h3⟩ := h
          rw [hw, List.cons_append] at h2
          obtain ⟨rfl, rfl⟩ := List.cons.inj h2
          exact ⟨up, w.down, out, rfl, rfl, .inl h3⟩
      | hangUp => exact h.elim
      | server so => exact ⟨w.up, w.down, out, rfl, rfl, .inl (h.2 _ (henv so k rfl))⟩
      | client so => exact h.elim
      | wrote r => exact h.elim
      | gotData r => exact h.elim
  · obtain ⟨g', req, reply, hq⟩ := exists_asked T h3
    have hne := asked_ne hT.short.1 hq
    cases p with
    | ret l =>
      obtain ⟨rfl, -⟩ := h _ _ _ hq
      exact ⟨w.up, w.down, out, rfl, rfl, .inr ⟨h1, h2, h3, hpass _⟩⟩
    | panic e => exact (h _ _ _ hq).elim
    | op op k =>
      cases op with
      | send b => exact (hne.1 (h _ _ _ hq).1).elim
      | recv =>
        rw [turn_server_empty (List.append_eq_nil_iff.mp h1).1]
        exact ⟨w.up, w.down, out, rfl, rfl, .inr ⟨h1, h2, h3, h⟩⟩
      | hangUp => exact (h _ _ _ hq).elim
      | server so =>
        have hw : Waits so := (h _ _ _ hq).1.resolve_right fun h => hne.1 h.1
        have hg := henv so k rfl
        refine ⟨w.up, w.down, out, rfl, rfl, .inr ⟨h1, h2, ?_, fun g' req reply hq => ?_⟩⟩
        · show Settled (g.next so _)
          rw [waits_next hw]
          exact h3
        · have hg' : Gives T g' so (serverAnswer env so) := by
            cases so <;> first | exact hw.elim | exact hg
          have hq : Asked T g g' req reply := by
            rw [show stageAfter env g (.op (.server so) k) = g from waits_next hw _] at hq
            exact hq
          have := (h _ _ _ hq).2 _ hg'
          rw [waits_next hw] at this
          exact this
      | client so => exact (h _ _ _ hq).elim
      | wrote r => exact (h _ _ _ hq).elim
      | gotData r => exact (h _ _ _ hq).elim

end

end Goe2ee
