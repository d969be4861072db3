import Verif.Proofs.FlowContent
import Verif.Proofs.Handshake

/-!
# The handshake over a connection of bounded capacity

`Replies A p inp out Q`: the server reads exactly `inp`, then sends exactly `out`, and nothing else happens after the last
octet.  `Opens B R q todo inp`: the client sends exactly `todo`, then reads exactly `inp`, and then goes on as `R` says.
-/

set_option autoImplicit false

namespace Goe2ee

section
variable {C : Crypto}

/-- What the server's effects return during an honest handshake. -/
def SetupRet (serverKey : C.EPriv) (signer : Nat → Bytes → Except Err Bytes) : (o : SOp) → o.Ret C → Prop
  | .quitClosed, (r : Bool) => r = false
  | .genKey, (r : Except Err C.EPriv) => r = .ok serverKey
  | .sign hash content, (r : Except Err Bytes) => r = signer hash content
  | _, _ => True

/-- What the client's effects return. -/
def DialRet (hostname : Bytes) (key : PublicKey) (random : ID) (clientKey : C.EPriv) : (o : COp) → o.Ret C → Prop
  | .connect, (r : Option Err) => r = none
  | .setKeepAlive, (r : Option Err) => r = none
  | .fetch h, (r : Except Err PublicKey) => h = hostname → r = .ok key
  | .random, (r : Except Err ID) => r = .ok random
  | .genKey, (r : Except Err C.EPriv) => r = .ok clientKey
  | _, _ => True

section
variable (A : (o : SOp) → o.Ret C → Prop)

/-- See above. -/
def Replies {α : Type} : FlowProg C α → (inp out : Bytes) → (α → Prop) → Prop
  | .op (.send b) k, inp, out, Q => inp = [] ∧ ((out = [b] ∧ ∃ a, k true = .ret a ∧ Q a) ∨
      ∃ b' out', out = b :: b' :: out' ∧ Replies (k true) [] (b' :: out') Q)
  | .op .recv k, inp, out, Q => ∃ b inp', inp = b :: inp' ∧ Replies (k (some b)) inp' out Q
  | .op (.server o) k, inp, out, Q => ∀ r, A o r → Replies (k r) inp out Q
  | _, _, _, _ => False

variable (B : (o : COp) → o.Ret C → Prop) (R : FlowProg C FlowLoop → Prop)

/-- See above. -/
def Opens : FlowProg C FlowLoop → (todo inp : Bytes) → Prop
  | .op (.send b) k, todo, inp => (todo = [] ∧ inp = [] ∧ R (.op (.send b) k)) ∨
      ∃ todo', todo = b :: todo' ∧ Opens (k true) todo' inp
  | .op .recv k, todo, inp => (todo = [] ∧ inp = [] ∧ R (.op .recv k)) ∨
      (todo = [] ∧ ∃ b inp', inp = b :: inp' ∧ Opens (k (some b)) [] inp')
  | .op (.client o) k, todo, inp => (todo = [] ∧ inp = [] ∧ R (.op (.client o) k)) ∨
      ∀ r, B o r → Opens (k r) todo inp
  | p, todo, inp => todo = [] ∧ inp = [] ∧ R p

end

variable {A : (o : SOp) → o.Ret C → Prop} {B : (o : COp) → o.Ret C → Prop} {R : FlowProg C FlowLoop → Prop}

theorem Opens.done {q : FlowProg C FlowLoop} (h : R q) : Opens B R q [] [] := by
  cases q with
  | ret a => exact ⟨rfl, rfl, h⟩
  | panic m => exact ⟨rfl, rfl, h⟩
  | op o k =>
    cases o with
    | send b => exact .inl ⟨rfl, rfl, h⟩
    | recv => exact .inl ⟨rfl, rfl, h⟩
    | hangUp => exact ⟨rfl, rfl, h⟩
    | server o => exact ⟨rfl, rfl, h⟩
    | client o => exact .inl ⟨rfl, rfl, h⟩
    | wrote r => exact ⟨rfl, rfl, h⟩
    | gotData r => exact ⟨rfl, rfl, h⟩

/-! ## The server -/

theorem Replies.map {α β : Type} {p : FlowProg C α} {g : α → FlowProg C β} {inp out : Bytes} {Q : α → Prop} {Q' : β → Prop}
    (h : Replies A p inp out Q) (hg : ∀ a, Q a → ∃ b, g a = .ret b ∧ Q' b) : Replies A (p.bind g) inp out Q' := by
  induction p generalizing inp out with
  | ret a => exact h.elim
  | panic m => exact h.elim
  | op o k ih =>
    cases o with
    | send b =>
      obtain ⟨h1, ⟨h2, a, h3, h4⟩ | ⟨b', out', h2, h3⟩⟩ := h
      · obtain ⟨b', hb, hQ⟩ := hg a h4
        refine ⟨h1, .inl ⟨h2, b', ?_, hQ⟩⟩
        show (k true).bind g = _
        rw [h3]
        exact hb
      · exact ⟨h1, .inr ⟨b', out', h2, ih _ h3⟩⟩
    | recv =>
      obtain ⟨b, inp', h2, h3⟩ := h
      exact ⟨b, inp', h2, ih _ h3⟩
    | hangUp => exact h.elim
    | server o => exact fun r hr => ih _ (h r hr)
    | client o => exact h.elim
    | wrote r => exact h.elim
    | gotData r => exact h.elim

theorem Replies.thenHangUp {p : FlowProg C Bool} {inp out : Bytes} (h : Replies A p inp out (· = true)) :
    Replies A (thenHangUp p) inp out (· = .serving) := by
  induction p generalizing inp out with
  | ret a => exact h.elim
  | panic m => exact h.elim
  | op o k ih =>
    cases o with
    | send b =>
      obtain ⟨h1, ⟨h2, a, h3, rfl⟩ | ⟨b', out', h2, h3⟩⟩ := h
      · refine ⟨h1, .inl ⟨h2, .serving, ?_, rfl⟩⟩
        show Goe2ee.thenHangUp (k true) = _
        rw [h3]
        rfl
      · exact ⟨h1, .inr ⟨b', out', h2, ih _ h3⟩⟩
    | recv =>
      obtain ⟨b, inp', h2, h3⟩ := h
      exact ⟨b, inp', h2, ih _ h3⟩
    | hangUp => exact h.elim
    | server o => exact fun r hr => ih _ (h r hr)
    | client o => exact h.elim
    | wrote r => exact h.elim
    | gotData r => exact h.elim

section
variable {α β : Type} {Q : β → Prop} {out : Bytes}

theorem replies_recvAll (xs : Bytes) (acc rest : Bytes) {g : Bytes × Bool → FlowProg C β}
    (h : Replies A (g (acc ++ xs, true)) rest out Q) :
    Replies A ((recvAll xs.length acc).bind g) (xs ++ rest) out Q := by
  induction xs generalizing acc with
  | nil => simpa [recvAll] using h
  | cons x xs ih => exact ⟨x, xs ++ rest, rfl, ih (acc ++ [x]) (by simpa using h)⟩

theorem replies_readOctet {g : Except Err α → FlowProg C β} (what : String) (k : Byte → RProg (Except Err α)) (b : Byte)
    (rest : Bytes) (h : Replies A ((parserFlow (k b)).bind g) rest out Q) :
    Replies A ((parserFlow (readOctet what k)).bind g) (b :: rest) out Q := by
  show Replies A ((((recvAll (Int.toNat 1) []).bind _).bind _).bind _) ([b] ++ rest) out Q
  rw [Prog.bind_assoc, Prog.bind_assoc]
  exact replies_recvAll [b] [] rest h

theorem replies_readField {g : Except Err α → FlowProg C β} (n : Nat) (what : String) (k : Bytes → RProg (Except Err α))
    (bs rest : Bytes) (hn : bs.length = n) (h : Replies A ((parserFlow (k bs)).bind g) rest out Q) :
    Replies A ((parserFlow (readField n what k)).bind g) (bs ++ rest) out Q := by
  show Replies A ((((recvAll n []).bind _).bind _).bind _) (bs ++ rest) out Q
  rw [Prog.bind_assoc, Prog.bind_assoc]
  subst hn
  exact replies_recvAll bs [] rest h

theorem replies_parseSetupRequest (hC : C.Lawful) (common : RequestCommon) (id : ID) (pk : C.EPub) (rest : Bytes)
    {g : Except Err (SetupRequest C) → FlowProg C β}
    (h : Replies A (g (.ok { common, id, publicKey := pk })) rest out Q) :
    Replies A ((parserFlow (parseSetupRequest C common)).bind g)
      (id.val ++ (beEnc 4 (C.marshalEPub pk).length ++ (C.marshalEPub pk ++ rest))) out Q := by
  have hl := hC.marshalEPub_length pk
  have hn := toNat_ofNat_beDec_beEnc4 (C.marshalEPub pk).length (by omega)
  refine replies_readField _ _ _ _ _ id.property (replies_readField _ _ _ _ _ (beEnc_length _ _) ?_)
  simp only [hn, maxKeySize]
  rw [if_neg (by omega)]
  show Replies A ((parserFlow (readField _ _ _)).bind g) _ _ _
  refine replies_readField _ _ _ _ _ rfl ?_
  simp only [parseEPub, hC.parse_marshalEPub, toID_val]
  exact h

theorem replies_sendAll {γ : Type} {Q : γ → Prop} {g : Nat × Option Err → FlowProg C γ} (b : Byte) (bs : Bytes) (n : Nat)
    (h : ∃ c, g (n + (bs.length + 1), none) = .ret c ∧ Q c) : Replies A ((sendAll (b :: bs) n).bind g) [] (b :: bs) Q := by
  induction bs generalizing b n with
  | nil =>
    refine ⟨rfl, .inl ⟨rfl, ?_⟩⟩
    exact h
  | cons b' bs ih =>
    refine ⟨rfl, .inr ⟨b', bs, rfl, ih b' (n + 1) ?_⟩⟩
    simpa [Nat.add_assoc, Nat.add_comm 1] using h

theorem replies_respondWith (bs : Bytes) (hne : bs ≠ []) :
    Replies A (serverFlow (respondWith (C := C) bs)) [] bs (· = none) := by
  cases bs with
  | nil => exact (hne rfl).elim
  | cons b bs =>
    show Replies A ((sendAll (b :: bs) 0).bind _) [] (b :: bs) _
    refine replies_sendAll b bs 0 ⟨none, ?_, rfl⟩
    simp [Prog.lift]

theorem replies_op (o : SOp) (k : o.Ret C → SProg C β) {inp : Bytes}
    (ho : serverFlowOp (C := C) o = .op (.server o) .ret)
    (h : ∀ r, A o r → Replies A (serverFlow (k r)) inp out Q) :
    Replies A (serverFlow (.op o k)) inp out Q := by
  show Replies A ((serverFlowOp o).bind _) inp out Q
  rw [ho]
  exact fun r hr => h r hr

end

/-- The octets of the setup request and of the response to it. -/
def dialRequest (C : Crypto) (id : ID) (clientKey : C.EPriv) : Bytes := (newSetupRequest C id (C.epub clientKey)).bytes

def dialResponse (C : Crypto) (serverKey : C.EPriv) (signature : Bytes) : Bytes :=
  ((newSetupResponse C (C.epub serverKey)).setSignature 4 signature).bytes

theorem dialRequest_eq (id : ID) (clientKey : C.EPriv) : dialRequest C id clientKey =
    0x12#8 :: (id.val ++ (beEnc 4 (C.marshalEPub (C.epub clientKey)).length ++ (C.marshalEPub (C.epub clientKey) ++ []))) := by
  simp [dialRequest, SetupRequest.bytes, newSetupRequest, RequestCommon.bytes, version1, actionSetup]

theorem dialResponse_eq (serverKey : C.EPriv) (signature : Bytes) (hs : 0 < signature.length) :
    dialResponse C serverKey signature = 0x80#8 :: (beEnc 4 (C.marshalEPub (C.epub serverKey)).length ++
      (C.marshalEPub (C.epub serverKey) ++ ([4#8] ++ (beEnc 4 signature.length ++ (signature ++ []))))) := by
  simp [dialResponse, SetupResponse.bytes, newSetupResponse, SetupResponse.setSignature, ResponseCommon.bytes, hs]

section
variable {serverKey clientKey : C.EPriv} {signer : Nat → Bytes → Except Err Bytes} {id : ID} {signature secret : Bytes}

theorem replies_serverPass (hC : C.Lawful) (host : Bytes) (hsig0 : 0 < signature.length)
    (he : C.ecdh serverKey (C.epub clientKey) = .ok secret)
    (hsig : signer cryptoSHA512 (setupTranscript C (C.epub clientKey) (C.epub serverKey) id) = .ok signature) :
    Replies (SetupRet serverKey signer) (serverPass (inMemory C) (.ok host)) (dialRequest C id clientKey)
      (dialResponse C serverKey signature) (· = .serving) := by
  apply Replies.thenHangUp
  refine replies_op _ _ rfl fun (closed : Bool) (hcl : closed = false) => ?_
  subst hcl
  rw [if_neg (by simp)]
  refine replies_op _ _ rfl fun _ _ => ?_
  rw [serveRequest, serverFlow_bind, serverFlow_onConn, dialRequest_eq]
  refine replies_readOctet _ _ _ _ ?_
  show Replies _ (serverFlow (if ((0x12#8 &&& 0xF0#8) >>> 4 : Byte) ≠ version1 then _ else _)) _ _ _
  rw [if_neg (by decide), serverFlow_bind]
  refine Replies.map (Q := (· = none)) ?_ (fun a ha => ?_)
  · rw [handle, if_neg (by decide), if_pos (by decide), setupHandler, serverFlow_bind, serverFlow_onConn]
    refine replies_parseSetupRequest hC _ id _ _ ?_
    refine replies_op _ _ rfl fun (generated : Except Err C.EPriv) (hg : generated = .ok serverKey) => ?_
    subst hg
    simp only [he]
    refine replies_op _ _ rfl fun (session : Ref) _ => ?_
    refine replies_op _ _ rfl fun (t : Nat) _ => ?_
    refine replies_op _ _ rfl fun _ _ => ?_
    refine replies_op _ _ rfl fun (signed : Except Err Bytes) (hs : signed = signer _ _) => ?_
    rw [hsig] at hs
    subst hs
    show Replies _ (serverFlow (respondWith (dialResponse C serverKey signature))) _ _ _
    exact replies_respondWith _ (by rw [dialResponse_eq _ _ hsig0]; simp)
  · subst ha
    exact ⟨true, rfl, rfl⟩

/-! ## The client -/

section
variable {α : Type} {todo inp : Bytes}

theorem opens_sendAll {g : Nat × Option Err → FlowProg C FlowLoop} (bs : Bytes) (n : Nat)
    (h : Opens B R (g (n + bs.length, none)) [] inp) : Opens B R ((sendAll bs n).bind g) bs inp := by
  induction bs generalizing n with
  | nil => simpa [sendAll] using h
  | cons b bs ih =>
    refine .inr ⟨bs, rfl, ih (n + 1) ?_⟩
    simpa [Nat.add_assoc, Nat.add_comm 1] using h

theorem opens_recvAll (xs : Bytes) (acc rest : Bytes) {g : Bytes × Bool → FlowProg C FlowLoop}
    (h : Opens B R (g (acc ++ xs, true)) [] rest) :
    Opens B R ((recvAll xs.length acc).bind g) [] (xs ++ rest) := by
  induction xs generalizing acc with
  | nil => simpa [recvAll] using h
  | cons x xs ih => exact .inr ⟨rfl, x, xs ++ rest, rfl, ih (acc ++ [x]) (by simpa using h)⟩

theorem opens_readOctet {g : Except Err α → FlowProg C FlowLoop} (what : String) (k : Byte → RProg (Except Err α)) (b : Byte)
    (rest : Bytes) (h : Opens B R ((parserFlow (k b)).bind g) [] rest) :
    Opens B R ((parserFlow (readOctet what k)).bind g) [] (b :: rest) := by
  show Opens B R ((((recvAll (Int.toNat 1) []).bind _).bind _).bind _) [] ([b] ++ rest)
  rw [Prog.bind_assoc, Prog.bind_assoc]
  exact opens_recvAll [b] [] rest h

theorem opens_readField {g : Except Err α → FlowProg C FlowLoop} (n : Nat) (what : String) (k : Bytes → RProg (Except Err α))
    (bs rest : Bytes) (hn : bs.length = n) (h : Opens B R ((parserFlow (k bs)).bind g) [] rest) :
    Opens B R ((parserFlow (readField n what k)).bind g) [] (bs ++ rest) := by
  show Opens B R ((((recvAll n []).bind _).bind _).bind _) [] (bs ++ rest)
  rw [Prog.bind_assoc, Prog.bind_assoc]
  subst hn
  exact opens_recvAll bs [] rest h

theorem opens_parseSetupResponse (hC : C.Lawful) (common : ResponseCommon) (pk : C.EPub) (hash : Byte) (sig rest : Bytes)
    (hs : sig.length ≤ 65536) {g : Except Err (SetupResponse C) → FlowProg C FlowLoop}
    (h : Opens B R (g (.ok { common, publicKey := pk, hashType := hash, signature := sig })) [] rest) :
    Opens B R ((parserFlow (parseSetupResponse C common)).bind g) []
      (beEnc 4 (C.marshalEPub pk).length ++ (C.marshalEPub pk ++ ([hash] ++ (beEnc 4 sig.length ++ (sig ++ rest))))) := by
  have hl := hC.marshalEPub_length pk
  have hn := toNat_ofNat_beDec_beEnc4 (C.marshalEPub pk).length (by omega)
  have hn2 := toNat_ofNat_beDec_beEnc4 sig.length (by omega)
  refine opens_readField _ _ _ _ _ (beEnc_length _ _) ?_
  simp only [hn, maxKeySize, maxSignatureSize]
  rw [if_neg (by omega)]
  show Opens B R ((parserFlow (readField _ _ _)).bind g) _ _
  refine opens_readField _ _ _ _ _ rfl ?_
  simp only [parseEPub, hC.parse_marshalEPub]
  refine opens_readField _ _ _ _ _ rfl (opens_readField _ _ _ _ _ (beEnc_length _ _) ?_)
  simp only [hn2]
  rw [if_neg (by omega)]
  show Opens B R ((parserFlow (readField _ _ _)).bind g) _ _
  refine opens_readField _ _ _ _ _ rfl ?_
  rw [beDec_singleton]
  exact h

end

/-- The client after a dial. -/
def dialled (hostname : Bytes) (options : ClientOptions) (secret : Bytes) (id : ID) (sendCounter : Nat) : Client :=
  { newClient (.ok hostname) options with session := some { secret, id, sendCounter } }

/-- The application goes on after the dial. -/
def AfterDial (hostname : Bytes) (options : ClientOptions) (msgs : List Bytes) (secret : Bytes) (id : ID)
    (q : FlowProg C FlowLoop) : Prop :=
  ∃ n, q = exchangeAll (dialled hostname options secret id n) msgs

/-- A dial, and what the application does with its result. -/
theorem opens_dialTCP (hC : C.Lawful) (hostname : Bytes) (options : ClientOptions) (key : PublicKey) (random : ID)
    (g : Except Err Client → FlowProg C FlowLoop) (hB : ∀ o r, B o r → DialRet hostname key random clientKey o r)
    (hsig0 : 0 < signature.length) (hsig1 : signature.length ≤ 65536)
    (he : C.ecdh clientKey (C.epub serverKey) = .ok secret)
    (hv : verifySignature C key 7 (setupTranscript C (C.epub clientKey) (C.epub serverKey) (uuidOf random)) signature =
      .val (.ok true)) :
    Opens B (fun q => ∃ n, q = g (.ok (dialled hostname options secret (uuidOf random) n)))
      ((clientFlow (dialTCP (.ok hostname) options)).bind g) (dialRequest C (uuidOf random) clientKey)
      (dialResponse C serverKey signature) := by
  unfold dialTCP
  refine .inr fun (r : Option Err) hr => ?_
  obtain rfl : r = none := hB _ _ hr
  refine .inr fun (r : Option Err) hr => ?_
  obtain rfl : r = none := hB _ _ hr
  show Opens _ _ (Prog.bind (clientFlow (handshakeOrClose _)) _) _ _
  rw [handshakeOrClose, clientFlow_bind, Prog.bind_assoc]
  refine .inr fun (r : Except Err PublicKey) hr => ?_
  obtain rfl : r = .ok key := hB _ _ hr rfl
  refine .inr fun (r : Except Err ID) hr => ?_
  obtain rfl : r = .ok random := hB _ _ hr
  refine .inr fun (r : Except Err C.EPriv) hr => ?_
  obtain rfl : r = .ok clientKey := hB _ _ hr
  refine Eq.mpr (congrArg (Opens _ _ · _ _) (Prog.bind_assoc (S := FlowSig C) (sendAll (dialRequest C (uuidOf random) clientKey) 0) _ _)) ?_
  refine opens_sendAll _ 0 ?_
  rw [Nat.zero_add]
  show Opens _ _ (Prog.bind (clientFlow (if _ ≠ (dialRequest C (uuidOf random) clientKey).length then _ else _)) _) _ _
  rw [if_neg (by simp), clientFlow_bind, Prog.bind_assoc, clientFlow_onConn, dialResponse_eq _ _ hsig0]
  refine opens_readOctet _ _ _ _ ?_
  show Opens _ _ (Prog.bind (clientFlow (Prog.bind (onClientConn (parseSetupResponse C _)) _)) _) _ _
  rw [clientFlow_bind, Prog.bind_assoc, clientFlow_onConn]
  refine opens_parseSetupResponse hC _ _ _ _ _ hsig1 ?_
  simp only [show HashType.cryptoHash 4#8 = .val 7 from rfl, ofClientRes, Prog.bind, hv, he]
  refine .inr fun n _ => Opens.done ⟨n, rfl⟩

theorem opens_dial (hC : C.Lawful) (hostname : Bytes) (options : ClientOptions) (msgs : List Bytes) (key : PublicKey)
    (random : ID) (hsig0 : 0 < signature.length) (hsig1 : signature.length ≤ 65536)
    (he : C.ecdh clientKey (C.epub serverKey) = .ok secret)
    (hv : verifySignature C key 7 (setupTranscript C (C.epub clientKey) (C.epub serverKey) (uuidOf random)) signature =
      .val (.ok true)) :
    Opens (DialRet hostname key random clientKey) (AfterDial hostname options msgs secret (uuidOf random))
      (dialAndExchange (C := C) (.ok hostname) options msgs) (dialRequest C (uuidOf random) clientKey)
      (dialResponse C serverKey signature) :=
  opens_dialTCP hC hostname options key random _ (fun _ _ h => h) hsig0 hsig1 he hv

end

/-! ## Both ends -/

section
variable (A B R) (req resp : Bytes) (Idle : FlowProg C FlowLoop → Prop) (roomUp : Nat)

/-- The server has still to read `inp` and to send `out` for the handshake. -/
def InSetup (p : FlowProg C FlowLoop) (inp out : Bytes) : Prop :=
  (p = .ret .serving ∧ inp = req ∧ out = resp) ∨ Replies A p inp out (· = .serving) ∨ (inp = [] ∧ out = [] ∧ Idle p)

/-- What holds during the handshake. -/
def InvH (q p : FlowProg C FlowLoop) (w : FlowWorld) : Prop :=
  w.up.length ≤ roomUp ∧ w.closed = false ∧ w.written = [] ∧ w.got = [] ∧
    ∃ todo inp out, Opens B R q todo inp ∧ w.down ++ out = inp ∧ InSetup A req resp Idle p (w.up ++ todo) out

end

variable {req resp : Bytes} {Idle : FlowProg C FlowLoop → Prop} {M : Manager C} {host : Except Err Bytes}
  {roomUp roomDown : Nat}

/-- The server has not done with the handshake before it has sent its response. -/
theorem Replies.ne {env : FlowEnv C} (henv : ∀ o, A o (serverAnswer env o)) {α : Type} {p : FlowProg C α} {inp : Bytes}
    {Q : α → Prop} (h : Replies A p inp [] Q) : False := by
  induction p generalizing inp with
  | ret a => exact h
  | panic m => exact h
  | op o k ih =>
    cases o with
    | send b =>
      obtain ⟨-, ⟨h, -⟩ | ⟨b', out', h, -⟩⟩ := h <;> cases h
    | recv =>
      obtain ⟨b, inp', -, h⟩ := h
      exact ih _ h
    | hangUp => exact h
    | server o => exact ih _ (h _ (henv o))
    | client o => exact h
    | wrote r => exact h
    | gotData r => exact h

/-- What is known about the server. -/
structure Sets (A : (o : SOp) → o.Ret C → Prop) (M : Manager C) (host : Except Err Bytes) (roomUp roomDown : Nat)
    (req resp : Bytes) (Idle : FlowProg C FlowLoop → Prop) (env : FlowEnv C) : Prop where
  answers : ∀ o, A o (serverAnswer env o)
  pass : Replies A (serverPass M host) req resp (· = .serving)
  resp : resp ≠ []
  idle : ∀ p w, w.up = [] → w.closed = false → Idle p → (turn M host roomUp roomDown env 1 p w).2 = w ∧
    Idle (turn M host roomUp roomDown env 1 p w).1
  back : Idle (.ret .serving)

section
variable {env : FlowEnv C} (hs : Sets A M host roomUp roomDown req resp Idle env)
include hs

theorem setup_turn {p : FlowProg C FlowLoop} {w : FlowWorld} {todo out : Bytes} (hcl : w.closed = false)
    (h : InSetup A req resp Idle p (w.up ++ todo) out) :
    ∃ up down out', (turn M host roomUp roomDown env 1 p w).2 = { w with up, down } ∧
      down ++ out' = w.down ++ out ∧ up.length ≤ w.up.length ∧
      InSetup A req resp Idle (turn M host roomUp roomDown env 1 p w).1 (up ++ todo) out' := by
  rcases h with ⟨rfl, h1, h2⟩ | h | ⟨h1, h2, h⟩
  · refine ⟨w.up, w.down, out, rfl, rfl, Nat.le_refl _, .inr (.inl ?_)⟩
    rw [h1, h2]
    exact hs.pass
  · cases p with
    | ret l => exact h.elim
    | panic e => exact h.elim
    | op op k =>
      cases op with
      | send b =>
        by_cases hd : w.down.length < roomDown
        · rw [turn_server_send hd]
          obtain ⟨h1, ⟨rfl, a, h2, rfl⟩ | ⟨b', out', rfl, h2⟩⟩ := h
          · refine ⟨w.up, w.down ++ [b], [], rfl, by simp, Nat.le_refl _, .inr (.inr ⟨h1, rfl, ?_⟩)⟩
            show Idle (k true)
            rw [h2]
            exact hs.back
          · exact ⟨w.up, w.down ++ [b], b' :: out', rfl, by simp, Nat.le_refl _, .inr (.inl (h1 ▸ h2))⟩
        · rw [turn_server_full hd]
          exact ⟨w.up, w.down, out, rfl, rfl, Nat.le_refl _, .inr (.inl h)⟩
      | recv =>
        cases hw : w.up with
        | nil =>
          rw [turn_server_empty hw]
          rw [hw] at h
          exact ⟨[], w.down, out, by rw [← hw], rfl, Nat.zero_le _, .inr (.inl h)⟩
        | cons b up =>
          rw [turn_server_recv hw]
          obtain ⟨b', rest, h2, h3⟩ := h
          rw [hw, List.cons_append] at h2
          obtain ⟨rfl, rfl⟩ := List.cons.inj h2
          exact ⟨up, w.down, out, rfl, rfl, by simp, .inr (.inl h3)⟩
      | hangUp => exact h.elim
      | server so => exact ⟨w.up, w.down, out, rfl, rfl, Nat.le_refl _, .inr (.inl (h _ (hs.answers so)))⟩
      | client so => exact h.elim
      | wrote r => exact h.elim
      | gotData r => exact h.elim
  · obtain ⟨h3, h4⟩ := hs.idle p w (List.append_eq_nil_iff.mp h1).1 hcl h
    exact ⟨w.up, w.down, out, h3, rfl, Nat.le_refl _, .inr (.inr ⟨h1, h2, h4⟩)⟩

theorem InvH.server {q p : FlowProg C FlowLoop} {w : FlowWorld} (h : InvH A B R req resp Idle roomUp q p w) :
    InvH A B R req resp Idle roomUp q (turn M host roomUp roomDown env 1 p w).1
      (turn M host roomUp roomDown env 1 p w).2 := by
  obtain ⟨hup, hc, hw, hg, todo, inp, out, ho, hd, hp⟩ := h
  obtain ⟨up, down, out', h1, h2, h3, h4⟩ := setup_turn hs hc hp
  rw [h1]
  exact ⟨Nat.le_trans h3 hup, hc, hw, hg, todo, inp, out', ho, h2.trans hd, h4⟩

/-- The handshake is over. -/
theorem InvH.over {q p : FlowProg C FlowLoop} {w : FlowWorld} (hc : w.closed = false) (hw : w.written = [])
    (hg : w.got = []) {out inp : Bytes} (hd : w.down ++ out = inp) (hp : InSetup A req resp Idle p (w.up ++ []) out)
    (hi : inp = []) (hR : R q) : R q ∧ w = {} ∧ Idle p := by
  subst hi
  obtain ⟨h1, rfl⟩ := List.append_eq_nil_iff.mp hd
  rw [List.append_nil] at hp
  rcases hp with ⟨-, -, h⟩ | h | ⟨h, -, h2⟩
  · exact (hs.resp h.symm).elim
  · exact (Replies.ne hs.answers h).elim
  · refine ⟨hR, ?_, h2⟩
    obtain ⟨up, down, closed, written, got⟩ := w
    simp only at h h1 hc hw hg
    subst h h1 hc hw hg
    rfl

theorem InvH.client (hb : ∀ o, B o (clientAnswer env o)) {q p : FlowProg C FlowLoop} {w : FlowWorld}
    (h : InvH A B R req resp Idle roomUp q p w) :
    (R q ∧ w = {} ∧ Idle p) ∨
    InvH A B R req resp Idle roomUp (turn M host roomUp roomDown env 0 q w).1 p
      (turn M host roomUp roomDown env 0 q w).2 := by
  have h0 := h
  obtain ⟨hup, hc, hw, hg, todo, inp, out, ho, hd, hp⟩ := h0
  have hover : todo = [] ∧ inp = [] ∧ R q → R q ∧ w = {} ∧ Idle p := by
    rintro ⟨rfl, h2, h3⟩
    exact InvH.over hs hc hw hg hd hp h2 h3
  cases q with
  | ret l => exact .inl (hover ho)
  | panic e => exact .inl (hover ho)
  | op o k =>
    cases o with
    | send b =>
      rcases ho with ho | ⟨todo', rfl, ho⟩
      · exact .inl (hover ho)
      right
      by_cases hroom : w.up.length < roomUp
      · rw [turn_client_send hc hroom]
        refine ⟨by simpa using Nat.succ_le_of_lt hroom, hc, hw, hg, todo', inp, out, ho, hd, ?_⟩
        simpa using hp
      · rw [turn_client_full hc hroom]
        exact h
    | recv =>
      rcases ho with ho | ⟨rfl, b, inp', rfl, ho⟩
      · exact .inl (hover ho)
      right
      cases hdn : w.down with
      | nil =>
        rw [turn_client_empty hdn hc]
        exact h
      | cons b' down =>
        rw [turn_client_recv hdn]
        rw [hdn, List.cons_append] at hd
        obtain ⟨rfl, rfl⟩ := List.cons.inj hd
        exact ⟨hup, hc, hw, hg, [], _, out, ho, rfl, hp⟩
    | client o =>
      rcases ho with ho | ho
      · exact .inl (hover ho)
      exact .inr ⟨hup, hc, hw, hg, todo, inp, out, ho _ (hb o), hd, hp⟩
    | wrote r => exact .inl (hover ho)
    | gotData r => exact .inl (hover ho)
    | hangUp => exact .inl (hover ho)
    | server o => exact .inl (hover ho)

end

/-! ## Under a fair schedule -/

section
variable {σ : Nat → Nat × FlowEnv C} {app : FlowEnds C}

/-- The handshake is over after `t` steps. -/
def Over (R Idle : FlowProg C FlowLoop → Prop) (s : FlowEnds C) : Prop := R s.1 ∧ s.2.2 = {} ∧ Idle s.2.1

section
variable (hs : ∀ t, Sets A M host roomUp roomDown req resp Idle (σ t).2)
  (hb : ∀ t o, B o (clientAnswer (σ t).2 o))
  (h0 : InvH A B R req resp Idle roomUp app.1 app.2.1 app.2.2)
  (hover : ∀ t, ¬ Over R Idle (flowTrace M host roomUp roomDown app σ t))
include hs hb h0 hover

theorem trace_invH (t : Nat) : InvH A B R req resp Idle roomUp (flowTrace M host roomUp roomDown app σ t).1
    (flowTrace M host roomUp roomDown app σ t).2.1 (flowTrace M host roomUp roomDown app σ t).2.2 := by
  induction t with
  | zero => exact h0
  | succ n ih =>
    rcases hσ : σ n with ⟨i, env⟩
    match i with
    | 0 =>
      rw [trace_client (by rw [hσ])]
      exact (ih.client (hs n) (hb n)).resolve_left (hover n)
    | 1 =>
      rw [trace_server (by rw [hσ])]
      exact ih.server (hs n)
    | i + 2 =>
      have : flowTrace M host roomUp roomDown app σ (n + 1) = flowTrace M host roomUp roomDown app σ n := by
        show flowStep M host roomUp roomDown (flowTrace M host roomUp roomDown app σ n) (σ n) = _
        rw [hσ]
        rfl
      rw [this]
      exact ih

/-- The client sends. -/
theorem dial_sending {t : Nat} {b : Byte} {k : (FlowSig C).Ret (.send b) → FlowProg C FlowLoop}
    (hq : (flowTrace M host roomUp roomDown app σ t).1 = .op (.send b) k) : ∃ todo out,
      InSetup A req resp Idle (flowTrace M host roomUp roomDown app σ t).2.1
        ((flowTrace M host roomUp roomDown app σ t).2.2.up ++ b :: todo) out := by
  obtain ⟨-, hc, hw, hg, todo, inp, out, ho, hd, hp⟩ := trace_invH hs hb h0 hover t
  rw [hq] at ho
  rcases ho with ⟨rfl, h1, h2⟩ | ⟨todo', rfl, -⟩
  · rw [← hq] at h2
    exact (hover t (InvH.over (hs t) hc hw hg hd hp h1 h2)).elim
  · exact ⟨todo', out, hp⟩

/-- The client reads. -/
theorem dial_reading {t : Nat} {k : (FlowSig C).Ret .recv → FlowProg C FlowLoop}
    (hq : (flowTrace M host roomUp roomDown app σ t).1 = .op .recv k)
    (hd : (flowTrace M host roomUp roomDown app σ t).2.2.down = []) : ∃ out, out ≠ [] ∧
      InSetup A req resp Idle (flowTrace M host roomUp roomDown app σ t).2.1
        (flowTrace M host roomUp roomDown app σ t).2.2.up out := by
  obtain ⟨-, hc, hw, hg, todo, inp, out, ho, hd', hp⟩ := trace_invH hs hb h0 hover t
  rw [hq] at ho
  rcases ho with ⟨rfl, h1, h2⟩ | ⟨rfl, b, inp', rfl, -⟩
  · rw [← hq] at h2
    exact (hover t (InvH.over (hs t) hc hw hg hd' hp h1 h2)).elim
  · rw [hd, List.nil_append] at hd'
    rw [List.append_nil] at hp
    exact ⟨out, by rw [hd']; simp, hp⟩

variable (hfair : FlowFair σ)
include hfair

theorem dial_noRoom_pass (hup : 0 < roomUp) {t : Nat} {b : Byte} {k : (FlowSig C).Ret (.send b) → FlowProg C FlowLoop}
    (hq : ∀ m, t ≤ m → (flowTrace M host roomUp roomDown app σ m).1 = .op (.send b) k)
    (hno : NoRoom M host roomUp roomDown app σ t) (p : FlowProg C FlowLoop) : ∀ (t' : Nat) (inp out : Bytes), t ≤ t' →
      (flowTrace M host roomUp roomDown app σ t').2.1 = p → Replies A p inp out (· = .serving) → False := by
  induction p with
  | ret l => intro t' inp out ht hp h; exact h
  | panic e => intro t' inp out ht hp h; exact h
  | op o k' ih =>
    intro t' inp out ht hp h
    obtain ⟨m, hm, hturn, hstay⟩ := server_turn (M := M) (host := host) (roomUp := roomUp)
      (roomDown := roomDown) (app := app) hfair t'
    have hpm : (flowTrace M host roomUp roomDown app σ m).2.1 = .op o k' := (hstay m hm (Nat.le_refl _)).trans hp
    have hnext := trace_server (M := M) (host := host) (roomUp := roomUp) (roomDown := roomDown) (app := app) hturn
    rw [hpm] at hnext
    obtain ⟨todo, out', hin⟩ := dial_sending hs hb h0 hover (hq m (by omega))
    rw [hpm] at hin
    cases o with
    | send b' =>
      rcases hin with ⟨h, -⟩ | ⟨h, -⟩ | ⟨h, -⟩
      · cases h
      · simp at h
      · simp at h
    | recv =>
      cases hu : (flowTrace M host roomUp roomDown app σ m).2.2.up with
      | nil =>
        have := (hno m (by omega)).2
        rw [hu] at this
        simp only [List.length_nil] at this
        omega
      | cons b' up =>
        rw [turn_server_recv hu] at hnext
        have h1 := (hno (m + 1) (by omega)).2
        have h2 := (trace_invH hs hb h0 hover m).1
        rw [hnext] at h1
        rw [hu] at h2
        simp only [List.length_cons] at h1 h2
        omega
    | server so => exact ih _ (m + 1) inp out (by omega) (by rw [hnext]; rfl) (h _ ((hs m).answers so))
    | hangUp => exact h
    | client so => exact h
    | wrote r => exact h
    | gotData r => exact h

theorem dial_noRoom (hup : 0 < roomUp) {t : Nat} {b : Byte} {k : (FlowSig C).Ret (.send b) → FlowProg C FlowLoop}
    (hq : ∀ m, t ≤ m → (flowTrace M host roomUp roomDown app σ m).1 = .op (.send b) k) :
    ¬ NoRoom M host roomUp roomDown app σ t := by
  intro hno
  have hpass := dial_noRoom_pass hs hb h0 hover hfair hup hq hno
  obtain ⟨todo, out, ⟨h, -⟩ | h | ⟨h, -⟩⟩ := dial_sending hs hb h0 hover (hq t (Nat.le_refl _))
  · obtain ⟨m, hm, hturn, hstay⟩ := server_turn (M := M) (host := host) (roomUp := roomUp)
      (roomDown := roomDown) (app := app) hfair t
    have hnext := trace_server (M := M) (host := host) (roomUp := roomUp) (roomDown := roomDown) (app := app) hturn
    rw [(hstay m hm (Nat.le_refl _)).trans h] at hnext
    exact hpass _ (m + 1) _ _ (by omega) (by rw [hnext]; rfl) (hs 0).pass
  · exact hpass _ t _ _ (Nat.le_refl _) rfl h
  · simp at h

theorem dial_noData_pass (hdown : 0 < roomDown) {t : Nat} {k : (FlowSig C).Ret .recv → FlowProg C FlowLoop}
    (hq : ∀ m, t ≤ m → (flowTrace M host roomUp roomDown app σ m).1 = .op .recv k)
    (hno : NoData M host roomUp roomDown app σ t) (p : FlowProg C FlowLoop) : ∀ (t' : Nat) (inp out : Bytes), t ≤ t' →
      (flowTrace M host roomUp roomDown app σ t').2.1 = p → Replies A p inp out (· = .serving) → False := by
  induction p with
  | ret l => intro t' inp out ht hp h; exact h
  | panic e => intro t' inp out ht hp h; exact h
  | op o k' ih =>
    intro t' inp out ht hp h
    obtain ⟨m, hm, hturn, hstay⟩ := server_turn (M := M) (host := host) (roomUp := roomUp)
      (roomDown := roomDown) (app := app) hfair t'
    have hpm : (flowTrace M host roomUp roomDown app σ m).2.1 = .op o k' := (hstay m hm (Nat.le_refl _)).trans hp
    have hnext := trace_server (M := M) (host := host) (roomUp := roomUp) (roomDown := roomDown) (app := app) hturn
    rw [hpm] at hnext
    have hd := (hno m (by omega)).2
    obtain ⟨out', hne, hin⟩ := dial_reading hs hb h0 hover (hq m (by omega)) hd
    rw [hpm] at hin
    cases o with
    | send b' =>
      rw [turn_server_send (by rw [hd]; exact hdown)] at hnext
      have := (hno (m + 1) (by omega)).2
      rw [hnext] at this
      simp at this
    | recv =>
      rcases hin with ⟨h, -⟩ | ⟨b', inp', hu, hin⟩ | ⟨-, h, -⟩
      · cases h
      · rw [turn_server_recv hu] at hnext
        exact ih _ (m + 1) inp' out' (by omega) (by rw [hnext]) hin
      · exact hne h
    | server so => exact ih _ (m + 1) inp out (by omega) (by rw [hnext]; rfl) (h _ ((hs m).answers so))
    | hangUp => exact h
    | client so => exact h
    | wrote r => exact h
    | gotData r => exact h

theorem dial_noData (hdown : 0 < roomDown) {t : Nat} {k : (FlowSig C).Ret .recv → FlowProg C FlowLoop}
    (hq : ∀ m, t ≤ m → (flowTrace M host roomUp roomDown app σ m).1 = .op .recv k) :
    ¬ NoData M host roomUp roomDown app σ t := by
  intro hno
  have hpass := dial_noData_pass hs hb h0 hover hfair hdown hq hno
  obtain ⟨out, hne, ⟨h, -⟩ | h | ⟨-, h, -⟩⟩ := dial_reading hs hb h0 hover (hq t (Nat.le_refl _)) (hno t (Nat.le_refl _)).2
  · obtain ⟨m, hm, hturn, hstay⟩ := server_turn (M := M) (host := host) (roomUp := roomUp)
      (roomDown := roomDown) (app := app) hfair t
    have hnext := trace_server (M := M) (host := host) (roomUp := roomUp) (roomDown := roomDown) (app := app) hturn
    rw [(hstay m hm (Nat.le_refl _)).trans h] at hnext
    exact hpass _ (m + 1) _ _ (by omega) (by rw [hnext]; rfl) (hs 0).pass
  · exact hpass _ t _ _ (Nat.le_refl _) rfl h
  · exact hne h

theorem dial_ends (hup : 0 < roomUp) (hdown : 0 < roomDown) (q : FlowProg C FlowLoop) :
    ∀ t, (flowTrace M host roomUp roomDown app σ t).1 = q → False := by
  have hend : ∀ t, (∀ todo inp, Opens B R (flowTrace M host roomUp roomDown app σ t).1 todo inp → todo = [] ∧ inp = [] ∧
      R (flowTrace M host roomUp roomDown app σ t).1) → False := by
    intro t h
    obtain ⟨-, hc, hw, hg, todo, inp, out, ho, hd, hp⟩ := trace_invH hs hb h0 hover t
    obtain ⟨rfl, h1, h2⟩ := h _ _ ho
    exact hover t (InvH.over (hs t) hc hw hg hd hp h1 h2)
  induction q with
  | ret l => intro t ht; exact hend t (by rw [ht]; exact fun _ _ h => h)
  | panic e => intro t ht; exact hend t (by rw [ht]; exact fun _ _ h => h)
  | op o k ih =>
    intro t ht
    cases o with
    | send b =>
      obtain ⟨m, r, h⟩ := send_moves hfair ht fun hq => dial_noRoom hs hb h0 hover hfair hup hq
      exact ih r m h
    | recv =>
      obtain ⟨m, r, h⟩ := recv_moves hfair ht fun hq => dial_noData hs hb h0 hover hfair hdown hq
      exact ih r m h
    | client o =>
      obtain ⟨m, hm, hturn, -, hstay⟩ := client_turn (M := M) (host := host) (roomUp := roomUp) (roomDown := roomDown)
        (app := app) hfair t
      refine ih (clientAnswer (σ m).2 o) (m + 1) ?_
      rw [trace_client hturn, (hstay m hm (Nat.le_refl _)).trans ht]
      rfl
    | hangUp => exact hend t (by rw [ht]; exact fun _ _ h => h)
    | server o => exact hend t (by rw [ht]; exact fun _ _ h => h)
    | wrote r => exact hend t (by rw [ht]; exact fun _ _ h => h)
    | gotData r => exact hend t (by rw [ht]; exact fun _ _ h => h)

end

/-- Under a fair schedule the handshake comes to its end. -/
theorem dial_over (hs : ∀ t, Sets A M host roomUp roomDown req resp Idle (σ t).2)
    (hb : ∀ t o, B o (clientAnswer (σ t).2 o)) (h0 : InvH A B R req resp Idle roomUp app.1 app.2.1 app.2.2)
    (hfair : FlowFair σ) (hup : 0 < roomUp) (hdown : 0 < roomDown) :
    ∃ t, Over R Idle (flowTrace M host roomUp roomDown app σ t) := by
  by_cases h : ∃ t, Over R Idle (flowTrace M host roomUp roomDown app σ t)
  · exact h
  · exact (dial_ends hs hb h0 (fun t ht => h ⟨t, ht⟩) hfair hup hdown _ 0 rfl).elim

/-- The steps after the first `t` of them. -/
theorem flowTrace_add (t n : Nat) : flowTrace M host roomUp roomDown app σ (t + n) =
    flowTrace M host roomUp roomDown (flowTrace M host roomUp roomDown app σ t) (fun j => σ (t + j)) n := by
  induction n with
  | zero => rfl
  | succ n ih =>
    show flowStep M host roomUp roomDown (flowTrace M host roomUp roomDown app σ (t + n)) (σ (t + n)) = _
    rw [ih]
    rfl

end

end

end Goe2ee
