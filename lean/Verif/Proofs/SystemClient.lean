import Verif.Proofs.System

/-!
# The client of a session: what it sends, what it reads, and what it does to its counter
-/

set_option autoImplicit false

namespace Goe2ee

/-- What a client knows: has it sent the setup request; the address of its counter; the counter; the counter of the last
message sent; the number of messages it still has to send. -/
structure Talker where
  started : Bool
  addr : Option Nat
  last : Nat
  sent : Nat
  left : Nat

section
variable {C : Crypto}

/-- The effects of the client. -/
def Does (d : Talker) : COp → Prop
  | .newCounter => d.last = 0 ∧ d.sent = 0
  | .addCounter a => d.addr = some a ∧ 0 < d.left
  | _ => True

/-- What they return. -/
def Returns (T : Terms C) (d : Talker) : (o : COp) → o.Ret C → Prop
  | .addCounter _, (r : BitVec 64) => r = BitVec.ofNat 64 (d.last + 1) ∧ r ≠ 0
  | o, r => DialRet T.hostname T.key T.random T.clientKey o r ∧ BenignRet o r ∧ ClientGood o r

def Talker.next (d : Talker) : (o : COp) → o.Ret C → Talker
  | .newCounter, (r : Nat) => { d with addr := some r }
  | .addCounter _, _ => { d with last := d.last + 1, left := d.left - 1 }
  | _, _ => d

variable (T : Terms C)

/-- The client begins to send a request. -/
def Says (d d' : Talker) (req reply : Bytes) : Prop :=
  (d.started = false ∧ d' = { d with started := true } ∧ req = dialRequest C T.id T.clientKey ∧
    reply = dialResponse C T.serverKey T.signature) ∨
  ∃ m, d.started = true ∧ d.sent < d.last ∧ d' = { d with sent := d.last } ∧ m.length + 16 ≤ 2 ^ 30 ∧
    AnswersAt T (BitVec.ofNat 64 d.last) m req reply

/-- The client sends `todo`, then reads `inp`, then goes on with further requests. -/
def Speaks : FlowProg C FlowLoop → Talker → (todo inp : Bytes) → Prop
  | .ret l, _, todo, inp => l = .ended ∧ todo = [] ∧ inp = []
  | .op (.send b) k, d, todo, inp => (∃ todo', todo = b :: todo' ∧ Speaks (k true) d todo' inp) ∨
      (todo = [] ∧ inp = [] ∧ ∃ d' todo' inp', Says T d d' (b :: todo') inp' ∧ Speaks (k true) d' todo' inp')
  | .op .recv k, d, todo, inp => todo = [] ∧ ∃ b inp', inp = b :: inp' ∧ Speaks (k (some b)) d [] inp'
  | .op (.client o) k, d, todo, inp => Does d o ∧ ∀ r, Returns T d o r → Speaks (k r) (d.next o r) todo inp
  | .op (.wrote _) k, d, todo, inp => Speaks (k ()) d todo inp
  | .op (.gotData _) k, d, todo, inp => Speaks (k ()) d todo inp
  | _, _, _, _ => False

variable {T}

section
variable {α : Type} {d : Talker}

theorem speaks_sendAll {g : Nat × Option Err → FlowProg C FlowLoop} (bs : Bytes) (n : Nat) {inp : Bytes}
    (h : Speaks T (g (n + bs.length, none)) d [] inp) : Speaks T ((sendAll bs n).bind g) d bs inp := by
  induction bs generalizing n with
  | nil => simpa [sendAll] using h
  | cons b bs ih =>
    refine .inl ⟨bs, rfl, ih (n + 1) ?_⟩
    simpa [Nat.add_assoc, Nat.add_comm 1] using h

/-- A whole request. -/
theorem speaks_send {g : Nat × Option Err → FlowProg C FlowLoop} (hs : 0 < T.signature.length) (bs : Bytes)
    {d' : Talker} {inp : Bytes} (hsay : Says T d d' bs inp)
    (h : Speaks T (g (bs.length, none)) d' [] inp) : Speaks T ((sendAll bs 0).bind g) d [] [] := by
  cases bs with
  | nil =>
    rcases hsay with ⟨-, -, h, -⟩ | ⟨m, -, -, -, -, n1, n2, -, -, h, -⟩
    · rw [dialRequest_eq] at h; cases h
    · simp [ProcessRequest.bytes, newProcessRequest, RequestCommon.bytes] at h
  | cons b bs =>
    refine .inr ⟨rfl, rfl, d', bs, inp, hsay, speaks_sendAll bs 1 ?_⟩
    simpa [Nat.add_comm 1] using h

theorem speaks_recvAll (xs : Bytes) (acc rest : Bytes) {g : Bytes × Bool → FlowProg C FlowLoop}
    (h : Speaks T (g (acc ++ xs, true)) d [] rest) :
    Speaks T ((recvAll xs.length acc).bind g) d [] (xs ++ rest) := by
  induction xs generalizing acc with
  | nil => simpa [recvAll] using h
  | cons x xs ih => exact ⟨rfl, x, xs ++ rest, rfl, ih (acc ++ [x]) (by simpa using h)⟩

theorem speaks_readOctet {g : Except Err α → FlowProg C FlowLoop} (what : String) (k : Byte → RProg (Except Err α)) (b : Byte)
    (rest : Bytes) (h : Speaks T ((parserFlow (k b)).bind g) d [] rest) :
    Speaks T ((parserFlow (readOctet what k)).bind g) d [] (b :: rest) := by
  show Speaks T ((((recvAll (Int.toNat 1) []).bind _).bind _).bind _) d [] ([b] ++ rest)
  rw [Prog.bind_assoc, Prog.bind_assoc]
  exact speaks_recvAll [b] [] rest h

theorem speaks_readField {g : Except Err α → FlowProg C FlowLoop} (n : Nat) (what : String) (k : Bytes → RProg (Except Err α))
    (bs rest : Bytes) (hn : bs.length = n) (h : Speaks T ((parserFlow (k bs)).bind g) d [] rest) :
    Speaks T ((parserFlow (readField n what k)).bind g) d [] (bs ++ rest) := by
  show Speaks T ((((recvAll n []).bind _).bind _).bind _) d [] (bs ++ rest)
  rw [Prog.bind_assoc, Prog.bind_assoc]
  subst hn
  exact speaks_recvAll bs [] rest h

theorem speaks_setupResponse (hC : C.Lawful) (common : ResponseCommon) (pk : C.EPub) (hash : Byte) (sig rest : Bytes)
    (hs : sig.length ≤ 65536) {g : Except Err (SetupResponse C) → FlowProg C FlowLoop}
    (h : Speaks T (g (.ok { common, publicKey := pk, hashType := hash, signature := sig })) d [] rest) :
    Speaks T ((parserFlow (parseSetupResponse C common)).bind g) d []
      (beEnc 4 (C.marshalEPub pk).length ++ (C.marshalEPub pk ++ ([hash] ++ (beEnc 4 sig.length ++ (sig ++ rest))))) := by
  have hl := hC.marshalEPub_length pk
  have hn := toNat_ofNat_beDec_beEnc4 (C.marshalEPub pk).length (by omega)
  have hn2 := toNat_ofNat_beDec_beEnc4 sig.length (by omega)
  refine speaks_readField _ _ _ _ _ (beEnc_length _ _) ?_
  simp only [hn, maxKeySize, maxSignatureSize]
  rw [if_neg (by omega)]
  show Speaks T ((parserFlow (readField _ _ _)).bind g) _ _ _
  refine speaks_readField _ _ _ _ _ rfl ?_
  simp only [parseEPub, hC.parse_marshalEPub]
  refine speaks_readField _ _ _ _ _ rfl (speaks_readField _ _ _ _ _ (beEnc_length _ _) ?_)
  simp only [hn2]
  rw [if_neg (by omega)]
  show Speaks T ((parserFlow (readField _ _ _)).bind g) _ _ _
  refine speaks_readField _ _ _ _ _ rfl ?_
  rw [beDec_singleton]
  exact h

theorem speaks_processResponse (common : ResponseCommon) (counter : BitVec 64) (msg y : Bytes)
    (hl : msg.length ≤ 2 ^ 30) {g : Except Err ProcessResponse → FlowProg C FlowLoop}
    (h : ∀ r : ProcessResponse, r.message = msg → r.counter = counter → Speaks T (g (.ok r)) d [] y) :
    Speaks T ((parserFlow (parseProcessResponse common)).bind g) d []
      (beEnc 8 counter.toNat ++ (beEnc 8 msg.length ++ (msg ++ y))) := by
  have hm : BitVec.ofNat 64 (beDec (beEnc 8 msg.length)) = BitVec.ofNat 64 msg.length := by
    rw [beDec_beEnc, Nat.mod_eq_of_lt (by omega)]
  have hn : (BitVec.ofNat 64 msg.length).toNat = msg.length := by
    rw [BitVec.toNat_ofNat, Nat.mod_eq_of_lt (by omega)]
  refine speaks_readField _ _ _ _ _ (beEnc_length _ _) (speaks_readField _ _ _ _ _ (beEnc_length _ _) ?_)
  simp only [hm, hn, maxMessageSize]
  rw [if_neg (by omega)]
  refine speaks_readField _ _ _ _ _ rfl (h _ rfl ?_)
  exact ofNat_beDec_beEnc8 _

end

/-- The client of the session, with its counter. -/
def Holder (T : Terms C) (d : Talker) (c : Client) : Prop :=
  c.expectReply = true ∧ ¬ c.readTimeout > 0 ∧ c.buffer = [] ∧
    ∃ s, c.session = some s ∧ s.secret = T.secret ∧ s.id = T.id ∧ d.addr = some s.sendCounter

theorem speaks_read (hC : C.Lawful) (hT : T.Works) {d : Talker} (c : Client) (hc : Holder T d c)
    (m n2 : Bytes) (hm : (T.f m).length + 16 ≤ 2 ^ 30)
    (h2 : nonce directionServerToClient c.lastSentCounter gcmNonceSize = .val n2)
    {g : (Bytes × Option Err) × Client → FlowProg C FlowLoop}
    (hg : ∀ r c', Holder T d c' → Speaks T (g (r, c')) d [] []) :
    Speaks T ((clientFlow (c.read wholeReply)).bind g) d []
      (newProcessResponse c.lastSentCounter (C.aeadSeal T.gcm n2 (T.f m))).bytes := by
  have hgcm := hT.gcm
  obtain ⟨hc1, hc2, hc3, s, hs, h3, h4, h5⟩ := hc
  rw [read_eq, clientFlow_bind, Prog.bind_assoc, if_neg hc2]
  show Speaks T ((clientFlow (readBody c wholeReply)).bind g) _ _ _
  unfold readBody
  rw [if_neg (by simp [hc3]), clientFlow_bind, Prog.bind_assoc, clientFlow_onConn]
  have hlen : (C.aeadSeal T.gcm n2 (T.f m)).length ≤ 2 ^ 30 := by rw [hC.seal_length]; exact hm
  have hb : (newProcessResponse c.lastSentCounter (C.aeadSeal T.gcm n2 (T.f m))).bytes =
      128#8 :: (beEnc 8 c.lastSentCounter.toNat ++
        (beEnc 8 (C.aeadSeal T.gcm n2 (T.f m)).length ++ (C.aeadSeal T.gcm n2 (T.f m) ++ []))) := by
    simp [ProcessResponse.bytes, newProcessResponse, ResponseCommon.bytes, Nat.mod_eq_of_lt (show
      (C.aeadSeal T.gcm n2 (T.f m)).length < 2 ^ 64 by omega)]
  rw [hb]
  refine speaks_readOctet _ _ _ _ ?_
  show Speaks T ((clientFlow (Prog.bind (onClientConn (parseProcessResponse _)) _)).bind g) _ _ _
  rw [clientFlow_bind, Prog.bind_assoc, clientFlow_onConn]
  refine speaks_processResponse _ _ _ _ hlen fun resp hresp hcnt => ?_
  simp only []
  rw [if_neg (by simp [hcnt]), hs]
  rw [← h3] at hgcm
  simp only [hgcm, hcnt, h2, ofClientRes, Prog.bind, hresp, hC.open_seal]
  show Speaks T (g (readBuffer _ wholeReply)) _ _ _
  have hml : (T.f m).length ≤ wholeReply := by
    show (T.f m).length ≤ 2 ^ 30
    omega
  unfold readBuffer
  simp only [hc3, List.nil_append]
  split
  · rename_i hnil
    exact hg _ _ ⟨hc1, hc2, hnil.1, s, rfl, h3, h4, h5⟩
  · exact hg _ _ ⟨hc1, hc2, List.drop_eq_nil_of_le hml, s, rfl, h3, h4, h5⟩

theorem speaks_write (hC : C.Lawful) (hT : T.Works) {d : Talker} (hd : d.started = true) (hleft : 0 < d.left)
    (hsent : d.sent ≤ d.last) (c : Client) (hc : Holder T d c) (m : Bytes)
    (hm : m.length + 16 ≤ 2 ^ 30) {g : (Nat × Option Err) × Client → FlowProg C FlowLoop}
    (hg : ∀ r c' n2, r.2 = none → Holder T d c' →
      nonce directionServerToClient c'.lastSentCounter gcmNonceSize = .val n2 →
      Speaks T (g (r, c')) { d with last := d.last + 1, left := d.left - 1, sent := d.last + 1 } []
        (newProcessResponse c'.lastSentCounter (C.aeadSeal T.gcm n2 (T.f m))).bytes) :
    Speaks T ((clientFlow (c.write m)).bind g) d [] [] := by
  have hgcm := hT.gcm
  obtain ⟨hc1, hc2, hc3, s, hs, h3, h4, h5⟩ := hc
  rw [Client.write, clientFlow_bind, Prog.bind_assoc]
  have hrest : Speaks T ((clientFlow (match c.session with
      | none => .panic "nil pointer dereference"
      | some session =>
      match newGCM C session.secret with
      | .error e => .ret ((0, some e), c)
      | .ok gcm =>
      .op (.addCounter session.sendCounter) fun (counter : BitVec 64) =>
      if counter = 0 then .ret ((0, some (.other "message counter exhausted")), c)
      else
      (ofClientRes (nonce directionClientToServer counter gcmNonceSize)).bind fun nonce =>
      .op (.aead gcm nonce m) fun (sealed : Bytes) =>
      .op (.write (newProcessRequest session.id counter sealed c.expectReply).bytes)
        fun (r : Nat × Option Err) =>
      (.ret (r, { c with lastSentCounter := counter }) : CProg C ((Nat × Option Err) × Client)))).bind g) d [] [] := by
    rw [hs]
    rw [← h3] at hgcm
    simp only [hgcm]
    refine ⟨⟨h5, hleft⟩, fun (counter : BitVec 64) ⟨hcount, (hne : counter ≠ 0)⟩ => ?_⟩
    show Speaks T (Prog.bind (clientFlow (if counter = 0 then _ else _)) g) _ [] []
    rw [if_neg hne]
    obtain ⟨n1, h1⟩ : ∃ x, nonce directionClientToServer counter gcmNonceSize = .val x := ⟨_, rfl⟩
    obtain ⟨n2, h2⟩ : ∃ x, nonce directionServerToClient counter gcmNonceSize = .val x := ⟨_, rfl⟩
    rw [h1]
    simp only [ofClientRes, Prog.bind]
    refine ⟨trivial, fun sealed ⟨_, _, hsealed⟩ => ?_⟩
    have hsealed : sealed = C.aeadSeal T.gcm n1 m := hsealed
    subst hsealed
    refine Eq.mpr (congrArg (Speaks T · _ [] []) (Prog.bind_assoc (S := FlowSig C) (sendAll _ 0) _ g)) ?_
    rw [hc1, h4]
    refine speaks_send hT.short.1 _ (.inr ⟨m, hd, Nat.lt_succ_of_le hsent, rfl, hm, n1, n2, ?_, ?_, ?_, ?_⟩)
      (hg _ { c with expectReply := true, session := some s, lastSentCounter := counter } n2 rfl
        ⟨rfl, hc2, hc3, s, rfl, h3, h4, h5⟩ h2)
    · rw [← h1, hcount]; rfl
    · rw [← h2, hcount]; rfl
    · rw [hcount]; rfl
    · simp only [hcount]; rfl
  split
  · refine ⟨trivial, fun (r : Option Err) ⟨_, (hr : r = none), _⟩ => ?_⟩
    subst hr
    exact hrest
  · exact hrest

theorem speaks_exchangeAll (hC : C.Lawful) (hT : T.Works) (msgs : List Bytes) (hm : ∀ p ∈ msgs, p.length + 16 ≤ 2 ^ 30)
    (hf : ∀ p ∈ msgs, (T.f p).length + 16 ≤ 2 ^ 30) {d : Talker} (hd : d.started = true) (hleft : d.left = msgs.length) (hsent : d.sent ≤ d.last) (c : Client)
    (hc : Holder T d c) : Speaks T (exchangeAll c msgs) d [] [] := by
  induction msgs generalizing c d with
  | nil => exact ⟨rfl, rfl, rfl⟩
  | cons p ps ih =>
    refine speaks_write hC hT hd (by rw [hleft]; simp) hsent c hc p (hm p List.mem_cons_self) fun r c' n2 hr hc' h2 => ?_
    have hr' : r.2.isSome = false := by rw [hr]; rfl
    simp only [Speaks, hr', Bool.false_eq_true, if_false]
    refine speaks_read hC hT c' (d := { d with last := d.last + 1, left := d.left - 1, sent := d.last + 1 }) hc' p n2
      (hf p List.mem_cons_self) h2 fun q c'' hc'' => ?_
    exact ih (fun q hq => hm q (List.mem_cons_of_mem _ hq)) (fun q hq => hf q (List.mem_cons_of_mem _ hq)) (by exact hd) (by simp [hleft]) (Nat.le_refl _) c'' hc''

theorem speaks_dial (hC : C.Lawful) (hT : T.Works) (options : ClientOptions) (he : options.expectReply = true)
    (hread : ¬ options.readTimeout > 0) (msgs : List Bytes) (hm : ∀ p ∈ msgs, p.length + 16 ≤ 2 ^ 30)
    (hf : ∀ p ∈ msgs, (T.f p).length + 16 ≤ 2 ^ 30) :
    Speaks T (dialAndExchange (C := C) (.ok T.hostname) options msgs) ⟨false, none, 0, 0, msgs.length⟩ [] [] := by
  unfold dialAndExchange dialTCP
  refine ⟨trivial, fun (r : Option Err) ⟨(hr : r = none), _, _⟩ => ?_⟩
  subst hr
  refine ⟨trivial, fun (r : Option Err) ⟨(hr : r = none), _, _⟩ => ?_⟩
  subst hr
  show Speaks T (Prog.bind (clientFlow (handshakeOrClose _)) _) _ _ _
  rw [handshakeOrClose, clientFlow_bind, Prog.bind_assoc]
  refine ⟨trivial, fun (r : Except Err PublicKey) ⟨(hr : T.hostname = T.hostname → r = .ok T.key), _, _⟩ => ?_⟩
  obtain rfl := hr rfl
  refine ⟨trivial, fun (r : Except Err ID) ⟨(hr : r = .ok T.random), _, _⟩ => ?_⟩
  subst hr
  refine ⟨trivial, fun (r : Except Err C.EPriv) ⟨(hr : r = .ok T.clientKey), _, _⟩ => ?_⟩
  subst hr
  refine Eq.mpr (congrArg (Speaks T · _ _ _) (Prog.bind_assoc (S := FlowSig C) (sendAll (dialRequest C T.id T.clientKey) 0) _ _)) ?_
  refine speaks_send hT.short.1 _ (.inl ⟨rfl, rfl, rfl, rfl⟩) ?_
  show Speaks T (Prog.bind (clientFlow (if _ ≠ (dialRequest C T.id T.clientKey).length then _ else _)) _) _ _ _
  rw [if_neg (by simp), clientFlow_bind, Prog.bind_assoc, clientFlow_onConn, dialResponse_eq _ _ hT.short.1]
  refine speaks_readOctet _ _ _ _ ?_
  show Speaks T (Prog.bind (clientFlow (Prog.bind (onClientConn (parseSetupResponse C _)) _)) _) _ _ _
  rw [clientFlow_bind, Prog.bind_assoc, clientFlow_onConn]
  refine speaks_setupResponse hC _ _ _ _ _ hT.short.2 ?_
  have hv : verifySignature C T.key 7 (setupTranscript C (C.epub T.clientKey) (C.epub T.serverKey) (uuidOf T.random))
    T.signature = .val (.ok true) := hT.verified
  simp only [show HashType.cryptoHash 4#8 = .val 7 from rfl, ofClientRes, Prog.bind, hv, hT.agreed']
  refine ⟨⟨rfl, rfl⟩, fun n _ => ?_⟩
  exact speaks_exchangeAll hC hT msgs hm hf rfl rfl (Nat.le_refl _) _ ⟨he, hread, rfl, _, rfl, rfl, rfl, rfl⟩

end

end Goe2ee
