import Verif.Proofs.FlowFair
import Verif.Proofs.Handshake

/-!
# A client that reads after each message: it and the server take turns
-/

set_option autoImplicit false

namespace Goe2ee

section
variable {C : Crypto}

/-! ## What the client does -/

/-- How far the client is: it has sent nothing of its next message, it has still to send `ps`, or it has still to read
`y` of the answer. -/
inductive Exchange where
  | idle
  | part (ps : Bytes)
  | reading (y : Bytes)

/-- The client sends one whole request, then reads one whole answer; `m` exchanges are still to be done. -/
def Exchanges (P : Bytes → Prop) : FlowProg C FlowLoop → Exchange → Nat → Prop
  | .ret l, st, m => l = .ended ∧ st = .idle ∧ m = 0
  | .panic _, _, _ => False
  | .op (.send b) k, st, m => ∃ ps, ((st = .idle ∧ FlowRequest true (b :: ps)) ∨ st = .part (b :: ps)) ∧
    (ps = [] → ∀ y, FlowReply C P true y → Exchanges P (k true) (.reading y) m) ∧
    (ps ≠ [] → Exchanges P (k true) (.part ps) m)
  | .op .recv k, st, m => ∃ b y, st = .reading (b :: y) ∧ Exchanges P (k (some b)) (.reading y) m
  | .op (.client o) k, st, m => ∀ r, ClientGood o r → Exchanges P (k r) st m
  | .op (.wrote r) k, st, m => r.2 = none → Exchanges P (k ()) st m
  | .op (.gotData _) k, st, m => ∃ m', st = .reading [] ∧ m = m' + 1 ∧ Exchanges P (k ()) .idle m'
  | .op .hangUp _, _, _ => False
  | .op (.server _) _, _, _ => False

/-- The client reads as often as it wrote, whatever it reads. -/
def Tally : FlowProg C FlowLoop → Nat → Prop
  | .ret l, m => l = .ended ∧ m = 0
  | .panic _, _ => False
  | .op (.wrote r) k, m => r.2 = none → Tally (k ()) m
  | .op (.gotData _) k, m => ∃ m', m = m' + 1 ∧ Tally (k ()) m'
  | .op (.send _) k, m => ∀ r, Tally (k r) m
  | .op .recv k, m => ∀ r, Tally (k r) m
  | .op (.client _) k, m => ∀ r, Tally (k r) m
  | .op .hangUp _, _ => False
  | .op (.server _) _, _ => False

theorem tally_sendAll {f : Nat × Option Err → FlowProg C FlowLoop} {m : Nat} (hf : ∀ r, Tally (f r) m) (bs : Bytes)
    (n : Nat) : Tally ((sendAll bs n).bind f) m := by
  induction bs generalizing n with
  | nil => exact hf _
  | cons b bs ih =>
    intro (ok : Bool)
    cases ok with
    | true => exact ih _
    | false => exact hf _

theorem tally_recvAll {f : Bytes × Bool → FlowProg C FlowLoop} {m : Nat} (hf : ∀ r, Tally (f r) m) (n : Nat)
    (acc : Bytes) : Tally ((recvAll n acc).bind f) m := by
  induction n generalizing acc with
  | zero => exact hf _
  | succ n ih =>
    intro (r : Option Byte)
    cases r with
    | none => exact hf _
    | some b => exact ih _

theorem tally_parser {α : Type} {p : RProg α} (hp : NoPanic p) {f : α → FlowProg C FlowLoop} {m : Nat}
    (hf : ∀ a, Tally (f a) m) : Tally ((parserFlow p).bind f) m := by
  induction p with
  | ret a => exact hf a
  | panic e => exact hp.elim
  | op o k ih =>
    show Tally (((flowRead o).bind fun r => parserFlow (k r)).bind f) m
    rw [Prog.bind_assoc]
    cases o with
    | alloc n => exact ih _ (hp _)
    | readFull n =>
      show Tally (((recvAll n []).bind _).bind _) m
      rw [Prog.bind_assoc]
      exact tally_recvAll (fun r => ih _ (hp _)) _ _
    | copyLimit n =>
      show Tally (((recvAll n.toNat []).bind _).bind _) m
      rw [Prog.bind_assoc]
      exact tally_recvAll (fun r => ih _ (hp _)) _ _

theorem clientFlow_onConn {α : Type} (p : RProg α) : clientFlow (C := C) (onClientConn p) = parserFlow p := by
  induction p with
  | ret a => rfl
  | panic m => rfl
  | op o k ih =>
    show Prog.bind (flowRead o) (fun r => clientFlow (onClientConn (k r))) =
      Prog.bind (flowRead o) (fun r => parserFlow (k r))
    congr 1
    funext r
    exact ih r

theorem tally_write (c : Client) (hc : c.session.isSome = true) (p : Bytes)
    {f : (Nat × Option Err) × Client → FlowProg C FlowLoop} {m : Nat}
    (hf : ∀ r c', c'.session.isSome = true → Tally (f (r, c')) m) :
    Tally ((clientFlow (c.write p)).bind f) m := by
  rw [Client.write, clientFlow_bind, Prog.bind_assoc]
  have hrest : ∀ r : Option Err, Tally ((clientFlow (match r with
      | some e => (.ret ((0, some (.wrap "failed to set connection write deadline" e)), c) :
          CProg C ((Nat × Option Err) × Client))
      | none =>
      match c.session with
      | none => .panic "nil pointer dereference"
      | some session =>
      match newGCM C session.secret with
      | .error e => .ret ((0, some e), c)
      | .ok gcm =>
      .op (.addCounter session.sendCounter) fun (counter : BitVec 64) =>
      if counter = 0 then .ret ((0, some (.other "message counter exhausted")), c)
      else
      (ofClientRes (nonce directionClientToServer counter gcmNonceSize)).bind fun nonce =>
      .op (.aead gcm nonce p) fun (sealed : Bytes) =>
      .op (.write (newProcessRequest session.id counter sealed c.expectReply).bytes)
        fun (r : Nat × Option Err) =>
      .ret (r, { c with lastSentCounter := counter }))).bind f) m := by
    intro r
    cases r with
    | some e => exact hf _ _ hc
    | none =>
      cases hsess : c.session with
      | none => simp [hsess] at hc
      | some session =>
        simp only []
        cases newGCM C session.secret with
        | error e => exact hf _ _ hc
        | ok gcm =>
          intro (counter : BitVec 64)
          show Tally (Prog.bind (clientFlow (if counter = 0 then _ else _)) f) m
          split
          · exact hf _ _ hc
          · intro sealed
            refine Eq.mpr (congrArg (Tally · m) (Prog.bind_assoc (S := FlowSig C) (sendAll _ 0) _ f)) ?_
            exact tally_sendAll (fun r => hf _ _ rfl) _ _
  split
  · exact fun r => hrest r
  · exact hrest none

/-- `Read` after its deadline was set. -/
def readBody (c : Client) (n : Nat) : CProg C ((Bytes × Option Err) × Client) :=
  (if c.buffer ≠ [] then .ret (readBuffer c n)
  else
  (onClientConn parseResponseCommon).bind fun parsed =>
  match parsed with
  | .error e => .ret (([], some (.wrap "failed to parse response" e)), c)
  | .ok responseCommon =>
  if !responseCommon.success then
    (onClientConn (parseErrorResponse responseCommon)).bind fun parsed =>
    match parsed with
    | .error e => .ret (([], some (.wrap "failed to parse error response" e)), c)
    | .ok errorResponse =>
      .ret (([], some (.remote "failed to read data" errorResponse.code errorResponse.message)), c)
  else
  (onClientConn (parseProcessResponse responseCommon)).bind fun parsed =>
  match parsed with
  | .error e => .ret (([], some (.wrap "failed to parse success response" e)), c)
  | .ok response =>
  if response.counter ≠ c.lastSentCounter then
    .ret (([], some (.other "unexpected response counter")), c)
  else
  match c.session with
  | none => .panic "nil pointer dereference"
  | some session =>
  match newGCM C session.secret with
  | .error e => .ret (([], some e), c)
  | .ok gcm =>
  (ofClientRes (nonce directionServerToClient response.counter gcmNonceSize)).bind fun nonce =>
  match C.aeadOpen gcm nonce response.message with
  | none => .ret (([], some (.wrap "failed to decrypt data from server" (.other "authentication"))), c)
  | some message => .ret (readBuffer { c with buffer := c.buffer ++ message } n))

theorem read_eq (c : Client) (n : Nat) : c.read (C := C) n =
    (if c.readTimeout > 0 then .op .setReadDeadline .ret else .ret none : CProg C (Option Err)).bind
      fun (r : Option Err) =>
    match r with
    | some e => .ret (([], some (.wrap "failed to set connection read deadline" e)), c)
    | none => readBody c n := rfl

theorem tally_read (c : Client) (hc : c.session.isSome = true) (n : Nat)
    {f : (Bytes × Option Err) × Client → FlowProg C FlowLoop} {m : Nat}
    (hf : ∀ r c', c'.session.isSome = true → Tally (f (r, c')) m) :
    Tally ((clientFlow (c.read n)).bind f) m := by
  have hbuf : ∀ c' : Client, c'.session.isSome = true → Tally (f (readBuffer c' n)) m := by
    intro c' hc'
    unfold readBuffer
    split
    · exact hf _ _ hc'
    · exact hf _ _ hc'
  rw [read_eq, clientFlow_bind, Prog.bind_assoc]
  have hmain : Tally ((clientFlow (readBody c n)).bind f) m := by
    unfold readBody
    split
    · exact hbuf _ hc
    · rw [clientFlow_bind, Prog.bind_assoc, clientFlow_onConn]
      refine tally_parser .responseCommon fun parsed => ?_
      cases parsed with
      | error e => exact hf _ _ hc
      | ok common =>
        simp only []
        split
        · rw [clientFlow_bind, Prog.bind_assoc, clientFlow_onConn]
          refine tally_parser (.errorResponse _) fun parsed => ?_
          cases parsed with
          | error e => exact hf _ _ hc
          | ok resp => exact hf _ _ hc
        · rw [clientFlow_bind, Prog.bind_assoc, clientFlow_onConn]
          refine tally_parser (.processResponse _) fun parsed => ?_
          cases parsed with
          | error e => exact hf _ _ hc
          | ok resp =>
            simp only []
            split
            · exact hf _ _ hc
            · cases hsess : c.session with
              | none => simp [hsess] at hc
              | some session =>
                simp only []
                cases newGCM C session.secret with
                | error e => exact hf _ _ hc
                | ok gcm =>
                  obtain ⟨x, hx⟩ : ∃ x, nonce directionServerToClient resp.counter gcmNonceSize = .val x := ⟨_, rfl⟩
                  rw [hx]
                  simp only [ofClientRes, Prog.bind]
                  split
                  · exact hf _ _ hc
                  · exact hbuf _ rfl
  split
  · intro (r : Option Err)
    cases r with
    | some e => exact hf _ _ hc
    | none => exact hmain
  · exact hmain

theorem tally_exchangeAll (msgs : List Bytes) (c : Client) (hc : c.session.isSome = true) :
    Tally (C := C) (exchangeAll c msgs) msgs.length := by
  induction msgs generalizing c with
  | nil => exact ⟨rfl, rfl⟩
  | cons p ps ih =>
    refine tally_write c hc p fun r c' hc' => ?_
    intro hr
    have hr' : r.2.isSome = false := by rw [hr]; rfl
    simp only [hr', Bool.false_eq_true, if_false]
    exact tally_read c' hc' _ fun q c'' hc'' => show Tally (.op (.gotData _) _) _ from ⟨ps.length, rfl, ih c'' hc''⟩

/-! ## What the client reads -/

variable {P : Bytes → Prop}

theorem exchanges_recvAll (xs : Bytes) (acc y : Bytes) {f : Bytes × Bool → FlowProg C FlowLoop} {m : Nat}
    (h : Exchanges P (f (acc ++ xs, true)) (.reading y) m) :
    Exchanges P ((recvAll xs.length acc).bind f) (.reading (xs ++ y)) m := by
  induction xs generalizing acc with
  | nil => simpa [recvAll] using h
  | cons b xs ih => exact ⟨b, xs ++ y, rfl, ih (acc ++ [b]) (by simpa using h)⟩

section
variable {α : Type} {f : Except Err α → FlowProg C FlowLoop} {m : Nat}

theorem exchanges_readOctet (what : String) (k : Byte → RProg (Except Err α)) (b : Byte) (y : Bytes)
    (h : Exchanges P ((parserFlow (k b)).bind f) (.reading y) m) :
    Exchanges P ((parserFlow (readOctet what k)).bind f) (.reading (b :: y)) m := by
  show Exchanges P ((((recvAll (Int.toNat 1) []).bind _).bind _).bind _) (.reading ([b] ++ y)) m
  rw [Prog.bind_assoc, Prog.bind_assoc]
  exact exchanges_recvAll [b] [] y h

theorem exchanges_readField (n : Nat) (what : String) (k : Bytes → RProg (Except Err α)) (bs y : Bytes)
    (hn : bs.length = n) (h : Exchanges P ((parserFlow (k bs)).bind f) (.reading y) m) :
    Exchanges P ((parserFlow (readField n what k)).bind f) (.reading (bs ++ y)) m := by
  show Exchanges P ((((recvAll n []).bind _).bind _).bind _) (.reading (bs ++ y)) m
  rw [Prog.bind_assoc, Prog.bind_assoc]
  subst hn
  exact exchanges_recvAll bs [] y h

theorem exchanges_copyLimit (n : Int) (k : Bytes × Option Err → RProg (Except Err α)) (bs y : Bytes)
    (hn : n = bs.length) (h : Exchanges P ((parserFlow (k (bs, none))).bind f) (.reading y) m) :
    Exchanges P ((parserFlow (.op (.copyLimit n) k)).bind f) (.reading (bs ++ y)) m := by
  show Exchanges P ((((recvAll n.toNat []).bind _).bind _).bind _) (.reading (bs ++ y)) m
  rw [Prog.bind_assoc, Prog.bind_assoc]
  subst hn
  exact exchanges_recvAll bs [] y h

end

theorem exchanges_processResponse (common : ResponseCommon) (counter : BitVec 64) (msg y : Bytes)
    (hl : msg.length ≤ 2 ^ 30) {f : Except Err ProcessResponse → FlowProg C FlowLoop} {m : Nat}
    (h : ∀ r : ProcessResponse, r.message = msg → Exchanges P (f (.ok r)) (.reading y) m) :
    Exchanges P ((parserFlow (parseProcessResponse common)).bind f)
      (.reading (beEnc 8 counter.toNat ++ (beEnc 8 msg.length ++ (msg ++ y)))) m := by
  have hm : BitVec.ofNat 64 (beDec (beEnc 8 msg.length)) = BitVec.ofNat 64 msg.length := by
    rw [beDec_beEnc, Nat.mod_eq_of_lt (by omega)]
  have hn : (BitVec.ofNat 64 msg.length).toNat = msg.length := by
    rw [BitVec.toNat_ofNat, Nat.mod_eq_of_lt (by omega)]
  refine exchanges_readField _ _ _ _ _ (beEnc_length _ _) (exchanges_readField _ _ _ _ _ (beEnc_length _ _) ?_)
  simp only [hm, hn, maxMessageSize]
  rw [if_neg (by omega)]
  exact exchanges_readField _ _ _ _ _ rfl (h _ rfl)

theorem exchanges_errorResponse (common : ResponseCommon) (code : ErrorCode) (msg y : Bytes)
    (hl : msg.length < 2 ^ 63) {f : Except Err ErrorResponse → FlowProg C FlowLoop} {m : Nat}
    (h : ∀ r : ErrorResponse, Exchanges P (f (.ok r)) (.reading y) m) :
    Exchanges P ((parserFlow (parseErrorResponse common)).bind f)
      (.reading (beEnc 4 code.toNat ++ (beEnc 8 msg.length ++ (msg ++ y)))) m := by
  have hm : BitVec.ofNat 64 (beDec (beEnc 8 msg.length)) = BitVec.ofNat 64 msg.length := by
    rw [beDec_beEnc, Nat.mod_eq_of_lt (by omega)]
  have hn : (BitVec.ofNat 64 msg.length).toInt = msg.length := by
    have h2 : (BitVec.ofNat 64 msg.length).toNat = msg.length := by
      rw [BitVec.toNat_ofNat, Nat.mod_eq_of_lt (by omega)]
    rw [BitVec.toInt_eq_toNat_of_lt (by omega), h2]
  refine exchanges_readField _ _ _ _ _ (beEnc_length _ _) (exchanges_readField _ _ _ _ _ (beEnc_length _ _) ?_)
  simp only []
  by_cases h0 : BitVec.ofNat 64 msg.length = 0
  · have : msg.length = 0 := by
      have := congrArg BitVec.toNat h0
      simp at this; omega
    have : msg = [] := List.length_eq_zero_iff.mp this
    subst this
    rw [if_pos (by rw [hm]; exact h0)]
    exact h _
  · rw [if_neg (by rw [hm]; exact h0)]
    refine exchanges_copyLimit _ _ _ _ (by rw [hm]; exact hn) ?_
    simp only []
    rw [if_neg (by rw [hm, hn]; simp)]
    exact h _

/-- A client that waits for answers, does not limit the time, and holds nothing back. -/
def SetUpX (c : Client) : Prop :=
  c.expectReply = true ∧ c.session.isSome = true ∧ ¬ c.readTimeout > 0 ∧ c.buffer = []

/-- Replies that the client accepts. -/
def ShortReply (bs : Bytes) : Prop := bs.length + 16 ≤ 2 ^ 30

theorem exchanges_read (hC : C.Lawful) (hopen : ∀ k n x p, C.aeadOpen k n x = some p → p.length ≤ x.length)
    (hP : ∀ bs, P bs → ShortReply bs) (c : Client) (hc : SetUpX c)
    {f : (Bytes × Option Err) × Client → FlowProg C FlowLoop} {m : Nat}
    (hf : ∀ r c', SetUpX c' → Exchanges P (f (r, c')) (.reading []) m) (y : Bytes) (hy : FlowReply C P true y) :
    Exchanges P ((clientFlow (c.read wholeReply)).bind f) (.reading y) m := by
  rw [read_eq, clientFlow_bind, Prog.bind_assoc, if_neg hc.2.2.1]
  show Exchanges P ((clientFlow (readBody c wholeReply)).bind f) (.reading y) m
  unfold readBody
  rw [if_neg (by simp [hc.2.2.2]), clientFlow_bind, Prog.bind_assoc, clientFlow_onConn]
  rcases hy with ⟨h, -⟩ | ⟨code, text, hl, rfl⟩ | ⟨counter, key, nonce, bs, hbs, rfl⟩
  · cases h
  · have hb : (newErrorResponse code text).bytes = 0#8 :: (beEnc 4 code.toNat ++ (beEnc 8 text.length ++ (text ++ []))) := by
      simp [ErrorResponse.bytes, newErrorResponse, ResponseCommon.bytes]
    rw [hb]
    refine exchanges_readOctet _ _ _ _ ?_
    show Exchanges P ((clientFlow (Prog.bind (onClientConn (parseErrorResponse _)) _)).bind f) _ m
    rw [clientFlow_bind, Prog.bind_assoc, clientFlow_onConn]
    exact exchanges_errorResponse _ _ _ _ (by omega) fun r => hf _ _ hc
  · have hlen : (C.aeadSeal key nonce bs).length ≤ 2 ^ 30 := by
      rw [hC.seal_length]; exact hP bs hbs
    have hb : (newProcessResponse counter (C.aeadSeal key nonce bs)).bytes =
        128#8 :: (beEnc 8 counter.toNat ++
          (beEnc 8 (C.aeadSeal key nonce bs).length ++ (C.aeadSeal key nonce bs ++ []))) := by
      simp [ProcessResponse.bytes, newProcessResponse, ResponseCommon.bytes, Nat.mod_eq_of_lt (show
        (C.aeadSeal key nonce bs).length < 2 ^ 64 by omega)]
    rw [hb]
    refine exchanges_readOctet _ _ _ _ ?_
    show Exchanges P ((clientFlow (Prog.bind (onClientConn (parseProcessResponse _)) _)).bind f) _ m
    rw [clientFlow_bind, Prog.bind_assoc, clientFlow_onConn]
    refine exchanges_processResponse _ _ _ _ hlen fun resp hresp => ?_
    simp only []
    split
    · exact hf _ _ hc
    · have hc2 := hc.2.1
      cases hsess : c.session with
      | none => simp [hsess] at hc2
      | some session =>
        simp only []
        cases newGCM C session.secret with
        | error e => exact hf _ _ hc
        | ok gcm =>
          obtain ⟨x, hx⟩ : ∃ x, Goe2ee.nonce directionServerToClient resp.counter gcmNonceSize = .val x := ⟨_, rfl⟩
          rw [hx]
          simp only [ofClientRes, Prog.bind]
          cases ho : C.aeadOpen gcm x resp.message with
          | none => exact hf _ _ hc
          | some message =>
            have hml := hopen _ _ _ _ ho
            rw [hresp] at hml
            have hml : message.length ≤ wholeReply := Nat.le_trans hml hlen
            show Exchanges P (f (readBuffer _ wholeReply)) _ m
            unfold readBuffer
            simp only [hc.2.2.2, List.nil_append]
            split
            · rename_i hnil
              refine hf _ _ ⟨hc.1, rfl, hc.2.2.1, ?_⟩
              exact hnil.1
            · refine hf _ _ ⟨hc.1, rfl, hc.2.2.1, ?_⟩
              exact List.drop_eq_nil_of_le hml

/-! ## What the client sends -/

theorem exchanges_sendAll {f : Nat × Option Err → FlowProg C FlowLoop} {m : Nat} (b : Byte) (bs : Bytes) (n : Nat)
    (hs : ∀ r : Nat × Option Err, ∀ y, FlowReply C P true y → Exchanges P (f r) (.reading y) m) :
    Exchanges P ((sendAll (b :: bs) n).bind f) (.part (b :: bs)) m := by
  induction bs generalizing b n with
  | nil => exact ⟨[], .inr rfl, fun _ y hy => hs _ y hy, fun h => (h rfl).elim⟩
  | cons b' bs ih => exact ⟨b' :: bs, .inr rfl, (fun h => by cases h), fun _ => ih b' (n + 1)⟩

theorem exchanges_request {f : Nat × Option Err → FlowProg C FlowLoop} {m : Nat} {req : Bytes}
    (hreq : FlowRequest true req)
    (hs : ∀ r : Nat × Option Err, ∀ y, FlowReply C P true y → Exchanges P (f r) (.reading y) m) :
    Exchanges P ((sendAll req 0).bind f) .idle m := by
  obtain ⟨flags, id, counter, msg, -, -, rfl⟩ := flowRequest_bytes hreq
  refine ⟨_, .inl ⟨rfl, hreq⟩, (fun h => by cases h), fun _ => exchanges_sendAll _ _ _ hs⟩

theorem exchanges_write (hC : C.Lawful) (c : Client) (hc : SetUpX c) (p : Bytes) (hp : p.length + 16 ≤ 2 ^ 30)
    {f : (Nat × Option Err) × Client → FlowProg C FlowLoop} {m : Nat}
    (hs : ∀ r c', SetUpX c' → ∀ y, FlowReply C P true y → Exchanges P (f (r, c')) (.reading y) m)
    (hi : ∀ r c', SetUpX c' → r.2 ≠ none → Exchanges P (f (r, c')) .idle m) :
    Exchanges P ((clientFlow (c.write p)).bind f) .idle m := by
  rw [Client.write, clientFlow_bind, Prog.bind_assoc]
  have hrest : ∀ r : Option Err, Exchanges P ((clientFlow (match r with
      | some e => (.ret ((0, some (.wrap "failed to set connection write deadline" e)), c) :
          CProg C ((Nat × Option Err) × Client))
      | none =>
      match c.session with
      | none => .panic "nil pointer dereference"
      | some session =>
      match newGCM C session.secret with
      | .error e => .ret ((0, some e), c)
      | .ok gcm =>
      .op (.addCounter session.sendCounter) fun (counter : BitVec 64) =>
      if counter = 0 then .ret ((0, some (.other "message counter exhausted")), c)
      else
      (ofClientRes (nonce directionClientToServer counter gcmNonceSize)).bind fun nonce =>
      .op (.aead gcm nonce p) fun (sealed : Bytes) =>
      .op (.write (newProcessRequest session.id counter sealed c.expectReply).bytes)
        fun (r : Nat × Option Err) =>
      .ret (r, { c with lastSentCounter := counter }))).bind f) .idle m := by
    intro r
    cases r with
    | some e => exact hi _ _ hc (by simp)
    | none =>
      obtain ⟨h1, h2, h3, h4⟩ := hc
      cases hsess : c.session with
      | none => simp [hsess] at h2
      | some session =>
        simp only []
        cases newGCM C session.secret with
        | error e => exact hi _ _ ⟨h1, h2, h3, h4⟩ (by simp)
        | ok gcm =>
          intro (counter : BitVec 64) _
          show Exchanges P (Prog.bind (clientFlow (if counter = 0 then _ else _)) f) .idle m
          split
          · exact hi _ _ ⟨h1, h2, h3, h4⟩ (by simp)
          · intro sealed hsealed
            have hlen : sealed.length ≤ 2 ^ 30 := by
              rw [show sealed = _ from hsealed, hC.seal_length]; exact hp
            have hreq : FlowRequest true (newProcessRequest session.id counter sealed c.expectReply).bytes :=
              ⟨session.id, counter, sealed, hlen, by rw [h1]⟩
            refine Eq.mpr (congrArg (Exchanges P · .idle m) (Prog.bind_assoc (S := FlowSig C) (sendAll _ 0) _ f)) ?_
            exact exchanges_request hreq fun r => hs r _ ⟨h1, rfl, h3, h4⟩
  split
  · exact fun r _ => hrest r
  · exact hrest none

theorem exchanges_exchangeAll (hC : C.Lawful) (hopen : ∀ k n x p, C.aeadOpen k n x = some p → p.length ≤ x.length)
    (hP : ∀ bs, P bs → ShortReply bs) (msgs : List Bytes) (hm : ∀ p ∈ msgs, p.length + 16 ≤ 2 ^ 30) (c : Client)
    (hc : SetUpX c) : Exchanges P (C := C) (exchangeAll c msgs) .idle msgs.length := by
  induction msgs generalizing c with
  | nil => exact ⟨rfl, rfl, rfl⟩
  | cons p ps ih =>
    refine exchanges_write hC c hc p (hm p List.mem_cons_self) (fun r c' hc' y hy hr => ?_) fun r c' hc' hr hr' =>
      (hr hr').elim
    have hr' : r.2.isSome = false := by rw [hr]; rfl
    simp only [hr', Bool.false_eq_true, if_false]
    exact exchanges_read hC hopen hP c' hc' (fun q c'' hc'' => show Exchanges P (.op (.gotData _) _) _ _ from
      ⟨ps.length, rfl, rfl, ih (fun q hq => hm q (List.mem_cons_of_mem _ hq)) c'' hc''⟩) y hy

end

/-! ## Both ends -/

section
variable {C : Crypto} {P : Bytes → Prop}

/-- The server has answered a request in full and begins the next pass. -/
def Waiting (P : Bytes → Prop) (p : FlowProg C FlowLoop) : Prop :=
  p = .ret .serving ∨ ∃ o, (∀ y, FlowReply C P true (o ++ y) → y = []) ∧ Pass P true p [] o

/-- The server waits for a request. -/
def FreshLoop (P : Bytes → Prop) (p : FlowProg C FlowLoop) : Prop :=
  ∀ req, FlowRequest true req → Pass P true p req []

/-- The server has still to read `rest` of the request and has sent `out`, or has just answered with `out`. -/
def Serves (P : Bytes → Prop) (p : FlowProg C FlowLoop) (rest out : Bytes) : Prop :=
  (Waiting P p ∧ out = [] ∧ FlowRequest true rest) ∨ (Pass P true p rest out ∧ (rest = [] ∨ out = [])) ∨
  (FreshLoop P p ∧ rest = [] ∧ FlowReply C P true out)

/-- The connection is open. -/
def OpenX (P : Bytes → Prop) (q p : FlowProg C FlowLoop) (m : Nat) (w : FlowWorld) : Prop :=
  (Exchanges P q .idle m ∧ w.up = [] ∧ w.down = [] ∧ (Waiting P p ∨ FreshLoop P p)) ∨
  (∃ ps, Exchanges P q (.part ps) m ∧ ps ≠ [] ∧ w.down = [] ∧ Serves P p (w.up ++ ps) []) ∨
  (∃ inp, (∀ y, FlowReply C P true (inp ++ y) → Exchanges P q (.reading y) m) ∧
    (∃ y, FlowReply C P true (inp ++ w.down ++ y)) ∧ Serves P p w.up (inp ++ w.down))

/-- The goroutine has come to its end. -/
def Halted (p : FlowProg C FlowLoop) : Prop := p = .ret .ended ∨ ∃ e, p = .panic e

/-- A message could not be sent. -/
def FlowWorld.failed (w : FlowWorld) : Prop := ∃ r ∈ w.written, r.2 ≠ none

/-- What holds at any time, unless a message could not be sent. -/
def InvX (P : Bytes → Prop) (n roomUp : Nat) (q p : FlowProg C FlowLoop) (w : FlowWorld) : Prop :=
  w.up.length ≤ roomUp ∧ (w.failed ∨ ∃ m, w.got.length + m = n ∧ Tally q m ∧
    ((w.closed = true ∧ Halted p) ∨ (w.closed = false ∧ OpenX P q p m w)))

theorem exists_flowReply (C : Crypto) (P : Bytes → Prop) : ∃ out, FlowReply C P true out :=
  ⟨_, .inr (.inl ⟨0, [], by simp, rfl⟩)⟩

theorem not_flowReply_nil : ¬ FlowReply C P true [] := fun h => by
  have := flowReply_pos h
  simp at this

variable {M : Manager C} {host : Except Err Bytes} {roomUp roomDown : Nat} {env : FlowEnv C}

/-- The server moves while no request is under way. -/
theorem idle_server (hM : M.Passive) (henv : EnvGood P env) {p : FlowProg C FlowLoop} {w : FlowWorld}
    (hup : w.up = []) (h : Waiting P p ∨ FreshLoop P p) :
    ((turn M host roomUp roomDown env 1 p w).2 = { w with closed := true } ∧
      Halted (turn M host roomUp roomDown env 1 p w).1) ∨
      ((turn M host roomUp roomDown env 1 p w).2 = w ∧
        (Waiting P (turn M host roomUp roomDown env 1 p w).1 ∨ FreshLoop P (turn M host roomUp roomDown env 1 p w).1)) := by
  obtain ⟨req, hreq⟩ := exists_flowRequest true
  rcases h with (rfl | ⟨o, ho, hp⟩) | hp
  · exact .inr ⟨rfl, .inr fun req hreq => pass_serverPass hM host hreq⟩
  · cases p with
    | ret l =>
      obtain ⟨rfl, -⟩ := hp
      exact .inr ⟨rfl, .inr fun req hreq => pass_serverPass hM host hreq⟩
    | panic e => exact hp.elim
    | op op k =>
      cases op with
      | send b =>
        obtain ⟨-, ⟨y, hy⟩, -⟩ := hp
        rw [List.append_assoc] at hy
        exact absurd (ho _ hy) (by simp)
      | recv => obtain ⟨-, b, rest, h, -⟩ := hp; cases h
      | hangUp => exact .inl ⟨rfl, hp⟩
      | server so => exact .inr ⟨rfl, .inl (.inr ⟨o, ho, hp _ (flowGood_answer henv so)⟩)⟩
      | client so => exact hp.elim
      | wrote r => exact hp.elim
      | gotData r => exact hp.elim
  · cases p with
    | ret l => exact (flowRequest_ne hreq (hp req hreq).2.1).elim
    | panic e => exact (hp req hreq).elim
    | op op k =>
      cases op with
      | send b => exact (flowRequest_ne hreq (hp req hreq).1).elim
      | recv =>
        rw [turn_server_empty hup]
        exact .inr ⟨rfl, .inr hp⟩
      | hangUp => exact .inl ⟨rfl, hp req hreq⟩
      | server so => exact .inr ⟨rfl, .inr fun req hreq => hp req hreq _ (flowGood_answer henv so)⟩
      | client so => exact (hp req hreq).elim
      | wrote r => exact (hp req hreq).elim
      | gotData r => exact (hp req hreq).elim

/-- The server moves while a request, or the answer to it, is under way. -/
theorem serves_server (hM : M.Passive) (henv : EnvGood P env) {p : FlowProg C FlowLoop} {w : FlowWorld} (ps inp : Bytes)
    (hpre : ∃ y, FlowReply C P true (inp ++ w.down ++ y)) (h : Serves P p (w.up ++ ps) (inp ++ w.down)) :
    ((turn M host roomUp roomDown env 1 p w).2 = { w with closed := true } ∧
      Halted (turn M host roomUp roomDown env 1 p w).1) ∨
      (∃ up down, (turn M host roomUp roomDown env 1 p w).2 = { w with up, down } ∧
        (∃ y, FlowReply C P true (inp ++ down ++ y)) ∧ (ps ≠ [] → down = w.down) ∧
        Serves P (turn M host roomUp roomDown env 1 p w).1 (up ++ ps) (inp ++ down)) := by
  obtain ⟨req, hreq⟩ := exists_flowRequest true
  rcases h with ⟨(rfl | ⟨o, ho, hp⟩), h1, h2⟩ | ⟨hp, hor⟩ | ⟨hp, h1, h2⟩
  · exact .inr ⟨w.up, w.down, rfl, hpre, fun _ => rfl, .inr (.inl ⟨by rw [h1]; exact pass_serverPass hM host h2, .inr h1⟩)⟩
  · cases p with
    | ret l =>
      obtain ⟨rfl, -⟩ := hp
      exact .inr ⟨w.up, w.down, rfl, hpre, fun _ => rfl,
        .inr (.inl ⟨by rw [h1]; exact pass_serverPass hM host h2, .inr h1⟩)⟩
    | panic e => exact hp.elim
    | op op k =>
      cases op with
      | send b =>
        obtain ⟨-, ⟨y, hy⟩, -⟩ := hp
        rw [List.append_assoc] at hy
        exact absurd (ho _ hy) (by simp)
      | recv => obtain ⟨-, b, rest, h, -⟩ := hp; cases h
      | hangUp => exact .inl ⟨rfl, hp⟩
      | server so =>
        exact .inr ⟨w.up, w.down, rfl, hpre, fun _ => rfl,
          .inl ⟨.inr ⟨o, ho, hp _ (flowGood_answer henv so)⟩, h1, h2⟩⟩
      | client so => exact hp.elim
      | wrote r => exact hp.elim
      | gotData r => exact hp.elim
  · cases p with
    | ret l =>
      obtain ⟨rfl, h1, h2⟩ := hp
      exact .inr ⟨w.up, w.down, rfl, hpre, fun _ => rfl,
        .inr (.inr ⟨fun req hreq => pass_serverPass hM host hreq, h1, h2⟩)⟩
    | panic e => exact hp.elim
    | op op k =>
      cases op with
      | send b =>
        by_cases hd : w.down.length < roomDown
        · rw [turn_server_send hd]
          obtain ⟨h1, ⟨y, hy⟩, h2⟩ := hp
          rw [List.append_assoc inp] at hy h2
          refine .inr ⟨w.up, w.down ++ [b], rfl, ⟨y, hy⟩, fun hps => ?_, .inr (.inl ⟨h2, .inl h1⟩)⟩
          exact (hps (List.append_eq_nil_iff.mp h1).2).elim
        · rw [turn_server_full hd]
          exact .inr ⟨w.up, w.down, rfl, hpre, fun _ => rfl, .inr (.inl ⟨hp, hor⟩)⟩
      | recv =>
        cases hw : w.up with
        | nil =>
          rw [turn_server_empty hw]
          rw [hw] at hp hor
          exact .inr ⟨[], w.down, by rw [← hw], hpre, fun _ => rfl, .inr (.inl ⟨hp, hor⟩)⟩
        | cons b up =>
          rw [turn_server_recv hw]
          obtain ⟨h1, b', rest, h2, h3⟩ := hp
          rw [hw, List.cons_append] at h2
          obtain ⟨rfl, rfl⟩ := List.cons.inj h2
          exact .inr ⟨up, w.down, rfl, hpre, fun _ => rfl, .inr (.inl ⟨h3, .inr h1⟩)⟩
      | hangUp => exact .inl ⟨rfl, hp⟩
      | server so =>
        exact .inr ⟨w.up, w.down, rfl, hpre, fun _ => rfl,
          .inr (.inl ⟨hp _ (flowGood_answer henv so), hor⟩)⟩
      | client so => exact hp.elim
      | wrote r => exact hp.elim
      | gotData r => exact hp.elim
  · cases p with
    | ret l => exact (flowRequest_ne hreq (hp req hreq).2.1).elim
    | panic e => exact (hp req hreq).elim
    | op op k =>
      cases op with
      | send b => exact (flowRequest_ne hreq (hp req hreq).1).elim
      | recv =>
        rw [turn_server_empty (List.append_eq_nil_iff.mp h1).1]
        exact .inr ⟨w.up, w.down, rfl, hpre, fun _ => rfl, .inr (.inr ⟨hp, h1, h2⟩)⟩
      | hangUp => exact .inl ⟨rfl, hp req hreq⟩
      | server so =>
        exact .inr ⟨w.up, w.down, rfl, hpre, fun _ => rfl,
          .inr (.inr ⟨fun req hreq => hp req hreq _ (flowGood_answer henv so), h1, h2⟩)⟩
      | client so => exact (hp req hreq).elim
      | wrote r => exact (hp req hreq).elim
      | gotData r => exact (hp req hreq).elim

/-- The server does not write for the application at the client, and a closed connection stays closed. -/
theorem turn_server_seen {p : FlowProg C FlowLoop} {w : FlowWorld} : w.failed → (turn M host roomUp roomDown env 1 p w).2.failed := by
  intro hf
  cases p with
  | ret l => exact hf
  | panic m => exact hf
  | op o k =>
    cases o with
    | send b =>
      by_cases h : w.down.length < roomDown
      · rw [turn_server_send h]; exact hf
      · rw [turn_server_full h]; exact hf
    | recv =>
      cases h : w.up with
      | nil => rw [turn_server_empty h]; exact hf
      | cons b up => rw [turn_server_recv h]; exact hf
    | hangUp => exact hf
    | server o => exact hf
    | client o => exact hf
    | wrote r =>
      obtain ⟨x, hx, hn⟩ := hf
      exact ⟨x, List.mem_append_left _ hx, hn⟩
    | gotData r => exact hf

theorem turn_client_seen {q : FlowProg C FlowLoop} {w : FlowWorld} :
    w.failed → (turn M host roomUp roomDown env 0 q w).2.failed := by
  intro hf
  cases q with
  | ret l => exact hf
  | panic m => exact hf
  | op o k =>
    cases o with
    | send b =>
      cases hc : w.closed with
      | true => rw [turn_client_closed hc]; exact hf
      | false =>
        by_cases h : w.up.length < roomUp
        · rw [turn_client_send hc h]; exact hf
        · rw [turn_client_full hc h]; exact hf
    | recv =>
      cases h : w.down with
      | cons b up => rw [turn_client_recv h]; exact hf
      | nil =>
        cases hc : w.closed with
        | true => rw [turn_client_over h hc]; exact hf
        | false => rw [turn_client_empty h hc]; exact hf
    | hangUp => exact hf
    | server o => exact hf
    | client o => exact hf
    | wrote r =>
      obtain ⟨x, hx, hn⟩ := hf
      exact ⟨x, List.mem_append_left _ hx, hn⟩
    | gotData r => exact hf

theorem turn_client_room {q : FlowProg C FlowLoop} {w : FlowWorld} (hle : w.up.length ≤ roomUp) :
    (turn M host roomUp roomDown env 0 q w).2.up.length ≤ roomUp := by
  cases q with
  | ret l => exact hle
  | panic m => exact hle
  | op o k =>
    cases o with
    | send b =>
      cases hc : w.closed with
      | true => rw [turn_client_closed hc]; exact hle
      | false =>
        by_cases h : w.up.length < roomUp
        · rw [turn_client_send hc h]
          simp only [List.length_append, List.length_cons, List.length_nil]
          omega
        · rw [turn_client_full hc h]; exact hle
    | recv =>
      cases h : w.down with
      | cons b up => rw [turn_client_recv h]; exact hle
      | nil =>
        cases hc : w.closed with
        | true => rw [turn_client_over h hc]; exact hle
        | false => rw [turn_client_empty h hc]; exact hle
    | hangUp => exact hle
    | server o => exact hle
    | client o => exact hle
    | wrote r => exact hle
    | gotData r => exact hle

/-- A step of the server. -/
theorem InvX.server (hM : M.Passive) (henv : EnvGood P env) {n : Nat} {q p : FlowProg C FlowLoop} {w : FlowWorld}
    (h : InvX P n roomUp q p w) :
    InvX P n roomUp q (turn M host roomUp roomDown env 1 p w).1 (turn M host roomUp roomDown env 1 p w).2 := by
  obtain ⟨hle, h⟩ := h
  refine ⟨Nat.le_trans (turn_server_le p).1 hle, ?_⟩
  rcases h with h | ⟨m, hm, ht, h⟩
  · exact .inl (turn_server_seen h)
  · right
    rcases h with ⟨hc, rfl | ⟨e, rfl⟩⟩ | ⟨hc, h⟩
    · exact ⟨m, hm, ht, .inl ⟨hc, .inl rfl⟩⟩
    · exact ⟨m, hm, ht, .inl ⟨hc, .inr ⟨e, rfl⟩⟩⟩
    · rcases h with ⟨hq, hu, hd, hs⟩ | ⟨ps, hq, hne, hd, hs⟩ | ⟨inp, hq, hpre, hs⟩
      · rcases idle_server (host := host) (roomUp := roomUp) (roomDown := roomDown) hM henv hu hs with ⟨h1, h2⟩ | ⟨h1, h2⟩
        · rw [h1]
          exact ⟨m, hm, ht, .inl ⟨rfl, h2⟩⟩
        · rw [h1]
          exact ⟨m, hm, ht, .inr ⟨hc, .inl ⟨hq, hu, hd, h2⟩⟩⟩
      · obtain ⟨out, hout⟩ := exists_flowReply C P
        rcases serves_server (host := host) (roomUp := roomUp) (roomDown := roomDown) hM henv ps []
          ⟨out, by rw [hd]; exact hout⟩ (by rw [hd]; exact hs) with ⟨h1, h2⟩ | ⟨up, down, h1, -, h2, h3⟩
        · rw [h1]
          exact ⟨m, hm, ht, .inl ⟨rfl, h2⟩⟩
        · rw [h1]
          have hd' := (h2 hne).trans hd
          rw [hd'] at h3
          exact ⟨m, hm, ht, .inr ⟨hc, .inr (.inl ⟨ps, hq, hne, hd', h3⟩)⟩⟩
      · rcases serves_server (host := host) (roomUp := roomUp) (roomDown := roomDown) hM henv [] inp hpre
          (by rw [List.append_nil]; exact hs) with ⟨h1, h2⟩ | ⟨up, down, h1, h4, -, h3⟩
        · rw [h1]
          exact ⟨m, hm, ht, .inl ⟨rfl, h2⟩⟩
        · rw [h1]
          rw [List.append_nil] at h3
          exact ⟨m, hm, ht, .inr ⟨hc, .inr (.inr ⟨inp, hq, h4, h3⟩)⟩⟩

/-- A step of the client while the connection is open, other than `Write` reporting an error. -/
theorem openX_client {q p : FlowProg C FlowLoop} {w : FlowWorld} {m : Nat} (hc : w.closed = false)
    (ht : Tally q m) (h : OpenX P q p m w) :
    (turn M host roomUp roomDown env 0 q w).2.failed ∨
    ∃ m', (turn M host roomUp roomDown env 0 q w).2.got.length + m' = w.got.length + m ∧
      Tally (turn M host roomUp roomDown env 0 q w).1 m' ∧
      (turn M host roomUp roomDown env 0 q w).2.closed = false ∧
      OpenX P (turn M host roomUp roomDown env 0 q w).1 p m' (turn M host roomUp roomDown env 0 q w).2 := by
  obtain ⟨out, hout⟩ := exists_flowReply C P
  cases q with
  | ret l =>
    obtain ⟨rfl, -⟩ := id ht
    exact .inr ⟨m, rfl, ht, hc, h⟩
  | panic e => exact ht.elim
  | op o k =>
    cases o with
    | send b =>
      by_cases hroom : w.up.length < roomUp
      · rw [turn_client_send hc hroom]
        refine .inr ⟨m, rfl, ht true, hc, ?_⟩
        rcases h with ⟨⟨ps, h1, h2, h3⟩, hu, hd, hs⟩ | ⟨ps', ⟨ps, h1, h2, h3⟩, hne, hd, hs⟩ | ⟨inp, hq, ⟨y, hy⟩, hs⟩
        · rcases h1 with ⟨-, hreq⟩ | h1
          · have hserves : Serves P p (b :: ps) [] := by
              rcases hs with hs | hs
              · exact .inl ⟨hs, rfl, hreq⟩
              · exact .inr (.inl ⟨hs _ hreq, .inr rfl⟩)
            by_cases hps : ps = []
            · subst hps
              refine .inr (.inr ⟨[], fun y hy => h2 rfl y hy, ⟨out, by simp only [hd]; exact hout⟩, ?_⟩)
              simp only [hu, hd]
              exact hserves
            · refine .inr (.inl ⟨ps, h3 hps, hps, hd, ?_⟩)
              simp only [hu]
              exact hserves
          · cases h1
        · rcases h1 with ⟨h1, -⟩ | h1
          · cases h1
          · cases h1
            have happ : w.up ++ b :: ps = (w.up ++ [b]) ++ ps := by simp
            rw [happ] at hs
            by_cases hps : ps = []
            · subst hps
              refine .inr (.inr ⟨[], fun y hy => h2 rfl y hy, ⟨out, by simp only [hd]; exact hout⟩, ?_⟩)
              simp only [hd]
              rw [List.append_nil] at hs
              exact hs
            · exact .inr (.inl ⟨ps, h3 hps, hps, hd, hs⟩)
        · rw [List.append_assoc] at hy
          obtain ⟨ps, h1 | h1, -⟩ := hq _ hy
          · cases h1.1
          · cases h1
      · rw [turn_client_full hc hroom]
        exact .inr ⟨m, rfl, ht, hc, h⟩
    | recv =>
      cases hd : w.down with
      | nil =>
        rw [turn_client_empty hd hc]
        exact .inr ⟨m, rfl, ht, hc, h⟩
      | cons b down =>
        rw [turn_client_recv hd]
        refine .inr ⟨m, rfl, ht _, hc, ?_⟩
        rcases h with ⟨⟨b', y, h1, -⟩, -⟩ | ⟨ps', ⟨b', y, h1, -⟩, -⟩ | ⟨inp, hq, hpre, hs⟩
        · cases h1
        · cases h1
        · rw [hd] at hpre hs
          have happ : inp ++ b :: down = (inp ++ [b]) ++ down := by simp
          rw [happ] at hpre hs
          refine .inr (.inr ⟨inp ++ [b], fun y hy => ?_, hpre, hs⟩)
          rw [List.append_assoc] at hy
          obtain ⟨b', y', h1, h2⟩ := hq _ hy
          cases h1
          exact h2
    | client o =>
      have hg := clientGood_answer env o
      refine .inr ⟨m, rfl, ht _, hc, ?_⟩
      rcases h with ⟨hq, hrest⟩ | ⟨ps, hq, hrest⟩ | ⟨inp, hq, hrest⟩
      · exact .inl ⟨hq _ hg, hrest⟩
      · exact .inr (.inl ⟨ps, hq _ hg, hrest⟩)
      · exact .inr (.inr ⟨inp, fun y hy => hq y hy _ hg, hrest⟩)
    | wrote r =>
      cases hr : r.2 with
      | some e => exact .inl ⟨r, List.mem_append_right _ List.mem_cons_self, by rw [hr]; simp⟩
      | none =>
        refine .inr ⟨m, rfl, ht hr, hc, ?_⟩
        rcases h with ⟨hq, hrest⟩ | ⟨ps, hq, hrest⟩ | ⟨inp, hq, hrest⟩
        · exact .inl ⟨hq hr, hrest⟩
        · exact .inr (.inl ⟨ps, hq hr, hrest⟩)
        · exact .inr (.inr ⟨inp, fun y hy => hq y hy hr, hrest⟩)
    | gotData r =>
      rcases h with ⟨⟨m', h1, -⟩, -⟩ | ⟨ps', ⟨m', h1, -⟩, -⟩ | ⟨inp, hq, ⟨y, hy⟩, hs⟩
      · cases h1
      · cases h1
      · rw [List.append_assoc] at hy
        obtain ⟨m', h1, rfl, h2⟩ := hq _ hy
        obtain ⟨m'', hm'', ht'⟩ := ht
        obtain rfl : m' = m'' := by omega
        have h1 := List.append_eq_nil_iff.mp (Exchange.reading.inj h1)
        have hfree : ∀ y, FlowReply C P true (inp ++ y) → y = [] := by
          intro y hy
          obtain ⟨-, h1, -⟩ := hq y hy
          exact Exchange.reading.inj h1
        rw [h1.1, h1.2, List.append_nil, List.append_nil] at hy
        have hinp : inp ≠ [] := fun h => not_flowReply_nil (h ▸ hy)
        refine .inr ⟨m', ?_, ht', hc, .inl ⟨h2, ?_⟩⟩
        · show (w.got ++ [r]).length + m' = _
          simp only [List.length_append, List.length_cons, List.length_nil]
          omega
        · show w.up = [] ∧ w.down = [] ∧ _
          rw [h1.1, List.append_nil] at hs
          rcases hs with ⟨-, h, -⟩ | ⟨hp, h⟩ | ⟨hp, h, -⟩
          · exact (hinp h).elim
          · have hu := h.resolve_right hinp
            rw [hu] at hp
            exact ⟨hu, h1.1, .inl (.inr ⟨inp, hfree, hp⟩)⟩
          · exact ⟨h, h1.1, .inr hp⟩
    | hangUp => exact ht.elim
    | server o => exact ht.elim

/-- A step of the client after the connection was closed. -/
theorem closed_client {q : FlowProg C FlowLoop} {w : FlowWorld} {m : Nat} (hc : w.closed = true) (ht : Tally q m) :
    (turn M host roomUp roomDown env 0 q w).2.failed ∨
    ∃ m', (turn M host roomUp roomDown env 0 q w).2.got.length + m' = w.got.length + m ∧
      Tally (turn M host roomUp roomDown env 0 q w).1 m' ∧
      (turn M host roomUp roomDown env 0 q w).2.closed = true := by
  cases q with
  | ret l =>
    obtain ⟨rfl, -⟩ := id ht
    exact .inr ⟨m, rfl, ht, hc⟩
  | panic e => exact ht.elim
  | op o k =>
    cases o with
    | send b =>
      rw [turn_client_closed hc]
      exact .inr ⟨m, rfl, ht _, hc⟩
    | recv =>
      cases hd : w.down with
      | nil =>
        rw [turn_client_over hd hc]
        exact .inr ⟨m, rfl, ht _, hc⟩
      | cons b down =>
        rw [turn_client_recv hd]
        exact .inr ⟨m, rfl, ht _, hc⟩
    | client o => exact .inr ⟨m, rfl, ht _, hc⟩
    | wrote r =>
      cases hr : r.2 with
      | some e => exact .inl ⟨r, List.mem_append_right _ List.mem_cons_self, by rw [hr]; simp⟩
      | none => exact .inr ⟨m, rfl, ht hr, hc⟩
    | gotData r =>
      obtain ⟨m', rfl, ht'⟩ := ht
      refine .inr ⟨m', ?_, ht', hc⟩
      show (w.got ++ [r]).length + m' = _
      simp only [List.length_append, List.length_cons, List.length_nil]
      omega
    | hangUp => exact ht.elim
    | server o => exact ht.elim

theorem InvX.client {n : Nat} {q p : FlowProg C FlowLoop} {w : FlowWorld} (h : InvX P n roomUp q p w) :
    InvX P n roomUp (turn M host roomUp roomDown env 0 q w).1 p (turn M host roomUp roomDown env 0 q w).2 := by
  obtain ⟨hle, h⟩ := h
  refine ⟨turn_client_room hle, ?_⟩
  rcases h with h | ⟨m, hm, ht, ⟨hc, h⟩ | ⟨hc, h⟩⟩
  · exact .inl (turn_client_seen h)
  · rcases closed_client (M := M) (host := host) (roomUp := roomUp) (roomDown := roomDown) (env := env) hc ht with
      h' | ⟨m', h1, h2, h3⟩
    · exact .inl h'
    · exact .inr ⟨m', by omega, h2, .inl ⟨h3, h⟩⟩
  · rcases openX_client (M := M) (host := host) (roomUp := roomUp) (roomDown := roomDown) (env := env) hc ht h with
      h' | ⟨m', h1, h2, h3, h4⟩
    · exact .inl h'
    · exact .inr ⟨m', by omega, h2, .inr ⟨h3, h4⟩⟩

theorem trace_invX {app : FlowProg C FlowLoop} {σ : Nat → Nat × FlowEnv C} (hM : M.Passive) (n : Nat)
    (hσ : ∀ m, EnvGood P (σ m).2) (happ : Exchanges P app .idle n) (htally : Tally app n) (m : Nat) :
    InvX P n roomUp (flowTrace M host roomUp roomDown (atStart app) σ m).1 (flowTrace M host roomUp roomDown (atStart app) σ m).2.1
      (flowTrace M host roomUp roomDown (atStart app) σ m).2.2 :=
  trace_inv (InvX P n roomUp) (fun _ _ _ _ h => h.client) (fun j _ _ _ h => h.server hM (hσ j))
    ⟨Nat.zero_le _, .inr ⟨n, Nat.zero_add _, htally, .inr ⟨rfl, .inl ⟨happ, rfl, rfl, .inl (.inl rfl)⟩⟩⟩⟩ m

/-! ## Under a fair schedule -/

variable {app : FlowEnds C} {σ : Nat → Nat × FlowEnv C}

/-- The client has to wait for the server for ever. -/
def NoData (M : Manager C) (host : Except Err Bytes) (roomUp roomDown : Nat) (app : FlowEnds C)
    (σ : Nat → Nat × FlowEnv C) (t : Nat) : Prop :=
  ∀ m, t ≤ m → (flowTrace M host roomUp roomDown app σ m).2.2.closed = false ∧
    (flowTrace M host roomUp roomDown app σ m).2.2.down = []

theorem turn_server_down (p : FlowProg C FlowLoop) (w : FlowWorld) :
    w.closed = true ∨ w.down ≠ [] → (turn M host roomUp roomDown env 1 p w).2.closed = true ∨
      (turn M host roomUp roomDown env 1 p w).2.down ≠ [] := by
  intro hf
  cases p with
  | ret l => exact hf
  | panic m => exact hf
  | op o k =>
    cases o with
    | send b =>
      by_cases h : w.down.length < roomDown
      · rw [turn_server_send h]
        exact .inr (by simp)
      · rw [turn_server_full h]; exact hf
    | recv =>
      cases h : w.up with
      | nil => rw [turn_server_empty h]; exact hf
      | cons b up => rw [turn_server_recv h]; exact hf
    | hangUp => exact .inl rfl
    | server o => exact hf
    | client o => exact hf
    | wrote r => exact hf
    | gotData r => exact hf

/-- What is there to read stays until the client moves. -/
theorem trace_data_stays {t m : Nat} (htm : t ≤ m) (hno : ∀ j, t ≤ j → j < m → (σ j).1 ≠ 0)
    (h : (flowTrace M host roomUp roomDown app σ t).2.2.closed = true ∨
      (flowTrace M host roomUp roomDown app σ t).2.2.down ≠ []) :
    (flowTrace M host roomUp roomDown app σ m).2.2.closed = true ∨
      (flowTrace M host roomUp roomDown app σ m).2.2.down ≠ [] := by
  obtain ⟨d, rfl⟩ := Nat.exists_eq_add_of_le htm
  induction d with
  | zero => exact h
  | succ d ih =>
    have ih := ih (by omega) fun j h1 h2 => hno j h1 (by omega)
    have hn := hno (t + d) (by omega) (by omega)
    rw [show t + (d + 1) = t + d + 1 by omega]
    show (flowStep M host roomUp roomDown (flowTrace M host roomUp roomDown app σ (t + d)) (σ (t + d))).2.2.closed = true ∨
      (flowStep M host roomUp roomDown (flowTrace M host roomUp roomDown app σ (t + d)) (σ (t + d))).2.2.down ≠ []
    revert ih
    generalize flowTrace M host roomUp roomDown app σ (t + d) = s
    intro ih
    obtain ⟨q, p, w⟩ := s
    rcases hσ : σ (t + d) with ⟨i, env⟩
    rw [hσ] at hn
    match i with
    | 0 => exact (hn rfl).elim
    | i + 2 => exact ih
    | 1 =>
      rw [flowStep_server]
      exact turn_server_down p w ih

/-- A client that has to read goes on, if the server answers. -/
theorem recv_moves (hfair : FlowFair σ) {t : Nat} {k : (FlowSig C).Ret .recv → FlowProg C FlowLoop}
    (ht : (flowTrace M host roomUp roomDown app σ t).1 = .op .recv k)
    (hno : (∀ m, t ≤ m → (flowTrace M host roomUp roomDown app σ m).1 = .op .recv k) →
      ¬ NoData M host roomUp roomDown app σ t) :
    ∃ m r, (flowTrace M host roomUp roomDown app σ m).1 = k r := by
  have hmove : ∀ m, (σ m).1 = 0 → (flowTrace M host roomUp roomDown app σ m).1 = .op .recv k →
      (turn M host roomUp roomDown (σ m).2 0 (.op .recv k) (flowTrace M host roomUp roomDown app σ m).2.2).1 =
        (flowTrace M host roomUp roomDown app σ (m + 1)).1 := by
    intro m hm hq
    rw [trace_client hm, hq]
  by_cases hex : ∃ m0, t ≤ m0 ∧ (flowTrace M host roomUp roomDown app σ m0).1 = .op .recv k ∧
      ((flowTrace M host roomUp roomDown app σ m0).2.2.closed = true ∨
        (flowTrace M host roomUp roomDown app σ m0).2.2.down ≠ [])
  · obtain ⟨m0, hm0, hq0, hdata0⟩ := hex
    obtain ⟨m, hm, hturn, hfirst, hstay⟩ := client_turn (M := M) (host := host) (roomUp := roomUp)
      (roomDown := roomDown) (app := app) hfair m0
    have hdm := trace_data_stays hm hfirst hdata0
    have := hmove m hturn ((hstay m hm (Nat.le_refl _)).trans hq0)
    cases hd : (flowTrace M host roomUp roomDown app σ m).2.2.down with
    | cons b down =>
      rw [turn_client_recv hd] at this
      exact ⟨m + 1, some b, this.symm⟩
    | nil =>
      rw [hd] at hdm
      rw [turn_client_over hd (hdm.resolve_right (by simp))] at this
      exact ⟨m + 1, none, this.symm⟩
  · exfalso
    have hall : ∀ d, (flowTrace M host roomUp roomDown app σ (t + d)).1 = .op .recv k := by
      intro d
      induction d with
      | zero => exact ht
      | succ d ihd =>
        rw [show t + (d + 1) = t + d + 1 by omega]
        have hno : ¬ ((flowTrace M host roomUp roomDown app σ (t + d)).2.2.closed = true ∨
          (flowTrace M host roomUp roomDown app σ (t + d)).2.2.down ≠ []) :=
          fun h => hex ⟨t + d, by omega, ihd, h⟩
        by_cases h0 : (σ (t + d)).1 = 0
        · rw [← hmove (t + d) h0 ihd, turn_client_empty]
          · cases hd : (flowTrace M host roomUp roomDown app σ (t + d)).2.2.down with
            | nil => rfl
            | cons b down => exact (hno (.inr (by rw [hd]; simp))).elim
          · cases hc : (flowTrace M host roomUp roomDown app σ (t + d)).2.2.closed with
            | true => exact (hno (.inl hc)).elim
            | false => rfl
        · refine Eq.trans ?_ ihd
          show (flowStep M host roomUp roomDown (flowTrace M host roomUp roomDown app σ (t + d)) (σ (t + d))).1 = _
          generalize flowTrace M host roomUp roomDown app σ (t + d) = s
          obtain ⟨q, p, w⟩ := s
          rcases hσ' : σ (t + d) with ⟨i, env⟩
          rw [hσ'] at h0
          match i with
          | 0 => exact (h0 rfl).elim
          | 1 => rw [flowStep_server]
          | i + 2 => rfl
    have hq : ∀ m, t ≤ m → (flowTrace M host roomUp roomDown app σ m).1 = .op .recv k := by
      intro m hm
      have hq := hall (m - t)
      rw [show t + (m - t) = m by omega] at hq
      exact hq
    refine hno hq fun m hm => ⟨?_, ?_⟩
    · cases hc : (flowTrace M host roomUp roomDown app σ m).2.2.closed with
      | true => exact (hex ⟨m, hm, hq m hm, .inl hc⟩).elim
      | false => rfl
    · cases hd : (flowTrace M host roomUp roomDown app σ m).2.2.down with
      | nil => rfl
      | cons b down => exact (hex ⟨m, hm, hq m hm, .inr (by rw [hd]; simp)⟩).elim

/-- While the client waits, nothing changes until the server moves. -/
theorem server_turn_alone (hfair : FlowFair σ) (t : Nat) {k : (FlowSig C).Ret .recv → FlowProg C FlowLoop}
    (hq : ∀ m, t ≤ m → (flowTrace M host roomUp roomDown app σ m).1 = .op .recv k)
    (hno : NoData M host roomUp roomDown app σ t) :
    ∃ m, t ≤ m ∧ (σ m).1 = 1 ∧
      flowTrace M host roomUp roomDown app σ m = flowTrace M host roomUp roomDown app σ t := by
  obtain ⟨m, hm, h1⟩ := hfair 1 (by omega) t
  obtain ⟨d, rfl⟩ := Nat.exists_eq_add_of_le hm
  clear hm
  induction d generalizing t with
  | zero => exact ⟨t, Nat.le_refl _, h1, rfl⟩
  | succ d ih =>
    by_cases hn : (σ t).1 = 1
    · exact ⟨t, Nat.le_refl _, hn, rfl⟩
    · obtain ⟨m, hm, h2, h3⟩ := ih (t + 1) (fun j hj => hq j (by omega)) (fun j hj => hno j (by omega))
        (by rw [show t + 1 + d = t + (d + 1) by omega]; exact h1)
      have hstep : flowTrace M host roomUp roomDown app σ (t + 1) = flowTrace M host roomUp roomDown app σ t := by
        have hnt := hno t (Nat.le_refl _)
        have hqt := hq t (Nat.le_refl _)
        show flowStep M host roomUp roomDown (flowTrace M host roomUp roomDown app σ t) (σ t) = _
        generalize flowTrace M host roomUp roomDown app σ t = s at *
        obtain ⟨q, p, w⟩ := s
        simp only at hqt hnt
        rcases hσ : σ t with ⟨i, env⟩
        rw [hσ] at hn
        match i with
        | 0 => rw [flowStep_client, hqt, turn_client_empty hnt.2 hnt.1]
        | 1 => exact (hn rfl).elim
        | i + 2 => rfl
      exact ⟨m, by omega, h2, by rw [h3, hstep]⟩

section
variable {n : Nat} {k : (FlowSig C).Ret .recv → FlowProg C FlowLoop}

/-- What is known while the client waits for an answer. -/
theorem reading_at
    (hinv : ∀ m, InvX P n roomUp (flowTrace M host roomUp roomDown app σ m).1
      (flowTrace M host roomUp roomDown app σ m).2.1 (flowTrace M host roomUp roomDown app σ m).2.2)
    (hok : ∀ m, ¬ (flowTrace M host roomUp roomDown app σ m).2.2.failed) (t : Nat)
    (hq : (flowTrace M host roomUp roomDown app σ t).1 = .op .recv k)
    (hno : NoData M host roomUp roomDown app σ t) :
    ∃ inp, ¬ FlowReply C P true inp ∧
      Serves P (flowTrace M host roomUp roomDown app σ t).2.1 (flowTrace M host roomUp roomDown app σ t).2.2.up inp := by
  obtain ⟨-, h⟩ := hinv t
  obtain ⟨hc, hd⟩ := hno t (Nat.le_refl _)
  rcases h with h | ⟨m, -, -, h⟩
  · exact (hok t h).elim
  · rcases h with ⟨h, -⟩ | ⟨-, h⟩
    · rw [hc] at h
      cases h
    · rw [hq] at h
      rcases h with ⟨⟨b, y, h, -⟩, -⟩ | ⟨ps, ⟨b, y, h, -⟩, -⟩ | ⟨inp, h, -, hs⟩
      · cases h
      · cases h
      · rw [hd, List.append_nil] at hs
        refine ⟨inp, fun hr => ?_, hs⟩
        obtain ⟨b, y, h, -⟩ := h [] (by rw [List.append_nil]; exact hr)
        cases h

theorem noData_pass (hfair : FlowFair σ) (hdown : 0 < roomDown)
    (hinv : ∀ m, InvX P n roomUp (flowTrace M host roomUp roomDown app σ m).1
      (flowTrace M host roomUp roomDown app σ m).2.1 (flowTrace M host roomUp roomDown app σ m).2.2)
    (hσ : ∀ m, EnvGood P (σ m).2) (hok : ∀ m, ¬ (flowTrace M host roomUp roomDown app σ m).2.2.failed)
    (p : FlowProg C FlowLoop) : ∀ (rest out : Bytes) (t : Nat),
      (∀ m, t ≤ m → (flowTrace M host roomUp roomDown app σ m).1 = .op .recv k) →
      NoData M host roomUp roomDown app σ t → (flowTrace M host roomUp roomDown app σ t).2.1 = p →
      (flowTrace M host roomUp roomDown app σ t).2.2.up = rest → Pass P true p rest out → False := by
  induction p with
  | ret l =>
    intro rest out t hq hno ht hup hp
    obtain ⟨inp, hnr, hs⟩ := reading_at hinv hok t (hq t (Nat.le_refl _)) hno
    rw [ht, hup] at hs
    obtain ⟨rfl, rfl, -⟩ := hp
    rcases hs with ⟨-, -, hreq⟩ | ⟨hp, -⟩ | ⟨-, -, hr⟩
    · exact flowRequest_ne hreq rfl
    · exact hnr hp.2.2
    · exact hnr hr
  | panic e => intro rest out t hq hno ht hup hp; exact hp.elim
  | op o k' ih =>
    intro rest out t hq hno ht hup hp
    obtain ⟨m, hm, hturn, hsame⟩ := server_turn_alone hfair t hq hno
    have hnext := trace_server (M := M) (host := host) (roomUp := roomUp) (roomDown := roomDown) (app := app) hturn
    have hnm := hno m hm
    have hnm' := hno (m + 1) (by omega)
    have hq' : ∀ j, m + 1 ≤ j → (flowTrace M host roomUp roomDown app σ j).1 = .op .recv k := fun j hj => hq j (by omega)
    have hno' : NoData M host roomUp roomDown app σ (m + 1) := fun j hj => hno j (by omega)
    rw [hsame, ht] at hnext
    rw [hsame] at hnm
    cases o with
    | send b =>
      rw [turn_server_send (by rw [hnm.2]; exact hdown)] at hnext
      rw [hnext] at hnm'
      exact absurd hnm'.2 (by simp)
    | recv =>
      obtain ⟨-, b, rest', rfl, hp⟩ := hp
      rw [turn_server_recv hup] at hnext
      exact ih _ rest' out (m + 1) hq' hno' (by rw [hnext]) (by rw [hnext]) hp
    | hangUp =>
      rw [hnext] at hnm'
      exact absurd hnm'.1 (by simp [turn, flowExec])
    | server so =>
      exact ih _ rest out (m + 1) hq' hno' (by rw [hnext]; rfl) (by rw [hnext]; exact hup)
        (hp _ (flowGood_answer (hσ m) so))
    | client so => exact hp.elim
    | wrote r => exact hp.elim
    | gotData r => exact hp.elim

theorem noData_waiting (hM : M.Passive) (hfair : FlowFair σ) (hdown : 0 < roomDown)
    (hinv : ∀ m, InvX P n roomUp (flowTrace M host roomUp roomDown app σ m).1
      (flowTrace M host roomUp roomDown app σ m).2.1 (flowTrace M host roomUp roomDown app σ m).2.2)
    (hσ : ∀ m, EnvGood P (σ m).2) (hok : ∀ m, ¬ (flowTrace M host roomUp roomDown app σ m).2.2.failed)
    (p : FlowProg C FlowLoop) : ∀ (t : Nat),
      (∀ m, t ≤ m → (flowTrace M host roomUp roomDown app σ m).1 = .op .recv k) →
      NoData M host roomUp roomDown app σ t → (flowTrace M host roomUp roomDown app σ t).2.1 = p →
      FlowRequest true (flowTrace M host roomUp roomDown app σ t).2.2.up → Waiting P p → False := by
  have hloop : ∀ t, (∀ m, t ≤ m → (flowTrace M host roomUp roomDown app σ m).1 = .op .recv k) →
      NoData M host roomUp roomDown app σ t → (flowTrace M host roomUp roomDown app σ t).2.1 = .ret .serving →
      FlowRequest true (flowTrace M host roomUp roomDown app σ t).2.2.up → False := by
    intro t hq hno ht hreq
    obtain ⟨m, hm, hturn, hsame⟩ := server_turn_alone hfair t hq hno
    have hnext := trace_server (M := M) (host := host) (roomUp := roomUp) (roomDown := roomDown) (app := app) hturn
    rw [hsame, ht] at hnext
    exact noData_pass hfair hdown hinv hσ hok (serverPass M host) _ [] (m + 1) (fun j hj => hq j (by omega))
      (fun j hj => hno j (by omega)) (by rw [hnext]; rfl) (by rw [hnext]; rfl) (pass_serverPass hM host hreq)
  induction p with
  | ret l =>
    intro t hq hno ht hreq hp
    rcases hp with hp | ⟨o, -, hp⟩
    · exact hloop t hq hno (ht.trans hp) hreq
    · obtain ⟨rfl, -⟩ := hp
      exact hloop t hq hno ht hreq
  | panic e =>
    intro t hq hno ht hreq hp
    rcases hp with hp | ⟨o, -, hp⟩
    · cases hp
    · exact hp.elim
  | op o k' ih =>
    intro t hq hno ht hreq hp
    rcases hp with hp | ⟨o', ho, hp⟩
    · cases hp
    obtain ⟨m, hm, hturn, hsame⟩ := server_turn_alone hfair t hq hno
    have hnext := trace_server (M := M) (host := host) (roomUp := roomUp) (roomDown := roomDown) (app := app) hturn
    have hnm' := hno (m + 1) (by omega)
    rw [hsame, ht] at hnext
    cases o with
    | send b =>
      obtain ⟨-, ⟨y, hy⟩, -⟩ := hp
      rw [List.append_assoc] at hy
      exact absurd (ho _ hy) (by simp)
    | recv => obtain ⟨-, b, rest, h, -⟩ := hp; cases h
    | hangUp =>
      rw [hnext] at hnm'
      exact absurd hnm'.1 (by simp [turn, flowExec])
    | server so =>
      exact ih _ (m + 1) (fun j hj => hq j (by omega)) (fun j hj => hno j (by omega)) (by rw [hnext]; rfl)
        (by rw [hnext]; exact hreq) (.inr ⟨o', ho, hp _ (flowGood_answer (hσ m) so)⟩)
    | client so => exact hp.elim
    | wrote r => exact hp.elim
    | gotData r => exact hp.elim

/-- The server answers, or closes the connection. -/
theorem not_noData (hM : M.Passive) (hfair : FlowFair σ) (hdown : 0 < roomDown)
    (hinv : ∀ m, InvX P n roomUp (flowTrace M host roomUp roomDown app σ m).1
      (flowTrace M host roomUp roomDown app σ m).2.1 (flowTrace M host roomUp roomDown app σ m).2.2)
    (hσ : ∀ m, EnvGood P (σ m).2) (hok : ∀ m, ¬ (flowTrace M host roomUp roomDown app σ m).2.2.failed) (t : Nat)
    (hq : ∀ m, t ≤ m → (flowTrace M host roomUp roomDown app σ m).1 = .op .recv k) :
    ¬ NoData M host roomUp roomDown app σ t := by
  intro hno
  obtain ⟨inp, hnr, hs⟩ := reading_at hinv hok t (hq t (Nat.le_refl _)) hno
  rcases hs with ⟨hw, -, hreq⟩ | ⟨hp, -⟩ | ⟨-, -, hr⟩
  · exact noData_waiting hM hfair hdown hinv hσ hok _ t hq hno rfl hreq hw
  · exact noData_pass hfair hdown hinv hσ hok _ _ _ t hq hno rfl rfl hp
  · exact hnr hr

end

/-- The server takes the message. -/
theorem exchange_not_noRoom {n : Nat} (hM : M.Passive) (hfair : FlowFair σ) (hup : 0 < roomUp) (hdown : 0 < roomDown)
    (hinv : ∀ m, InvX P n roomUp (flowTrace M host roomUp roomDown app σ m).1
      (flowTrace M host roomUp roomDown app σ m).2.1 (flowTrace M host roomUp roomDown app σ m).2.2)
    (hσ : ∀ m, EnvGood P (σ m).2) (hok : ∀ m, ¬ (flowTrace M host roomUp roomDown app σ m).2.2.failed) (t : Nat)
    {b : Byte} {k : (FlowSig C).Ret (.send b) → FlowProg C FlowLoop}
    (hq : ∀ m, t ≤ m → (flowTrace M host roomUp roomDown app σ m).1 = .op (.send b) k) :
    ¬ NoRoom M host roomUp roomDown app σ t := by
  intro hno
  have hpart : ∀ m, t ≤ m → (flowTrace M host roomUp roomDown app σ m).2.2.down = [] ∧ ∃ rest,
      Serves P (flowTrace M host roomUp roomDown app σ m).2.1 rest [] := by
    intro m hm
    obtain ⟨hc, hu⟩ := hno m hm
    obtain ⟨-, h⟩ := hinv m
    rcases h with h | ⟨m', -, -, h⟩
    · exact (hok m h).elim
    · rcases h with ⟨h, -⟩ | ⟨-, h⟩
      · rw [hc] at h
        cases h
      · rw [hq m hm] at h
        rcases h with ⟨-, h, -⟩ | ⟨ps, -, -, hd, hs⟩ | ⟨inp, h, ⟨y, hy⟩, -⟩
        · rw [h] at hu
          simp only [List.length_nil] at hu
          omega
        · exact ⟨hd, _, hs⟩
        · rw [List.append_assoc] at hy
          obtain ⟨ps, h | h, -⟩ := h _ hy
          · cases h.1
          · cases h
  have hcap : ∀ m, (flowTrace M host roomUp roomDown app σ m).2.2.up.length ≤ roomUp := fun m => (hinv m).1
  have hloop := noRoom_loop (P := P) hM hfair hup hcap hσ true
  have hsend : ∀ m b k, t ≤ m → (flowTrace M host roomUp roomDown app σ m).2.1 = .op (.send b) k →
      (flowTrace M host roomUp roomDown app σ m).2.2.closed = false →
      (flowTrace M host roomUp roomDown app σ m).2.2.down.length < roomDown := by
    intro m b k hm _ _
    rw [(hpart m hm).1]
    exact hdown
  obtain ⟨-, rest, hs⟩ := hpart t (Nat.le_refl _)
  rcases hs with ⟨(hw | ⟨o, -, hp⟩), -, -⟩ | ⟨hp, -⟩ | ⟨-, -, hr⟩
  · exact hloop t hw hno
  · exact noRoom_pass hfair hup hcap hσ t hsend hloop _ _ _ t (Nat.le_refl _) hp rfl hno
  · exact noRoom_pass hfair hup hcap hσ t hsend hloop _ _ _ t (Nat.le_refl _) hp rfl hno
  · exact not_flowReply_nil hr

/-- A client that reads after each message comes to its end. -/
theorem exchanges_done {n : Nat} (hM : M.Passive) (hfair : FlowFair σ) (hup : 0 < roomUp) (hdown : 0 < roomDown)
    (hinv : ∀ m, InvX P n roomUp (flowTrace M host roomUp roomDown app σ m).1
      (flowTrace M host roomUp roomDown app σ m).2.1 (flowTrace M host roomUp roomDown app σ m).2.2)
    (hσ : ∀ m, EnvGood P (σ m).2) (hok : ∀ m, ¬ (flowTrace M host roomUp roomDown app σ m).2.2.failed)
    (q : FlowProg C FlowLoop) : ∀ t, (flowTrace M host roomUp roomDown app σ t).1 = q →
      ∃ m, (flowTrace M host roomUp roomDown app σ m).2.2.got.length = n := by
  induction q with
  | ret l =>
    intro t ht
    obtain ⟨-, h | ⟨m, hm, htally, -⟩⟩ := hinv t
    · exact (hok t h).elim
    · rw [ht] at htally
      exact ⟨t, by have := htally.2; omega⟩
  | panic e =>
    intro t ht
    obtain ⟨-, h | ⟨m, hm, htally, -⟩⟩ := hinv t
    · exact (hok t h).elim
    · rw [ht] at htally
      exact htally.elim
  | op o k ih =>
    intro t ht
    suffices h : ∃ m r, (flowTrace M host roomUp roomDown app σ m).1 = k r by
      obtain ⟨m, r, h⟩ := h
      exact ih r m h
    have hsimple : (∀ env w, ∃ r, (turn M host roomUp roomDown env 0 (.op o k) w).1 = k r) →
        ∃ m r, (flowTrace M host roomUp roomDown app σ m).1 = k r := by
      intro h
      obtain ⟨m, hm, hturn, -, hstay⟩ := client_turn (M := M) (host := host) (roomUp := roomUp) (roomDown := roomDown)
        (app := app) hfair t
      obtain ⟨r, hr⟩ := h (σ m).2 (flowTrace M host roomUp roomDown app σ m).2.2
      refine ⟨m + 1, r, ?_⟩
      rw [trace_client hturn, (hstay m hm (Nat.le_refl _)).trans ht]
      exact hr
    cases o with
    | send b => exact send_moves hfair ht fun hq => exchange_not_noRoom hM hfair hup hdown hinv hσ hok t hq
    | recv => exact recv_moves hfair ht fun hq => not_noData hM hfair hdown hinv hσ hok t hq
    | hangUp => exact hsimple fun env w => ⟨(), rfl⟩
    | server o => exact hsimple fun env w => ⟨_, rfl⟩
    | client o => exact hsimple fun env w => ⟨_, rfl⟩
    | wrote r => exact hsimple fun env w => ⟨(), rfl⟩
    | gotData r => exact hsimple fun env w => ⟨(), rfl⟩

end

end Goe2ee
