import Verif.Model.Flow
import Verif.Proofs.Codec
import Verif.Proofs.Safe

/-!
# What the server reads and sends in one pass

`Framed p rest out Q`: the octets `rest` of the present request are still to be read, `out` was sent of the reply;
`p` reads the request to its end before it sends, reads nothing else, and what it sends is the beginning of a reply.
-/

set_option autoImplicit false

namespace Goe2ee

section
variable {C : Crypto}

/-- A process request that the server accepts the size of. -/
def FlowRequest (er : Bool) (req : Bytes) : Prop :=
  ∃ (id : ID) (counter : BitVec 64) (msg : Bytes), msg.length ≤ 2 ^ 30 ∧
    req = (newProcessRequest id counter msg er).bytes

/-- An answer to a request, if the application's replies satisfy `P`. -/
def FlowReply (C : Crypto) (P : Bytes → Prop) (er : Bool) (out : Bytes) : Prop :=
  (er = false ∧ out = []) ∨
  (∃ (code : ErrorCode) (text : Bytes), text.length ≤ 52 ∧ out = (newErrorResponse code text).bytes) ∨
  (∃ (counter : BitVec 64) (key nonce bs : Bytes), P bs ∧
    out = (newProcessResponse counter (C.aeadSeal key nonce bs)).bytes)

/-- Results of the effects of the server: the application's replies satisfy `P`. -/
def FlowGood (P : Bytes → Prop) : (o : SOp) → o.Ret C → Prop
  | .invoke _ _ _ _ _, (r : HRes) => ∀ bs, r = .reply bs → P bs
  | .aead _ key nonce plaintext, (r : Bytes) => r = C.aeadSeal key nonce plaintext
  | _, _ => True

/-- See above. -/
def Framed (P : Bytes → Prop) (er : Bool) {α : Type} :
    FlowProg C α → (rest out : Bytes) → (α → Bytes → Bytes → Prop) → Prop
  | .ret a, rest, out, Q => Q a rest out
  | .panic _, _, _, _ => True
  | .op (.send b) k, rest, out, Q =>
    rest = [] ∧ (∃ y, FlowReply C P er (out ++ [b] ++ y)) ∧ Framed P er (k true) rest (out ++ [b]) Q
  | .op .recv k, rest, out, Q =>
    out = [] ∧ ∃ b rest', rest = b :: rest' ∧ Framed P er (k (some b)) rest' out Q
  | .op .hangUp _, _, _, _ => False
  | .op (.server o) k, rest, out, Q => ∀ r, FlowGood P o r → Framed P er (k r) rest out Q
  | .op (.client _) _, _, _, _ => False
  | .op (.wrote _) _, _, _, _ => False
  | .op (.gotData _) _, _, _, _ => False

variable {P : Bytes → Prop} {er : Bool}

theorem Framed.bind {α β : Type} {p : FlowProg C α} {f : α → FlowProg C β} {rest out : Bytes}
    {Q : β → Bytes → Bytes → Prop}
    (h : Framed P er p rest out fun a rest out => Framed P er (f a) rest out Q) :
    Framed P er (p.bind f) rest out Q := by
  induction p generalizing rest out with
  | ret a => exact h
  | panic m => exact h
  | op o k ih =>
    cases o with
    | send b => exact ⟨h.1, h.2.1, ih _ h.2.2⟩
    | recv =>
      obtain ⟨h1, b, rest', h2, h3⟩ := h
      exact ⟨h1, b, rest', h2, ih _ h3⟩
    | hangUp => exact h
    | server o => exact fun r hr => ih _ (h r hr)
    | client o => exact h
    | wrote r => exact h
    | gotData r => exact h

theorem Framed.mono {α : Type} {p : FlowProg C α} {rest out : Bytes} {Q Q' : α → Bytes → Bytes → Prop}
    (h : Framed P er p rest out Q) (hQ : ∀ a rest out, Q a rest out → Q' a rest out) :
    Framed P er p rest out Q' := by
  induction p generalizing rest out with
  | ret a => exact hQ _ _ _ h
  | panic m => exact h
  | op o k ih =>
    cases o with
    | send b => exact ⟨h.1, h.2.1, ih _ h.2.2⟩
    | recv =>
      obtain ⟨h1, b, rest', h2, h3⟩ := h
      exact ⟨h1, b, rest', h2, ih _ h3⟩
    | hangUp => exact h
    | server o => exact fun r hr => ih _ (h r hr)
    | client o => exact h
    | wrote r => exact h
    | gotData r => exact h

/-- The same for a whole pass.  To go on, the request was read and answered; otherwise the connection is closed. -/
def Pass (P : Bytes → Prop) (er : Bool) : FlowProg C FlowLoop → (rest out : Bytes) → Prop
  | .ret l, rest, out => l = .serving ∧ rest = [] ∧ FlowReply C P er out
  | .panic _, _, _ => False
  | .op (.send b) k, rest, out =>
    rest = [] ∧ (∃ y, FlowReply C P er (out ++ [b] ++ y)) ∧ Pass P er (k true) rest (out ++ [b])
  | .op .recv k, rest, out =>
    out = [] ∧ ∃ b rest', rest = b :: rest' ∧ Pass P er (k (some b)) rest' out
  | .op .hangUp k, _, _ => k () = .ret .ended ∨ ∃ m, k () = .panic m
  | .op (.server o) k, rest, out => ∀ r, FlowGood P o r → Pass P er (k r) rest out
  | .op (.client _) _, _, _ => False
  | .op (.wrote _) _, _, _ => False
  | .op (.gotData _) _, _, _ => False

theorem Framed.thenHangUp {p : FlowProg C Bool} {rest out : Bytes}
    (h : Framed P er p rest out fun go rest out => go = true → rest = [] ∧ FlowReply C P er out) :
    Pass P er (thenHangUp p) rest out := by
  induction p generalizing rest out with
  | ret a =>
    unfold Goe2ee.thenHangUp
    cases a with
    | true => exact ⟨rfl, h rfl⟩
    | false => exact .inl rfl
  | panic m => exact .inr ⟨m, rfl⟩
  | op o k ih =>
    cases o with
    | send b => exact ⟨h.1, h.2.1, ih _ h.2.2⟩
    | recv =>
      obtain ⟨h1, b, rest', h2, h3⟩ := h
      exact ⟨h1, b, rest', h2, ih _ h3⟩
    | hangUp => exact h.elim
    | server o => exact fun r hr => ih _ (h r hr)
    | client o => exact h
    | wrote r => exact h
    | gotData r => exact h

/-! ## Reading -/

theorem framed_recvAll (xs : Bytes) (acc rest : Bytes) {Q : Bytes × Bool → Bytes → Bytes → Prop}
    (h : Q (acc ++ xs, true) rest []) :
    Framed (C := C) P er (recvAll xs.length acc) (xs ++ rest) [] Q := by
  induction xs generalizing acc with
  | nil => simpa [recvAll, Framed] using h
  | cons x xs ih =>
    refine ⟨rfl, x, xs ++ rest, rfl, ?_⟩
    exact ih (acc ++ [x]) (by simpa using h)

theorem lift_bind {S T : Sig} {α β : Type} (f : (o : S.Op) → Prog T (S.Ret o)) (p : Prog S α) (g : α → Prog S β) :
    (p.bind g).lift f = (p.lift f).bind fun a => (g a).lift f := by
  induction p with
  | ret a => rfl
  | panic m => rfl
  | op o k ih =>
    simp only [Prog.op_bind, Prog.lift, Prog.bind_assoc]
    congr 1
    funext r
    exact ih r

/-- A parser of the server. -/
def parserFlow {α : Type} (p : RProg α) : FlowProg C α := p.lift (T := FlowSig C) flowRead

theorem serverFlow_onConn {α : Type} (p : RProg α) : serverFlow (C := C) (onConn p) = parserFlow p := by
  induction p with
  | ret a => rfl
  | panic m => rfl
  | op o k ih =>
    show Prog.bind (flowRead o) (fun r => serverFlow (onConn (k r))) = Prog.bind (flowRead o) (fun r => parserFlow (k r))
    congr 1
    funext r
    exact ih r

theorem serverFlow_bind {α β : Type} (p : SProg C α) (g : α → SProg C β) :
    serverFlow (p.bind g) = (serverFlow p).bind fun a => serverFlow (g a) := lift_bind _ p g

variable {α : Type}

theorem framed_readOctet (what : String) (k : Byte → RProg (Except Err α)) (b : Byte) (rest : Bytes)
    {Q : Except Err α → Bytes → Bytes → Prop} (h : Framed (C := C) P er (parserFlow (k b)) rest [] Q) :
    Framed (C := C) P er (parserFlow (readOctet what k)) (b :: rest) [] Q := by
  show Framed P er (((recvAll (Int.toNat 1) []).bind _).bind _) ([b] ++ rest) [] Q
  rw [Prog.bind_assoc]
  exact Framed.bind (framed_recvAll [b] [] rest h)

theorem framed_readField (n : Nat) (what : String) (k : Bytes → RProg (Except Err α)) (bs rest : Bytes)
    (hn : bs.length = n) {Q : Except Err α → Bytes → Bytes → Prop}
    (h : Framed (C := C) P er (parserFlow (k bs)) rest [] Q) :
    Framed (C := C) P er (parserFlow (readField n what k)) (bs ++ rest) [] Q := by
  show Framed P er (((recvAll n []).bind _).bind _) (bs ++ rest) [] Q
  rw [Prog.bind_assoc]
  subst hn
  exact Framed.bind (framed_recvAll bs [] rest h)

theorem framed_parseRequestCommon (b : Byte) (rest : Bytes) {Q : Except Err RequestCommon → Bytes → Bytes → Prop}
    (h : Q (.ok { version := (b &&& 0xF0#8) >>> 4, action := b &&& 0x0F#8 }) rest []) :
    Framed (C := C) P er (parserFlow parseRequestCommon) (b :: rest) [] Q :=
  framed_readOctet _ _ _ _ h

theorem framed_parseProcessRequest (common : RequestCommon) (flags : Byte) (id : ID) (counter : BitVec 64)
    (msg : Bytes) (hl : msg.length ≤ 2 ^ 30) (rest : Bytes) {Q : Except Err ProcessRequest → Bytes → Bytes → Prop}
    (h : Q (.ok { common, expectReply := ((flags &&& 0xF0#8) >>> 7) == 1#8,
                   reserved := ((flags <<< 1) >>> 1) &&& 0xFF#8, id, counter,
                   messageSize := BitVec.ofNat 64 msg.length, message := msg }) rest []) :
    Framed (C := C) P er (parserFlow (parseProcessRequest common))
      (flags :: (id.val ++ (beEnc 8 counter.toNat ++ (beEnc 8 msg.length ++ (msg ++ rest))))) [] Q := by
  have hm : BitVec.ofNat 64 (beDec (beEnc 8 msg.length)) = BitVec.ofNat 64 msg.length := by
    rw [beDec_beEnc, Nat.mod_eq_of_lt (by omega)]
  have hn : (BitVec.ofNat 64 msg.length).toNat = msg.length := by
    rw [BitVec.toNat_ofNat, Nat.mod_eq_of_lt (by omega)]
  refine framed_readOctet _ _ _ _ (framed_readField _ _ _ _ _ id.property
    (framed_readField _ _ _ _ _ (beEnc_length _ _) (framed_readField _ _ _ _ _ (beEnc_length _ _) ?_)))
  simp only [hm, hn, maxMessageSize]
  rw [if_neg (by omega)]
  refine framed_readField _ _ _ _ _ rfl ?_
  rw [toID_val, ofNat_beDec_beEnc8]
  exact h

/-! ## Answering -/

theorem framed_sendAll (bs out : Bytes) (n : Nat) {Q : Nat × Option Err → Bytes → Bytes → Prop}
    (hR : FlowReply C P er (out ++ bs)) (h : Q (n + bs.length, none) [] (out ++ bs)) :
    Framed (C := C) P er (sendAll bs n) [] out Q := by
  induction bs generalizing out n with
  | nil => simpa [sendAll, Framed] using h
  | cons b bs ih =>
    refine ⟨rfl, ⟨bs, by simpa using hR⟩, ?_⟩
    refine ih (out ++ [b]) (n + 1) (by simpa using hR) ?_
    simpa [Nat.add_assoc, Nat.add_comm 1] using h

theorem framed_write (bs : Bytes) (k : Nat × Option Err → SProg C α) {Q : α → Bytes → Bytes → Prop}
    (hR : FlowReply C P er bs) (h : Framed P er (serverFlow (k (bs.length, none))) [] bs Q) :
    Framed P er (serverFlow (.op (.write bs) k)) [] [] Q := by
  show Framed P er ((sendAll bs 0).bind _) [] [] Q
  exact Framed.bind (framed_sendAll bs [] 0 hR (by simpa [serverFlow] using h))

theorem framed_failWith (code : ErrorCode) (text : String) (hl : (str text).length ≤ 52)
    {Q : Option Err → Bytes → Bytes → Prop}
    (h : ∀ out, FlowReply C P er out → Q none [] out) :
    Framed (C := C) P er (serverFlow (failWith code text)) [] [] Q := by
  have hR : FlowReply C P er (errorBytes code text) := .inr (.inl ⟨code, _, hl, rfl⟩)
  refine framed_write _ _ hR ?_
  simp only [ne_eq, not_true, if_false, Prog.ret_bind, if_true]
  exact h _ hR

theorem framed_respondWith (bs : Bytes) {Q : Option Err → Bytes → Bytes → Prop}
    (hR : FlowReply C P er bs) (h : Q none [] bs) :
    Framed (C := C) P er (serverFlow (respondWith bs)) [] [] Q := by
  refine framed_write _ _ hR ?_
  simp only [ne_eq, not_true, if_false, Prog.ret_bind, if_true]
  exact h

/-- Effects of a session manager do not concern the connection. -/
theorem framed_passive {p : SProg C α} (hp : Uses (S := SSig C) SOp.isTable p) {rest out : Bytes}
    {Q : α → Bytes → Bytes → Prop} (h : ∀ a, Q a rest out) : Framed P er (serverFlow p) rest out Q := by
  induction p with
  | ret a => exact h a
  | panic m => trivial
  | op o k ih =>
    obtain ⟨h1, h2⟩ := hp
    cases o <;> simp only [SOp.isTable] at h1 <;> exact fun r _ => ih r (h2 r)

theorem framed_op (o : SOp) (k : o.Ret C → SProg C α) {rest out : Bytes} {Q : α → Bytes → Bytes → Prop}
    (ho : serverFlowOp (C := C) o = .op (.server o) .ret)
    (h : ∀ r, FlowGood P o r → Framed P er (serverFlow (k r)) rest out Q) :
    Framed P er (serverFlow (.op o k)) rest out Q := by
  show Framed P er ((serverFlowOp o).bind _) rest out Q
  rw [ho]
  exact fun r hr => h r hr

theorem framed_ofRes {β : Type} (res : Res β) (f : β → SProg C α) {rest out : Bytes} {Q : α → Bytes → Bytes → Prop}
    (h : ∀ a, Framed P er (serverFlow (f a)) rest out Q) :
    Framed P er (serverFlow ((ofRes res).bind f)) rest out Q := by
  cases res with
  | val a => exact h a
  | panic m => trivial

/-- internal/server/action_process.go:169-201 -/
theorem framed_runHandler (session : Ref) (host : Bytes) (request : ProcessRequest) (gcm message : Bytes)
    (her : request.expectReply = er) {Q : Option Err → Bytes → Bytes → Prop}
    (h : ∀ out, FlowReply C P er out → Q none [] out) :
    Framed (C := C) P er (serverFlow (runHandler session host request gcm message)) [] [] Q := by
  refine framed_op _ _ rfl fun handled hgood => ?_
  cases handled with
  | panic m => trivial
  | error e => exact framed_failWith _ _ (by decide +kernel) h
  | reply written =>
    have hP : P written := hgood written rfl
    show Framed P er (serverFlow (if _ then _ else _)) [] [] Q
    split
    · refine framed_ofRes _ _ fun responseNonce => framed_op _ _ rfl fun sealed hs => ?_
      have hs' : sealed = C.aeadSeal gcm responseNonce written := hs
      have hR : FlowReply C P er (newProcessResponse request.counter sealed).bytes :=
        .inr (.inr ⟨_, _, _, _, hP, congrArg (fun x => (newProcessResponse request.counter x).bytes) hs'⟩)
      exact framed_respondWith _ hR (h _ hR)
    · rename_i hne
      exact h [] (.inl ⟨by simpa [her] using hne, rfl⟩)

/-- internal/server/action_process.go:16-202, after the request was read -/
theorem framed_processHandler {M : Manager C} (hM : M.Passive) (host : Except Err Bytes) (common : RequestCommon)
    (flags : Byte) (id : ID) (counter : BitVec 64) (msg : Bytes) (hl : msg.length ≤ 2 ^ 30)
    (her : (((flags &&& 0xF0#8) >>> 7) == 1#8) = er) {Q : Option Err → Bytes → Bytes → Prop}
    (h : ∀ out, FlowReply C P er out → Q none [] out) :
    Framed (C := C) P er (serverFlow (processHandler M host common))
      (flags :: (id.val ++ (beEnc 8 counter.toNat ++ (beEnc 8 msg.length ++ msg)))) [] Q := by
  rw [processHandler, serverFlow_bind, serverFlow_onConn]
  apply Framed.bind
  rw [show flags :: (id.val ++ (beEnc 8 counter.toNat ++ (beEnc 8 msg.length ++ msg))) =
    flags :: (id.val ++ (beEnc 8 counter.toNat ++ (beEnc 8 msg.length ++ (msg ++ [])))) by simp]
  refine framed_parseProcessRequest common flags id counter msg hl [] ?_
  · cases host with
    | error e => exact framed_failWith _ _ (by decide +kernel) h
    | ok host =>
      simp only []
      rw [serverFlow_bind]
      refine Framed.bind (framed_passive (hM.load _) fun loaded => ?_)
      cases loaded with
      | none => exact framed_failWith _ _ (by decide +kernel) h
      | some session =>
        refine framed_op _ _ rfl fun fresh _ => ?_
        split
        · refine framed_op _ _ rfl fun secret _ => ?_
          split
          · exact framed_failWith _ _ (by decide +kernel) h
          · split
            · exact framed_failWith _ _ (by decide +kernel) h
            · split
              · exact framed_failWith _ _ (by decide +kernel) h
              · refine framed_ofRes _ _ fun nonce => ?_
                split
                · exact framed_failWith _ _ (by decide +kernel) h
                · exact framed_runHandler _ _ _ _ _ her h
        · exact framed_failWith _ _ (by decide +kernel) h

/-- The octets of a request. -/
theorem flowRequest_bytes {req : Bytes} (h : FlowRequest er req) :
    ∃ (flags : Byte) (id : ID) (counter : BitVec 64) (msg : Bytes), msg.length ≤ 2 ^ 30 ∧
      (((flags &&& 0xF0#8) >>> 7) == 1#8) = er ∧
      req = 0x13#8 :: flags :: (id.val ++ (beEnc 8 counter.toNat ++ (beEnc 8 msg.length ++ msg))) := by
  obtain ⟨id, counter, msg, hl, rfl⟩ := h
  refine ⟨if er then 0x80#8 else 0x00#8, id, counter, msg, hl, by cases er <;> decide, ?_⟩
  have : (BitVec.ofNat 64 msg.length).toNat = msg.length := by
    rw [BitVec.toNat_ofNat, Nat.mod_eq_of_lt (by omega)]
  cases er <;>
  simp [ProcessRequest.bytes, newProcessRequest, RequestCommon.bytes, version1, actionProcess,
    Nat.mod_eq_of_lt (show msg.length < 18446744073709551616 by omega)]

/-- One pass of the loop: it reads the next request to its end, sends one answer, and nothing else. -/
theorem pass_serverPass {M : Manager C} (hM : M.Passive) (host : Except Err Bytes) {req : Bytes}
    (hreq : FlowRequest er req) :
    Pass (C := C) P er (serverPass M host) req [] := by
  obtain ⟨flags, id, counter, msg, hl, her, rfl⟩ := flowRequest_bytes hreq
  apply Framed.thenHangUp
  refine framed_op _ _ rfl fun closed _ => ?_
  split
  · exact (fun h => by cases h)
  · refine framed_op _ _ rfl fun _ _ => ?_
    rw [serveRequest, serverFlow_bind, serverFlow_onConn]
    refine Framed.bind (framed_parseRequestCommon _ _ ?_)
    rw [show ((0x13#8 &&& 0xF0#8) >>> 4 : Byte) = version1 by decide,
      show (0x13#8 &&& 0x0F#8 : Byte) = actionProcess by decide]
    simp only [ne_eq, not_true, if_false]
    rw [serverFlow_bind]
    apply Framed.bind
    rw [handle, if_neg (by simp [actionProcess, actionHello]), if_neg (by simp [actionProcess, actionSetup]), if_pos rfl]
    exact framed_processHandler hM host _ flags id counter msg hl her fun out hout => fun _ => ⟨rfl, hout⟩

end

end Goe2ee
