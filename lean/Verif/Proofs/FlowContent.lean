import Verif.Proofs.FlowFail
import Verif.Proofs.ClientCalls

/-!
# What an application that reads after each message gets

`Exact p inp out Q`: the server reads exactly `inp`, then sends exactly `out`.  `Talks f q st rs`: the client sends
requests, reads the replies to them, and hands them to the application (`rs` are the replies still to be handed over).
-/

set_option autoImplicit false

namespace Goe2ee

section
variable {C : Crypto}

/-- The session is known, its secret is `secret`, the counter is accepted, and the application replies to a message `m`
with `f m`. -/
def HonestRet (secret : Bytes) (f : Bytes → Bytes) : (o : SOp) → o.Ret C → Prop
  | .quitClosed, (r : Bool) => r = false
  | .mapLoad _, (r : Option (Ref × Nat)) => r.isSome = true
  | .secretOf _, (r : Bytes) => r = secret
  | .check _ _, (r : Bool) => r = true
  | .invoke _ _ _ _ m, (r : HRes) => r = .reply (f m)
  | .aead _ key nonce plaintext, (r : Bytes) => r = C.aeadSeal key nonce plaintext
  | _, _ => True

/-- The application is called with messages in `S` only. -/
def CallsIn (S : Bytes → Prop) : SOp → Prop
  | .invoke _ _ _ _ m => S m
  | _ => True

variable (secret : Bytes) (f : Bytes → Bytes) (S : Bytes → Prop)

/-- See above. -/
def Exact {α : Type} : FlowProg C α → (inp out : Bytes) → (α → Bytes → Bytes → Prop) → Prop
  | .ret a, inp, out, Q => Q a inp out
  | .panic _, _, _, _ => False
  | .op (.send b) k, inp, out, Q => inp = [] ∧ ∃ out', out = b :: out' ∧ Exact (k true) [] out' Q
  | .op .recv k, inp, out, Q => out ≠ [] ∧ ∃ b inp', inp = b :: inp' ∧ Exact (k (some b)) inp' out Q
  | .op .hangUp _, _, _, _ => False
  | .op (.server o) k, inp, out, Q => CallsIn S o ∧ ∀ r, HonestRet secret f o r → Exact (k r) inp out Q
  | .op (.client _) _, _, _, _ => False
  | .op (.wrote _) _, _, _, _ => False
  | .op (.gotData _) _, _, _, _ => False

variable {secret : Bytes} {f : Bytes → Bytes} {S : Bytes → Prop}

theorem Exact.bind {α β : Type} {p : FlowProg C α} {g : α → FlowProg C β} {inp out : Bytes}
    {Q : β → Bytes → Bytes → Prop}
    (h : Exact secret f S p inp out fun a inp out => Exact secret f S (g a) inp out Q) :
    Exact secret f S (p.bind g) inp out Q := by
  induction p generalizing inp out with
  | ret a => exact h
  | panic m => exact h
  | op o k ih =>
    cases o with
    | send b =>
      obtain ⟨h1, out', h2, h3⟩ := h
      exact ⟨h1, out', h2, ih _ h3⟩
    | recv =>
      obtain ⟨h1, b, inp', h2, h3⟩ := h
      exact ⟨h1, b, inp', h2, ih _ h3⟩
    | hangUp => exact h
    | server o => exact ⟨h.1, fun r hr => ih _ (h.2 r hr)⟩
    | client o => exact h
    | wrote r => exact h
    | gotData r => exact h

/-- A goroutine that goes on without closing. -/
theorem Exact.thenHangUp {p : FlowProg C Bool} {inp out : Bytes} {Q : FlowLoop → Bytes → Bytes → Prop}
    (h : Exact secret f S p inp out fun go inp out => go = true ∧ Q .serving inp out) :
    Exact secret f S (thenHangUp p) inp out Q := by
  induction p generalizing inp out with
  | ret a =>
    unfold Goe2ee.thenHangUp
    obtain ⟨rfl, h⟩ := h
    exact h
  | panic m => exact h.elim
  | op o k ih =>
    cases o with
    | send b =>
      obtain ⟨h1, out', h2, h3⟩ := h
      exact ⟨h1, out', h2, ih _ h3⟩
    | recv =>
      obtain ⟨h1, b, inp', h2, h3⟩ := h
      exact ⟨h1, b, inp', h2, ih _ h3⟩
    | hangUp => exact h.elim
    | server o => exact ⟨h.1, fun r hr => ih _ (h.2 r hr)⟩
    | client o => exact h
    | wrote r => exact h
    | gotData r => exact h

/-! ## The server -/

theorem exact_recvAll (xs : Bytes) (acc rest : Bytes) {out : Bytes} (hout : out ≠ []) {Q : Bytes × Bool → Bytes → Bytes → Prop}
    (h : Q (acc ++ xs, true) rest out) :
    Exact (C := C) secret f S (recvAll xs.length acc) (xs ++ rest) out Q := by
  induction xs generalizing acc with
  | nil => simpa [recvAll, Exact] using h
  | cons x xs ih => exact ⟨hout, x, xs ++ rest, rfl, ih (acc ++ [x]) (by simpa using h)⟩

section
variable {α : Type}

theorem exact_readOctet (what : String) (k : Byte → RProg (Except Err α)) (b : Byte) (rest : Bytes) {out : Bytes} (hout : out ≠ [])
    {Q : Except Err α → Bytes → Bytes → Prop} (h : Exact (C := C) secret f S (parserFlow (k b)) rest out Q) :
    Exact (C := C) secret f S (parserFlow (readOctet what k)) (b :: rest) out Q := by
  show Exact secret f S (((recvAll (Int.toNat 1) []).bind _).bind _) ([b] ++ rest) out Q
  rw [Prog.bind_assoc]
  exact Exact.bind (exact_recvAll [b] [] rest hout h)

theorem exact_readField (n : Nat) (what : String) (k : Bytes → RProg (Except Err α)) (bs rest : Bytes) {out : Bytes}
    (hout : out ≠ []) (hn : bs.length = n) {Q : Except Err α → Bytes → Bytes → Prop}
    (h : Exact (C := C) secret f S (parserFlow (k bs)) rest out Q) :
    Exact (C := C) secret f S (parserFlow (readField n what k)) (bs ++ rest) out Q := by
  show Exact secret f S (((recvAll n []).bind _).bind _) (bs ++ rest) out Q
  rw [Prog.bind_assoc]
  subst hn
  exact Exact.bind (exact_recvAll bs [] rest hout h)

theorem exact_parseProcessRequest (common : RequestCommon) (flags : Byte) (id : ID) (counter : BitVec 64)
    (msg : Bytes) (hl : msg.length ≤ 2 ^ 30) (rest : Bytes) {out : Bytes} (hout : out ≠ []) {Q : Except Err ProcessRequest → Bytes → Bytes → Prop}
    (h : Q (.ok { common, expectReply := ((flags &&& 0xF0#8) >>> 7) == 1#8,
                   reserved := ((flags <<< 1) >>> 1) &&& 0xFF#8, id, counter,
                   messageSize := BitVec.ofNat 64 msg.length, message := msg }) rest out) :
    Exact (C := C) secret f S (parserFlow (parseProcessRequest common))
      (flags :: (id.val ++ (beEnc 8 counter.toNat ++ (beEnc 8 msg.length ++ (msg ++ rest))))) out Q := by
  have hm : BitVec.ofNat 64 (beDec (beEnc 8 msg.length)) = BitVec.ofNat 64 msg.length := by
    rw [beDec_beEnc, Nat.mod_eq_of_lt (by omega)]
  have hn : (BitVec.ofNat 64 msg.length).toNat = msg.length := by
    rw [BitVec.toNat_ofNat, Nat.mod_eq_of_lt (by omega)]
  refine exact_readOctet _ _ _ _ hout (exact_readField _ _ _ _ _ hout id.property
    (exact_readField _ _ _ _ _ hout (beEnc_length _ _) (exact_readField _ _ _ _ _ hout (beEnc_length _ _) ?_)))
  simp only [hm, hn, maxMessageSize]
  rw [if_neg (by omega)]
  refine exact_readField _ _ _ _ _ hout rfl ?_
  rw [toID_val, ofNat_beDec_beEnc8]
  exact h

theorem exact_sendAll (bs : Bytes) (n : Nat) {Q : Nat × Option Err → Bytes → Bytes → Prop}
    (h : Q (n + bs.length, none) [] []) : Exact (C := C) secret f S (sendAll bs n) [] bs Q := by
  induction bs generalizing n with
  | nil => simpa [sendAll, Exact] using h
  | cons b bs ih =>
    refine ⟨rfl, bs, rfl, ih (n + 1) ?_⟩
    simpa [Nat.add_assoc, Nat.add_comm 1] using h

theorem exact_respondWith (bs : Bytes) {Q : Option Err → Bytes → Bytes → Prop} (h : Q none [] []) :
    Exact (C := C) secret f S (serverFlow (respondWith bs)) [] bs Q := by
  show Exact secret f S ((sendAll bs 0).bind _) [] bs Q
  refine Exact.bind (exact_sendAll bs 0 ?_)
  simpa [serverFlow, Prog.lift, Exact] using h

theorem exact_op (o : SOp) (k : o.Ret C → SProg C α) {inp out : Bytes} {Q : α → Bytes → Bytes → Prop}
    (ho : serverFlowOp (C := C) o = .op (.server o) .ret)
    (hS : CallsIn S o) (h : ∀ r, HonestRet secret f o r → Exact secret f S (serverFlow (k r)) inp out Q) :
    Exact secret f S (serverFlow (.op o k)) inp out Q := by
  show Exact secret f S ((serverFlowOp o).bind _) inp out Q
  rw [ho]
  exact ⟨hS, fun r hr => h r hr⟩

end

/-- The request for the message `m`, and the reply to it. -/
def Answers (C : Crypto) (f : Bytes → Bytes) (gcm : Bytes) (id : ID) (m req reply : Bytes) : Prop :=
  ∃ (counter : BitVec 64) (n1 n2 : Bytes), nonce directionClientToServer counter gcmNonceSize = .val n1 ∧
    nonce directionServerToClient counter gcmNonceSize = .val n2 ∧
    req = (newProcessRequest id counter (C.aeadSeal gcm n1 m) true).bytes ∧
    reply = (newProcessResponse counter (C.aeadSeal gcm n2 (f m))).bytes

theorem answers_ne {gcm : Bytes} {id : ID} {m req reply : Bytes} (h : Answers C f gcm id m req reply) :
    req ≠ [] ∧ reply ≠ [] := by
  obtain ⟨counter, n1, n2, -, -, rfl, rfl⟩ := h
  constructor
  · simp [ProcessRequest.bytes, newProcessRequest, RequestCommon.bytes]
  · simp [ProcessResponse.bytes, newProcessResponse, ResponseCommon.bytes]

theorem exact_processHandler (hC : C.Lawful) (host : Bytes) (common : RequestCommon) {gcm : Bytes}
    (hgcm : newGCM C secret = .ok gcm) (id : ID) (counter : BitVec 64) (m n1 n2 : Bytes)
    (hm : m.length + 16 ≤ 2 ^ 30) (hS : S m) (h1 : nonce directionClientToServer counter gcmNonceSize = .val n1)
    (h2 : nonce directionServerToClient counter gcmNonceSize = .val n2)
    {Q : Option Err → Bytes → Bytes → Prop} (h : Q none [] []) :
    Exact secret f S (serverFlow (processHandler (inMemory C) (.ok host) common))
      (0x80#8 :: (id.val ++ (beEnc 8 counter.toNat ++ (beEnc 8 (C.aeadSeal gcm n1 m).length ++ C.aeadSeal gcm n1 m))))
      (newProcessResponse counter (C.aeadSeal gcm n2 (f m))).bytes Q := by
  have hlen : (C.aeadSeal gcm n1 m).length ≤ 2 ^ 30 := by rw [hC.seal_length]; exact hm
  obtain ⟨key, hk1, hk2⟩ := newGCM_ok hC secret
  have hkey : key = gcm := by rw [hk2] at hgcm; exact Except.ok.inj hgcm
  subst hkey
  obtain ⟨key', hk1', -, hk3, hk4⟩ := C55_aead_key C hC secret
  obtain rfl : key' = key := by rw [hk1'] at hk1; exact Except.ok.inj hk1
  rw [processHandler, serverFlow_bind, serverFlow_onConn]
  apply Exact.bind
  generalize hsealed : C.aeadSeal key' n1 m = sealed at hlen ⊢
  rw [show 0x80#8 :: (id.val ++ (beEnc 8 counter.toNat ++ (beEnc 8 sealed.length ++ sealed))) =
    0x80#8 :: (id.val ++ (beEnc 8 counter.toNat ++ (beEnc 8 sealed.length ++ (sealed ++ [])))) by simp]
  refine exact_parseProcessRequest common _ id counter sealed hlen []
    (by simp [ProcessResponse.bytes, newProcessResponse, ResponseCommon.bytes]) ?_
  simp only []
  rw [serverFlow_bind]
  apply Exact.bind
  refine exact_op _ _ rfl trivial fun (loaded : Option (Ref × Nat)) hl => ?_
  cases loaded with
  | none => cases hl
  | some x =>
    obtain ⟨session, t⟩ := x
    refine exact_op _ _ rfl trivial fun t _ => exact_op _ _ rfl trivial fun _ _ => ?_
    refine exact_op _ _ rfl trivial fun (fresh : Bool) (hf : fresh = true) => ?_
    subst hf
    rw [if_pos rfl]
    refine exact_op _ _ rfl trivial fun (s : Bytes) (hs : s = secret) => ?_
    subst hs
    simp only [hk1', hk3, hk4, h1, ofRes, Prog.bind, ← hsealed, hC.open_seal]
    refine exact_op _ _ rfl hS fun (handled : HRes) (hh : handled = .reply (f m)) => ?_
    subst hh
    simp only []
    rw [if_pos (by decide)]
    simp only [h2, ofRes, Prog.bind]
    refine exact_op _ _ rfl trivial fun (sealed : Bytes) hs => ?_
    have hs : sealed = C.aeadSeal key' n2 (f m) := hs
    subst hs
    exact exact_respondWith _ h

theorem exact_serverPass (hC : C.Lawful) (host : Bytes) {gcm : Bytes} (hgcm : newGCM C secret = .ok gcm) (id : ID)
    {m req reply : Bytes} (hm : m.length + 16 ≤ 2 ^ 30) (hS : S m) (hr : Answers C f gcm id m req reply)
    {Q : FlowLoop → Bytes → Bytes → Prop} (h : Q .serving [] []) :
    Exact secret f S (serverPass (inMemory C) (.ok host)) req reply Q := by
  have hne := (answers_ne hr).2
  obtain ⟨counter, n1, n2, h1, h2, rfl, rfl⟩ := hr
  have hlen : (C.aeadSeal gcm n1 m).length ≤ 2 ^ 30 := by rw [hC.seal_length]; exact hm
  apply Exact.thenHangUp
  refine exact_op _ _ rfl trivial fun (closed : Bool) (hcl : closed = false) => ?_
  subst hcl
  rw [if_neg (by simp)]
  refine exact_op _ _ rfl trivial fun _ _ => ?_
  rw [serveRequest, serverFlow_bind, serverFlow_onConn]
  have hb : (newProcessRequest id counter (C.aeadSeal gcm n1 m) true).bytes = 0x13#8 :: 0x80#8 ::
      (id.val ++ (beEnc 8 counter.toNat ++ (beEnc 8 (C.aeadSeal gcm n1 m).length ++ C.aeadSeal gcm n1 m))) := by
    simp [ProcessRequest.bytes, newProcessRequest, RequestCommon.bytes, version1, actionProcess,
      Nat.mod_eq_of_lt (show (C.aeadSeal gcm n1 m).length < 18446744073709551616 by omega)]
  rw [hb]
  refine Exact.bind (exact_readOctet _ _ _ _ hne ?_)
  show Exact secret f S (serverFlow (if ((0x13#8 &&& 0xF0#8) >>> 4 : Byte) ≠ version1 then _ else _)) _ _ _
  rw [if_neg (by decide), serverFlow_bind]
  apply Exact.bind
  rw [handle, if_neg (by decide), if_neg (by decide), if_pos (by decide)]
  exact exact_processHandler hC host _ hgcm id counter m n1 n2 hm hS h1 h2 ⟨rfl, h⟩

/-! ## The client -/

/-- How far the client is with a message `m`. -/
inductive Turn where
  | idle
  | sending (todo reply m : Bytes)
  | reading (inp m : Bytes)

/-- See above. -/
def Talks (f : Bytes → Bytes) (S : Bytes → Prop) (gcm : Bytes) (id : ID) : FlowProg C FlowLoop → Turn → List Bytes → Prop
  | .ret l, st, ms => l = .ended ∧ st = .idle ∧ ms = []
  | .panic _, _, _ => False
  | .op (.send b) k, st, ms =>
    (∃ m ms' ps reply, st = .idle ∧ ms = m :: ms' ∧ (m.length + 16 ≤ 2 ^ 30 ∧ S m) ∧ Answers C f gcm id m (b :: ps) reply ∧
      Talks f S gcm id (k true) (.sending ps reply m) ms') ∨
    (∃ ps reply m, st = .sending (b :: ps) reply m ∧ Talks f S gcm id (k true) (.sending ps reply m) ms)
  | .op .recv k, st, ms => ∃ b y m, st = .reading (b :: y) m ∧ Talks f S gcm id (k (some b)) (.reading y m) ms
  | .op (.client o) k, st, ms => ∀ r, ClientGood o r → BenignRet o r → Talks f S gcm id (k r) st ms
  | .op (.wrote r) k, st, ms => r.2 = none ∧ ∃ reply m, st = .sending [] reply m ∧
    Talks f S gcm id (k ()) (.reading reply m) ms
  | .op (.gotData r) k, st, ms => ∃ m, st = .reading [] m ∧ r.1 = f m ∧ (f m ≠ [] → r.2 = some .eof) ∧
    Talks f S gcm id (k ()) .idle ms
  | .op .hangUp _, _, _ => False
  | .op (.server _) _, _, _ => False

section
variable {gcm : Bytes} {id : ID} {ms : List Bytes}

theorem talks_recvAll (xs : Bytes) (acc y m : Bytes) {g : Bytes × Bool → FlowProg C FlowLoop}
    (h : Talks f S gcm id (g (acc ++ xs, true)) (.reading y m) ms) :
    Talks f S gcm id ((recvAll xs.length acc).bind g) (.reading (xs ++ y) m) ms := by
  induction xs generalizing acc with
  | nil => simpa [recvAll] using h
  | cons b xs ih => exact ⟨b, xs ++ y, m, rfl, ih (acc ++ [b]) (by simpa using h)⟩

theorem talks_readOctet {α : Type} {g : Except Err α → FlowProg C FlowLoop} (what : String)
    (k : Byte → RProg (Except Err α)) (b : Byte) (y m : Bytes)
    (h : Talks f S gcm id ((parserFlow (k b)).bind g) (.reading y m) ms) :
    Talks f S gcm id ((parserFlow (readOctet what k)).bind g) (.reading (b :: y) m) ms := by
  show Talks f S gcm id ((((recvAll (Int.toNat 1) []).bind _).bind _).bind _) (.reading ([b] ++ y) m) ms
  rw [Prog.bind_assoc, Prog.bind_assoc]
  exact talks_recvAll [b] [] y m h

theorem talks_readField {α : Type} {g : Except Err α → FlowProg C FlowLoop} (n : Nat) (what : String)
    (k : Bytes → RProg (Except Err α)) (bs y m : Bytes)
    (hn : bs.length = n) (h : Talks f S gcm id ((parserFlow (k bs)).bind g) (.reading y m) ms) :
    Talks f S gcm id ((parserFlow (readField n what k)).bind g) (.reading (bs ++ y) m) ms := by
  show Talks f S gcm id ((((recvAll n []).bind _).bind _).bind _) (.reading (bs ++ y) m) ms
  rw [Prog.bind_assoc, Prog.bind_assoc]
  subst hn
  exact talks_recvAll bs [] y m h

theorem talks_processResponse (common : ResponseCommon) (counter : BitVec 64) (msg y m : Bytes)
    (hl : msg.length ≤ 2 ^ 30) {g : Except Err ProcessResponse → FlowProg C FlowLoop}
    (h : ∀ r : ProcessResponse, r.message = msg → r.counter = counter → Talks f S gcm id (g (.ok r)) (.reading y m) ms) :
    Talks f S gcm id ((parserFlow (parseProcessResponse common)).bind g)
      (.reading (beEnc 8 counter.toNat ++ (beEnc 8 msg.length ++ (msg ++ y))) m) ms := by
  have hm : BitVec.ofNat 64 (beDec (beEnc 8 msg.length)) = BitVec.ofNat 64 msg.length := by
    rw [beDec_beEnc, Nat.mod_eq_of_lt (by omega)]
  have hn : (BitVec.ofNat 64 msg.length).toNat = msg.length := by
    rw [BitVec.toNat_ofNat, Nat.mod_eq_of_lt (by omega)]
  refine talks_readField _ _ _ _ _ _ (beEnc_length _ _) (talks_readField _ _ _ _ _ _ (beEnc_length _ _) ?_)
  simp only [hm, hn, maxMessageSize]
  rw [if_neg (by omega)]
  refine talks_readField _ _ _ _ _ _ rfl (h _ rfl ?_)
  exact ofNat_beDec_beEnc8 _

/-- The client of the session. -/
def SetUpT (secret : Bytes) (id : ID) (c : Client) : Prop :=
  c.expectReply = true ∧ ¬ c.readTimeout > 0 ∧ c.buffer = [] ∧
    ∃ s, c.session = some s ∧ s.secret = secret ∧ s.id = id

theorem talks_read (hC : C.Lawful) (hgcm : newGCM C secret = .ok gcm) (c : Client) (hc : SetUpT secret id c)
    (m n2 : Bytes) (hm : (f m).length + 16 ≤ 2 ^ 30)
    (h2 : nonce directionServerToClient c.lastSentCounter gcmNonceSize = .val n2)
    {g : (Bytes × Option Err) × Client → FlowProg C FlowLoop}
    (hg : ∀ r c', SetUpT secret id c' → r.1 = f m → (f m ≠ [] → r.2 = some .eof) →
      Talks f S gcm id (g (r, c')) (.reading [] m) ms) :
    Talks f S gcm id ((clientFlow (c.read wholeReply)).bind g)
      (.reading (newProcessResponse c.lastSentCounter (C.aeadSeal gcm n2 (f m))).bytes m) ms := by
  obtain ⟨hc1, hc2, hc3, s, hs, rfl, rfl⟩ := hc
  rw [read_eq, clientFlow_bind, Prog.bind_assoc, if_neg hc2]
  show Talks f S gcm s.id ((clientFlow (readBody c wholeReply)).bind g) _ ms
  unfold readBody
  rw [if_neg (by simp [hc3]), clientFlow_bind, Prog.bind_assoc, clientFlow_onConn]
  have hlen : (C.aeadSeal gcm n2 (f m)).length ≤ 2 ^ 30 := by rw [hC.seal_length]; exact hm
  have hb : (newProcessResponse c.lastSentCounter (C.aeadSeal gcm n2 (f m))).bytes =
      128#8 :: (beEnc 8 c.lastSentCounter.toNat ++
        (beEnc 8 (C.aeadSeal gcm n2 (f m)).length ++ (C.aeadSeal gcm n2 (f m) ++ []))) := by
    simp [ProcessResponse.bytes, newProcessResponse, ResponseCommon.bytes, Nat.mod_eq_of_lt (show
      (C.aeadSeal gcm n2 (f m)).length < 2 ^ 64 by omega)]
  rw [hb]
  refine talks_readOctet _ _ _ _ _ ?_
  show Talks f S gcm s.id ((clientFlow (Prog.bind (onClientConn (parseProcessResponse _)) _)).bind g) _ ms
  rw [clientFlow_bind, Prog.bind_assoc, clientFlow_onConn]
  refine talks_processResponse _ _ _ _ _ hlen fun resp hresp hcnt => ?_
  simp only []
  rw [if_neg (by simp [hcnt]), hs]
  simp only [hgcm, hcnt, h2, ofClientRes, Prog.bind, hresp, hC.open_seal]
  show Talks f S gcm s.id (g (readBuffer _ wholeReply)) _ ms
  have hml : (f m).length ≤ wholeReply := by
    show (f m).length ≤ 2 ^ 30
    omega
  unfold readBuffer
  simp only [hc3, List.nil_append]
  split
  · rename_i hnil
    refine hg _ _ ⟨hc1, hc2, hnil.1, s, rfl, rfl, rfl⟩ hnil.1.symm (fun h => (h hnil.1).elim)
  · refine hg _ _ ⟨hc1, hc2, List.drop_eq_nil_of_le hml, s, rfl, rfl, rfl⟩ (List.take_of_length_le hml) fun _ => ?_
    simp only []
    rw [if_pos (List.drop_eq_nil_of_le hml)]

theorem talks_sendAll {g : Nat × Option Err → FlowProg C FlowLoop} (bs reply m : Bytes) (n : Nat)
    (h : ∀ r : Nat × Option Err, r.2 = none → Talks f S gcm id (g r) (.sending [] reply m) ms) :
    Talks f S gcm id ((sendAll bs n).bind g) (.sending bs reply m) ms := by
  induction bs generalizing n with
  | nil => exact h _ rfl
  | cons b bs ih => exact .inr ⟨bs, reply, m, rfl, ih (n + 1)⟩

theorem talks_write (hC : C.Lawful) (hgcm : newGCM C secret = .ok gcm) (c : Client) (hc : SetUpT secret id c)
    (m : Bytes) (hm : m.length + 16 ≤ 2 ^ 30 ∧ S m) {g : (Nat × Option Err) × Client → FlowProg C FlowLoop}
    (hg : ∀ r c' n2, SetUpT secret id c' → r.2 = none →
      nonce directionServerToClient c'.lastSentCounter gcmNonceSize = .val n2 →
      Talks f S gcm id (g (r, c')) (.sending [] (newProcessResponse c'.lastSentCounter (C.aeadSeal gcm n2 (f m))).bytes m) ms) :
    Talks f S gcm id ((clientFlow (c.write m)).bind g) .idle (m :: ms) := by
  obtain ⟨hc1, hc2, hc3, s, hs, rfl, rfl⟩ := hc
  rw [Client.write, clientFlow_bind, Prog.bind_assoc]
  have hrest : Talks f S gcm s.id ((clientFlow (match c.session with
      | none => .panic "nil pointer dereference"
      | some session =>
      match newGCM C session.secret with
      | .error e => .ret ((0, some e), c)
      | .ok gcm =>
      .op (.addCounter session.sendCounter) fun (counter : BitVec 64) =>
      if counter = 0 then .ret ((0, some (.other "message counter exhausted")), c)
      else
      (ofClientRes (nonce directionClientToServer counter gcmNonceSize)).bind fun nonce =>
      .op (.aead gcm nonce m) fun (sealed : Bytes) =>
      .op (.write (newProcessRequest session.id counter sealed c.expectReply).bytes)
        fun (r : Nat × Option Err) =>
      (.ret (r, { c with lastSentCounter := counter }) : CProg C ((Nat × Option Err) × Client)))).bind g) .idle (m :: ms) := by
    rw [hs]
    simp only [hgcm]
    intro (counter : BitVec 64) _ (hne : counter ≠ 0)
    show Talks f S gcm s.id (Prog.bind (clientFlow (if counter = 0 then _ else _)) g) .idle (m :: ms)
    rw [if_neg hne]
    obtain ⟨n1, h1⟩ : ∃ x, nonce directionClientToServer counter gcmNonceSize = .val x := ⟨_, rfl⟩
    obtain ⟨n2, h2⟩ : ∃ x, nonce directionServerToClient counter gcmNonceSize = .val x := ⟨_, rfl⟩
    rw [h1]
    simp only [ofClientRes, Prog.bind]
    intro sealed hsealed _
    have hsealed : sealed = C.aeadSeal gcm n1 m := hsealed
    subst hsealed
    refine Eq.mpr (congrArg (Talks f S gcm s.id · .idle (m :: ms)) (Prog.bind_assoc (S := FlowSig C) (sendAll _ 0) _ g)) ?_
    rw [hc1]
    have hans : Answers C f gcm s.id m (newProcessRequest s.id counter (C.aeadSeal gcm n1 m) true).bytes
      (newProcessResponse counter (C.aeadSeal gcm n2 (f m))).bytes := ⟨counter, n1, n2, h1, h2, rfl, rfl⟩
    have hne' := (answers_ne hans).1
    generalize (newProcessRequest s.id counter (C.aeadSeal gcm n1 m) true).bytes = req at hans hne' ⊢
    cases req with
    | nil => exact (hne' rfl).elim
    | cons b req =>
      refine .inl ⟨m, ms, req, _, rfl, rfl, hm, hans, talks_sendAll _ _ _ _ fun r hr => ?_⟩
      exact hg r { c with expectReply := true, session := some s, lastSentCounter := counter } n2
        ⟨rfl, hc2, hc3, s, rfl, rfl, rfl⟩ hr h2
  split
  · intro (r : Option Err) _ (hr : r = none)
    subst hr
    exact hrest
  · exact hrest

theorem talks_exchangeAll (hC : C.Lawful) (hgcm : newGCM C secret = .ok gcm)
    (msgs : List Bytes) (hf : ∀ p ∈ msgs, (f p).length + 16 ≤ 2 ^ 30) (hm : ∀ p ∈ msgs, p.length + 16 ≤ 2 ^ 30 ∧ S p) (c : Client)
    (hc : SetUpT secret id c) : Talks (C := C) f S gcm id (exchangeAll c msgs) .idle msgs := by
  induction msgs generalizing c with
  | nil => exact ⟨rfl, rfl, rfl⟩
  | cons p ps ih =>
    refine talks_write hC hgcm c hc p (hm p List.mem_cons_self) fun r c' n2 hc' hr h2 => ⟨hr, _, p, rfl, ?_⟩
    have hr' : r.2.isSome = false := by rw [hr]; rfl
    simp only [hr', Bool.false_eq_true, if_false]
    exact talks_read hC hgcm c' hc' p n2 (hf p List.mem_cons_self) h2 (fun q c'' hc'' h3 h4 => show Talks f S gcm id (.op (.gotData _) _) _ _ from
      ⟨p, rfl, h3, h4, ih (fun q hq => hf q (List.mem_cons_of_mem _ hq)) (fun q hq => hm q (List.mem_cons_of_mem _ hq)) c'' hc''⟩)

end

/-! ## Both ends -/

section
variable (C) (secret f S) (gcm : Bytes) (id : ID)

def Question (req reply : Bytes) : Prop := ∃ m, (m.length + 16 ≤ 2 ^ 30 ∧ S m) ∧ Answers C f gcm id m req reply

/-- After a pass nothing, or a whole request, is to be read. -/
def Between (l : FlowLoop) (inp out : Bytes) : Prop :=
  l = .serving ∧ ((inp = [] ∧ out = []) ∨ Question C f S gcm id inp out)

variable {C}

/-- The server still has to read `inp` and to send `out`, or it waits for a request. -/
def ServerStands (p : FlowProg C FlowLoop) (inp out : Bytes) : Prop :=
  Exact secret f S p inp out (Between C f S gcm id) ∨
  (inp = [] ∧ out = [] ∧ ∀ req reply, Question C f S gcm id req reply → Exact secret f S p req reply (Between C f S gcm id))

def Turn.pending : Turn → List Bytes
  | .idle => []
  | .sending _ _ m => [m]
  | .reading _ m => [m]

/-- The octets under way are the rest of one request or of its reply. -/
def Under (p : FlowProg C FlowLoop) (w : FlowWorld) : Turn → Prop
  | .idle => w.up = [] ∧ w.down = [] ∧ ServerStands secret f S gcm id p [] []
  | .sending todo reply _ => ∃ out, w.down ++ out = reply ∧ ServerStands secret f S gcm id p (w.up ++ todo) out
  | .reading inp _ => ∃ out, w.down ++ out = inp ∧ ServerStands secret f S gcm id p w.up out

/-- What holds at any time. -/
def InvT (msgs : List Bytes) (q p : FlowProg C FlowLoop) (w : FlowWorld) : Prop :=
  w.closed = false ∧ (∀ r ∈ w.written, r.2 = none) ∧ (∀ r ∈ w.got, r.1 ≠ [] → r.2 = some .eof) ∧
    ∃ st ms, Talks f S gcm id q st ms ∧ w.got.map Prod.fst ++ (st.pending ++ ms).map f = msgs.map f ∧
      Under secret f S gcm id p w st

end

variable {gcm : Bytes} {id : ID} {host : Bytes} {roomUp roomDown : Nat} {env : FlowEnv C}

/-- Between two requests. -/
theorem Exact.extend {p : FlowProg C FlowLoop} (h : Exact secret f S p [] [] (Between C f S gcm id)) {req reply : Bytes}
    (hq : Question C f S gcm id req reply) : Exact secret f S p req reply (Between C f S gcm id) := by
  induction p with
  | ret l => exact ⟨h.1, .inr hq⟩
  | panic m => exact h
  | op o k ih =>
    cases o with
    | send b => obtain ⟨-, out', h, -⟩ := h; cases h
    | recv => exact (h.1 rfl).elim
    | hangUp => exact h
    | server o => exact ⟨h.1, fun r hr => ih _ (h.2 r hr)⟩
    | client o => exact h
    | wrote r => exact h
    | gotData r => exact h

/-- Once the reply was sent, the request was read. -/
theorem Exact.read (henv : ∀ o, HonestRet secret f o (serverAnswer env o)) {p : FlowProg C FlowLoop} {inp : Bytes}
    (h : Exact secret f S p inp [] (Between C f S gcm id)) : inp = [] := by
  induction p with
  | ret l =>
    obtain ⟨-, h | ⟨m, -, h⟩⟩ := h
    · exact h.1
    · exact ((answers_ne h).2 rfl).elim
  | panic m => exact h.elim
  | op o k ih =>
    cases o with
    | send b => exact h.1
    | recv => exact (h.1 rfl).elim
    | hangUp => exact h.elim
    | server o => exact ih _ (h.2 _ (henv o))
    | client o => exact h.elim
    | wrote r => exact h.elim
    | gotData r => exact h.elim

theorem exists_question (C : Crypto) (f : Bytes → Bytes) (gcm : Bytes) (id : ID)
    (hS : ∃ m : Bytes, m.length + 16 ≤ 2 ^ 30 ∧ S m) : ∃ req reply, Question C f S gcm id req reply := by
  obtain ⟨m, hm⟩ := hS
  exact ⟨_, _, m, hm, 0, _, _, rfl, rfl, rfl, rfl⟩

/-- A step of the server. -/
theorem serverAt_turn (hS : ∃ m : Bytes, m.length + 16 ≤ 2 ^ 30 ∧ S m) (hC : C.Lawful) (hgcm : newGCM C secret = .ok gcm)
    (henv : ∀ o, HonestRet secret f o (serverAnswer env o)) {p : FlowProg C FlowLoop} {w : FlowWorld} {todo out : Bytes}
    (h : ServerStands secret f S gcm id p (w.up ++ todo) out) :
    ∃ up down out', (turn (inMemory C) (.ok host) roomUp roomDown env 1 p w).2 = { w with up, down } ∧
      down ++ out' = w.down ++ out ∧ up.length ≤ w.up.length ∧
      ServerStands secret f S gcm id (turn (inMemory C) (.ok host) roomUp roomDown env 1 p w).1 (up ++ todo) out' := by
  have hpass : ∀ req reply, Question C f S gcm id req reply →
      Exact secret f S (serverPass (inMemory C) (.ok host)) req reply (Between C f S gcm id) := by
    intro req reply ⟨m, hm, hr⟩
    exact exact_serverPass hC host hgcm id hm.1 hm.2 hr ⟨rfl, .inl ⟨rfl, rfl⟩⟩
  obtain ⟨req, reply, hq⟩ := exists_question C f gcm id hS
  have hq0 := hq
  obtain ⟨m0, -, hr0⟩ := hq0
  rcases h with h | ⟨h1, h2, h⟩
  · cases p with
    | ret l =>
      obtain ⟨rfl, ⟨h1, h2⟩ | hq'⟩ := h
      · exact ⟨w.up, w.down, out, rfl, rfl, Nat.le_refl _, .inr ⟨h1, h2, hpass⟩⟩
      · exact ⟨w.up, w.down, out, rfl, rfl, Nat.le_refl _, .inl (hpass _ _ hq')⟩
    | panic e => exact h.elim
    | op op k =>
      cases op with
      | send b =>
        by_cases hd : w.down.length < roomDown
        · rw [turn_server_send hd]
          obtain ⟨h1, out', rfl, h3⟩ := h
          exact ⟨w.up, w.down ++ [b], out', rfl, by simp, Nat.le_refl _, .inl (h1 ▸ h3)⟩
        · rw [turn_server_full hd]
          exact ⟨w.up, w.down, out, rfl, rfl, Nat.le_refl _, .inl h⟩
      | recv =>
        cases hw : w.up with
        | nil =>
          rw [turn_server_empty hw]
          rw [hw] at h
          exact ⟨[], w.down, out, by rw [← hw], rfl, Nat.zero_le _, .inl h⟩
        | cons b up =>
          rw [turn_server_recv hw]
          obtain ⟨h1, b', rest, h2, h3⟩ := h
          rw [hw, List.cons_append] at h2
          obtain ⟨rfl, rfl⟩ := List.cons.inj h2
          exact ⟨up, w.down, out, rfl, rfl, by simp, .inl h3⟩
      | hangUp => exact h.elim
      | server so => exact ⟨w.up, w.down, out, rfl, rfl, Nat.le_refl _, .inl (h.2 _ (henv so))⟩
      | client so => exact h.elim
      | wrote r => exact h.elim
      | gotData r => exact h.elim
  · cases p with
    | ret l =>
      obtain ⟨rfl, -⟩ := h req reply hq
      exact ⟨w.up, w.down, out, rfl, rfl, Nat.le_refl _, .inr ⟨h1, h2, hpass⟩⟩
    | panic e => exact (h req reply hq).elim
    | op op k =>
      cases op with
      | send b => exact ((answers_ne hr0).1 (h req reply hq).1).elim
      | recv =>
        rw [turn_server_empty (List.append_eq_nil_iff.mp h1).1]
        exact ⟨w.up, w.down, out, rfl, rfl, Nat.le_refl _, .inr ⟨h1, h2, h⟩⟩
      | hangUp => exact (h req reply hq).elim
      | server so =>
        exact ⟨w.up, w.down, out, rfl, rfl, Nat.le_refl _, .inr ⟨h1, h2, fun req reply hq => (h req reply hq).2 _ (henv so)⟩⟩
      | client so => exact (h req reply hq).elim
      | wrote r => exact (h req reply hq).elim
      | gotData r => exact (h req reply hq).elim

theorem InvT.server (hS : ∃ m : Bytes, m.length + 16 ≤ 2 ^ 30 ∧ S m) (hC : C.Lawful) (hgcm : newGCM C secret = .ok gcm)
    (henv : ∀ o, HonestRet secret f o (serverAnswer env o)) {msgs : List Bytes} {q p : FlowProg C FlowLoop}
    {w : FlowWorld} (h : InvT secret f S gcm id msgs q p w) :
    InvT secret f S gcm id msgs q (turn (inMemory C) (.ok host) roomUp roomDown env 1 p w).1
      (turn (inMemory C) (.ok host) roomUp roomDown env 1 p w).2 := by
  obtain ⟨hc, hw, hg, st, ms, ht, hgot, hu⟩ := h
  cases st with
  | idle =>
    obtain ⟨hup, hdown, hs⟩ := hu
    obtain ⟨up, down, out', h1, h2, h3, h4⟩ := serverAt_turn (host := host) (roomUp := roomUp) (roomDown := roomDown)
      hS hC hgcm henv (w := w) (todo := []) (by rw [hup]; exact hs)
    rw [hdown] at h2
    rw [hup] at h3
    obtain ⟨rfl, rfl⟩ := List.append_eq_nil_iff.mp h2
    obtain rfl : up = [] := List.length_eq_zero_iff.mp (Nat.le_zero.mp h3)
    rw [h1]
    exact ⟨hc, hw, hg, .idle, ms, ht, hgot, rfl, rfl, h4⟩
  | sending todo reply m =>
    obtain ⟨out, hd, hs⟩ := hu
    obtain ⟨up, down, out', h1, h2, h3, h4⟩ := serverAt_turn (host := host) (roomUp := roomUp) (roomDown := roomDown)
      hS hC hgcm henv hs
    rw [h1]
    exact ⟨hc, hw, hg, _, ms, ht, hgot, out', h2.trans hd, h4⟩
  | reading inp m =>
    obtain ⟨out, hd, hs⟩ := hu
    obtain ⟨up, down, out', h1, h2, h3, h4⟩ := serverAt_turn (host := host) (roomUp := roomUp) (roomDown := roomDown)
      hS hC hgcm henv (w := w) (todo := []) (by rw [List.append_nil]; exact hs)
    rw [List.append_nil] at h4
    rw [h1]
    exact ⟨hc, hw, hg, _, ms, ht, hgot, out', h2.trans hd, h4⟩

theorem InvT.client (henv : ∀ o, HonestRet secret f o (serverAnswer env o)) (hb : env.Benign) {M : Manager C}
    {host : Except Err Bytes} {msgs : List Bytes} {q p : FlowProg C FlowLoop} {w : FlowWorld}
    (h : InvT secret f S gcm id msgs q p w) :
    InvT secret f S gcm id msgs (turn M host roomUp roomDown env 0 q w).1 p (turn M host roomUp roomDown env 0 q w).2 := by
  have h0 := h
  obtain ⟨hc, hw, hg, st, ms, ht, hgot, hu⟩ := h0
  cases q with
  | ret l =>
    obtain ⟨rfl, -⟩ := ht
    exact h
  | panic e => exact ht.elim
  | op o k =>
    cases o with
    | send b =>
      by_cases hroom : w.up.length < roomUp
      · rw [turn_client_send hc hroom]
        rcases ht with ⟨m, ms', ps, reply, rfl, rfl, hm, ha, ht⟩ | ⟨ps, reply, m, rfl, ht⟩
        · obtain ⟨hup, hdown, hs⟩ := hu
          refine ⟨hc, hw, hg, _, _, ht, hgot, reply, by simp [hdown], ?_⟩
          simp only [hup, List.nil_append, List.singleton_append]
          rcases hs with hs | ⟨-, -, hs⟩
          · exact .inl (hs.extend ⟨m, hm, ha⟩)
          · exact .inl (hs _ _ ⟨m, hm, ha⟩)
        · obtain ⟨out, hd, hs⟩ := hu
          refine ⟨hc, hw, hg, _, _, ht, hgot, out, hd, ?_⟩
          simpa using hs
      · rw [turn_client_full hc hroom]
        exact h
    | recv =>
      obtain ⟨b, y, m, rfl, ht⟩ := ht
      obtain ⟨out, hd, hs⟩ := hu
      cases hdn : w.down with
      | nil =>
        rw [turn_client_empty hdn hc]
        exact h
      | cons b' down =>
        rw [turn_client_recv hdn]
        rw [hdn, List.cons_append] at hd
        obtain ⟨rfl, rfl⟩ := List.cons.inj hd
        exact ⟨hc, hw, hg, _, _, ht, hgot, out, rfl, hs⟩
    | client o => exact ⟨hc, hw, hg, st, ms, ht _ (clientGood_answer env o) (benign_answer hb o), hgot, hu⟩
    | wrote r =>
      obtain ⟨hr, reply, m, rfl, ht⟩ := ht
      obtain ⟨out, hd, hs⟩ := hu
      rw [List.append_nil] at hs
      refine ⟨hc, fun x hx => ?_, hg, _, _, ht, hgot, out, hd, hs⟩
      rcases List.mem_append.mp hx with hx | hx
      · exact hw x hx
      · rw [List.mem_singleton.mp hx]; exact hr
    | gotData r =>
      obtain ⟨m, rfl, hr, hr2, ht⟩ := ht
      obtain ⟨out, hd, hs⟩ := hu
      obtain ⟨hdown, rfl⟩ := List.append_eq_nil_iff.mp hd
      have hup : w.up = [] := by
        rcases hs with hs | ⟨hs, -⟩
        · exact hs.read henv
        · exact hs
      refine ⟨hc, hw, fun x hx => ?_, .idle, ms, ht, ?_, hup, hdown, by rw [hup] at hs; exact hs⟩
      · rcases List.mem_append.mp hx with hx | hx
        · exact hg x hx
        · rw [List.mem_singleton.mp hx, hr]; exact hr2
      · rw [← hgot]
        show (w.got ++ [r]).map Prod.fst ++ _ = _
        simp [Turn.pending, hr]
    | hangUp => exact ht.elim
    | server o => exact ht.elim

theorem trace_invT (hS : ∃ m : Bytes, m.length + 16 ≤ 2 ^ 30 ∧ S m) (hC : C.Lawful) (hgcm : newGCM C secret = .ok gcm) {σ : Nat → Nat × FlowEnv C}
    (henv : ∀ n o, HonestRet secret f o (serverAnswer (σ n).2 o)) (hb : ∀ n, (σ n).2.Benign) {app : FlowProg C FlowLoop}
    {msgs : List Bytes} (happ : Talks f S gcm id app .idle msgs) (n : Nat) :
    InvT secret f S gcm id msgs (flowTrace (inMemory C) (.ok host) roomUp roomDown (atStart app) σ n).1
      (flowTrace (inMemory C) (.ok host) roomUp roomDown (atStart app) σ n).2.1
      (flowTrace (inMemory C) (.ok host) roomUp roomDown (atStart app) σ n).2.2 :=
  trace_inv (app := atStart app) (InvT secret f S gcm id msgs) (fun n _ _ _ h => h.client (henv n) (hb n))
    (fun n _ _ _ h => h.server hS hC hgcm (henv n))
    ⟨rfl, (fun _ h => by cases h), (fun _ h => by cases h), .idle, msgs, happ, rfl, rfl, rfl,
      .inl ⟨rfl, .inl ⟨rfl, rfl⟩⟩⟩ n

/-! ## Other replies do not matter -/

/-- What the server asks its application. -/
theorem ServerStands.calls (hS : ∃ m : Bytes, m.length + 16 ≤ 2 ^ 30 ∧ S m) {inp out : Bytes} {o : SOp}
    {k : (FlowSig C).Ret (.server o) → FlowProg C FlowLoop} (h : ServerStands secret f S gcm id (.op (.server o) k) inp out) :
    CallsIn S o := by
  rcases h with h | ⟨-, -, h⟩
  · exact h.1
  · obtain ⟨req, reply, hq⟩ := exists_question C f gcm id hS
    exact (h req reply hq).1

theorem InvT.calls (hS : ∃ m : Bytes, m.length + 16 ≤ 2 ^ 30 ∧ S m) {msgs : List Bytes} {q : FlowProg C FlowLoop}
    {w : FlowWorld} {o : SOp} {k : (FlowSig C).Ret (.server o) → FlowProg C FlowLoop}
    (h : InvT secret f S gcm id msgs q (.op (.server o) k) w) : CallsIn S o := by
  obtain ⟨-, -, -, st, ms, -, -, hu⟩ := h
  cases st with
  | idle => exact hu.2.2.calls hS
  | sending todo reply m => obtain ⟨out, -, hu⟩ := hu; exact hu.calls hS
  | reading inp m => obtain ⟨out, -, hu⟩ := hu; exact hu.calls hS

/-- The same, except that the application answers all but these messages with nothing. -/
def shortened (msgs : List Bytes) (env : FlowEnv C) : FlowEnv C :=
  { server := fun o => match o with
      | .invoke r counter host id m => if m ∈ msgs then env.server (.invoke r counter host id m) else HRes.reply []
      | o => env.server o
    client := env.client }

theorem turn_shortened {msgs : List Bytes} (M : Manager C) (host : Except Err Bytes) (i : Nat) {p : FlowProg C FlowLoop}
    (w : FlowWorld) (h : ∀ o k, p = .op (.server o) k → CallsIn (· ∈ msgs) o) :
    turn M host roomUp roomDown (shortened msgs env) i p w = turn M host roomUp roomDown env i p w := by
  cases p with
  | ret l => rfl
  | panic e => rfl
  | op o k =>
    cases o with
    | server o =>
      have h := h o k rfl
      cases o with
      | invoke r counter host id m =>
        have h' : (shortened msgs env).server (.invoke r counter host id m) = env.server (.invoke r counter host id m) :=
          if_pos h
        show (k ((shortened msgs env).server (.invoke r counter host id m)), w) = _
        rw [h']
        rfl
      | _ => rfl
    | client o => cases o <;> rfl
    | _ => rfl

/-- As long as only these messages are sent, it makes no difference. -/
theorem trace_shortened {msgs : List Bytes} (hS : ∃ m : Bytes, m.length + 16 ≤ 2 ^ 30 ∧ m ∈ msgs) (hC : C.Lawful)
    (hgcm : newGCM C secret = .ok gcm) {σ : Nat → Nat × FlowEnv C}
    (henv : ∀ n o, HonestRet secret f o (serverAnswer (σ n).2 o)) (hb : ∀ n, (σ n).2.Benign) {app : FlowEnds C}
    (h0 : InvT secret f (· ∈ msgs) gcm id msgs app.1 app.2.1 app.2.2) (n : Nat) :
    flowTrace (inMemory C) (.ok host) roomUp roomDown app (fun n => ((σ n).1, shortened msgs (σ n).2)) n =
      flowTrace (inMemory C) (.ok host) roomUp roomDown app σ n := by
  have hinv := trace_inv (M := inMemory C) (host := .ok host) (roomUp := roomUp) (roomDown := roomDown) (σ := σ) (app := app)
    (InvT secret f (· ∈ msgs) gcm id msgs) (fun n _ _ _ h => h.client (henv n) (hb n))
    (fun n _ _ _ h => h.server hS hC hgcm (henv n)) h0
  induction n with
  | zero => rfl
  | succ n ih =>
    show flowStep _ _ _ _ (flowTrace _ _ _ _ app _ n) _ = flowStep _ _ _ _ (flowTrace _ _ _ _ app σ n) _
    rw [ih]
    have hinv := hinv n
    generalize flowTrace (inMemory C) (.ok host) roomUp roomDown app σ n = s at hinv
    obtain ⟨q, p, w⟩ := s
    dsimp only
    rcases hσ : σ n with ⟨i, env⟩
    match i with
    | 0 =>
      rw [flowStep_client, flowStep_client, turn_shortened]
      rintro o k rfl
      obtain ⟨-, -, -, st, ms, h, -⟩ := hinv
      exact h.elim
    | 1 =>
      rw [flowStep_server, flowStep_server, turn_shortened]
      rintro o k rfl
      exact hinv.calls hS
    | i + 2 => rfl

end

end Goe2ee
