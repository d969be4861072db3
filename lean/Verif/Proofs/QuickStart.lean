import Verif.Model.QuickStart
import Verif.Proofs.FlowDial

/-!
# Several requests in a row over a connection of bounded capacity

Each request and the response to it are a phase as in `Verif.Proofs.FlowDial`: the server is idle as long as it waits for
the request of the next phase.
-/

set_option autoImplicit false

namespace Goe2ee

section
variable {C : Crypto} {A A' : (o : SOp) → o.Ret C → Prop} {B B' : (o : COp) → o.Ret C → Prop}
  {R R' : FlowProg C FlowLoop → Prop} {req resp : Bytes} {M : Manager C} {host : Except Err Bytes} {roomUp roomDown : Nat}

theorem Replies.mono (hA : ∀ o r, A o r → A' o r) {α : Type} {p : FlowProg C α} {inp out : Bytes} {Q : α → Prop}
    (h : Replies A' p inp out Q) : Replies A p inp out Q := by
  induction p generalizing inp out with
  | ret a => exact h
  | panic m => exact h
  | op o k ih =>
    cases o with
    | send b =>
      obtain ⟨h1, h2 | ⟨b', out', h2, h3⟩⟩ := h
      · exact ⟨h1, .inl h2⟩
      · exact ⟨h1, .inr ⟨b', out', h2, ih _ h3⟩⟩
    | recv =>
      obtain ⟨b, inp', h2, h3⟩ := h
      exact ⟨b, inp', h2, ih _ h3⟩
    | hangUp => exact h
    | server o => exact fun r hr => ih _ (h r (hA o r hr))
    | client o => exact h
    | wrote r => exact h
    | gotData r => exact h

variable (A req resp) in
/-- The server waits for the request `req`, to which it will answer `resp`. -/
def Next (p : FlowProg C FlowLoop) : Prop := p = .ret .serving ∨ Replies A p req resp (· = .serving)

theorem next_idle {env : FlowEnv C} (henv : ∀ o, A o (serverAnswer env o))
    (hpass : Replies A (serverPass M host) req resp (· = .serving)) (hreq : req ≠ []) {p : FlowProg C FlowLoop} {w : FlowWorld}
    (hup : w.up = []) (h : Next A req resp p) :
    (turn M host roomUp roomDown env 1 p w).2 = w ∧ Next A req resp (turn M host roomUp roomDown env 1 p w).1 := by
  rcases h with rfl | h
  · exact ⟨rfl, .inr hpass⟩
  · cases p with
    | ret l => exact h.elim
    | panic e => exact h.elim
    | op o k =>
      cases o with
      | send b => exact (hreq h.1).elim
      | recv =>
        rw [turn_server_empty hup]
        exact ⟨rfl, .inr h⟩
      | hangUp => exact h.elim
      | server so => exact ⟨rfl, .inr (h _ (henv so))⟩
      | client so => exact h.elim
      | wrote r => exact h.elim
      | gotData r => exact h.elim

/-- A phase that is followed by another one. -/
theorem sets_next {env : FlowEnv C} {req' resp' : Bytes} (henv : ∀ o, A o (serverAnswer env o))
    (hpass : Replies A (serverPass M host) req resp (· = .serving)) (hresp : resp ≠ [])
    (hpass' : Replies A (serverPass M host) req' resp' (· = .serving)) (hreq' : req' ≠ []) :
    Sets A M host roomUp roomDown req resp (Next A req' resp') env where
  answers := henv
  pass := hpass
  resp := hresp
  idle := fun _ _ hup _ h => next_idle henv hpass' hreq' hup h
  back := .inl rfl

/-- The start of a phase. -/
theorem invH_start {Idle : FlowProg C FlowLoop → Prop} {q p : FlowProg C FlowLoop}
    (ho : Opens B R q req resp) (hp : Next A req resp p) : InvH A B R req resp Idle roomUp q p {} :=
  ⟨Nat.zero_le _, rfl, rfl, rfl, req, resp, resp, ho, rfl, by
    rcases hp with rfl | h
    · exact .inl ⟨rfl, rfl, rfl⟩
    · exact .inr (.inl h)⟩

/-! ## The requests -/

/-- What the server's effects return: it runs, it has the session with its secret, accepts the counter, and the
application replies to a message `m` with `f m`. -/
def QuickRet (serverKey : C.EPriv) (signer : Nat → Bytes → Except Err Bytes) (secret : Bytes) (f : Bytes → Bytes) (o : SOp)
    (r : o.Ret C) : Prop :=
  SetupRet serverKey signer o r ∧ HonestRet secret f o r

/-- What the client's effects return: the dial as above, the first counter is 1, and deadlines can be set. -/
def QuickDial (hostname : Bytes) (key : PublicKey) (random : ID) (clientKey : C.EPriv) (o : COp) (r : o.Ret C) : Prop :=
  DialRet hostname key random clientKey o r ∧
    match o, r with
    | .addCounter _, (r : BitVec 64) => r = 1
    | .setReadDeadline, (r : Option Err) => r = none
    | .setWriteDeadline, (r : Option Err) => r = none
    | .aead key nonce plaintext, (r : Bytes) => r = C.aeadSeal key nonce plaintext
    | _, _ => True

variable {hostname : Bytes} {key : PublicKey} {random : ID} {clientKey serverKey : C.EPriv} {algorithm : KeyAlgorithm}
  {signer : Nat → Bytes → Except Err Bytes} {secret signature : Bytes} {f : Bytes → Bytes}

/-! ### Fetching the key -/

theorem replies_fetchKey (host : Except Err Bytes) {raw : Bytes} (hraw : C.marshalPKIX key = .ok raw)
    (hquit : ∀ r : Bool, A .quitClosed r → r = false)
    (hfetch : ∀ r : Except Err (KeyAlgorithm × PublicKey), A .fetchKey r → r = .ok (algorithm, key)) :
    Replies A (serverPass (inMemory C) host) fetchKeyRequest.bytes
      (newFetchKeyResponse algorithm raw).bytes (· = .serving) := by
  apply Replies.thenHangUp
  refine replies_op _ _ rfl fun (closed : Bool) hcl => ?_
  obtain rfl := hquit _ hcl
  rw [if_neg (by simp)]
  refine replies_op _ _ rfl fun _ _ => ?_
  rw [serveRequest, serverFlow_bind, serverFlow_onConn,
    show fetchKeyRequest.bytes = 0x14#8 :: [] by decide]
  refine replies_readOctet _ _ _ _ ?_
  show Replies _ (serverFlow (if ((0x14#8 &&& 0xF0#8) >>> 4 : Byte) ≠ version1 then _ else _)) _ _ _
  rw [if_neg (by decide), serverFlow_bind]
  refine Replies.map (Q := (· = none)) ?_ (fun a ha => ?_)
  · rw [handle, if_neg (by decide), if_neg (by decide), if_neg (by decide), if_pos (by decide)]
    refine replies_op _ _ rfl fun (fetched : Except Err (KeyAlgorithm × PublicKey)) hf => ?_
    obtain rfl := hfetch _ hf
    simp only [hraw]
    exact replies_respondWith _ (by simp [FetchKeyResponse.bytes, newFetchKeyResponse, ResponseCommon.bytes])
  · subst ha
    exact ⟨true, rfl, rfl⟩

theorem opens_fetch (hC : C.Lawful) {network : Bytes} (hnet : network = str "tcp" ∨ network = str "udp")
    (next : Except Err PublicKey → FlowProg C FlowLoop) {raw : Bytes} (hraw : C.marshalPKIX key = .ok raw)
    (hl : raw.length ≤ 65536) (hconnect : ∀ r : Option Err, B .connect r → r = none) :
    Opens B (· = next (.ok key)) (fetchOver network next) fetchKeyRequest.bytes
      (newFetchKeyResponse algorithm raw).bytes := by
  unfold fetchOver protocolFetch
  rw [if_pos hnet]
  refine .inr fun (r : Option Err) hr => ?_
  obtain rfl := hconnect _ hr
  show Opens _ _ (Prog.bind (clientFlow (Prog.bind protocolExchange _)) _) _ _
  rw [clientFlow_bind, Prog.bind_assoc]
  refine Eq.mpr (congrArg (Opens _ _ · _ _) (Prog.bind_assoc (S := FlowSig C) (sendAll fetchKeyRequest.bytes 0) _ _)) ?_
  refine opens_sendAll _ 0 ?_
  have hn : (BitVec.ofNat 64 raw.length).toNat = raw.length := by
    rw [BitVec.toNat_ofNat, Nat.mod_eq_of_lt (by omega)]
  have hm : BitVec.ofNat 64 (beDec (beEnc 8 raw.length)) = BitVec.ofNat 64 raw.length := by
    rw [beDec_beEnc, Nat.mod_eq_of_lt (by omega)]
  have hb : (newFetchKeyResponse algorithm raw).bytes = 0x80#8 :: ([algorithm] ++ (beEnc 8 raw.length ++ (raw ++ []))) := by
    simp [FetchKeyResponse.bytes, newFetchKeyResponse, ResponseCommon.bytes, Nat.mod_eq_of_lt (show raw.length < 2 ^ 64 by omega)]
  rw [hb]
  show Opens _ _ (Prog.bind (clientFlow (Prog.bind (onClientConn parseResponseCommon) _)) _) _ _
  rw [clientFlow_bind, Prog.bind_assoc, clientFlow_onConn]
  refine opens_readOctet _ _ _ _ ?_
  show Opens _ _ (Prog.bind (clientFlow (Prog.bind (onClientConn (parseFetchKeyResponse _)) _)) _) _ _
  rw [clientFlow_bind, Prog.bind_assoc, clientFlow_onConn]
  refine opens_readField _ _ _ _ _ rfl (opens_readField _ _ _ _ _ (beEnc_length _ _) ?_)
  show Opens _ _ ((parserFlow (if (BitVec.ofNat 64 (beDec (beEnc 8 raw.length))).toNat > maxKeySize then _ else _)).bind _) _ _
  rw [hm, hn, if_neg (by simp only [maxKeySize]; omega)]
  show Opens _ _ ((parserFlow (readField _ _ _)).bind _) _ _
  refine opens_readField _ _ _ _ _ rfl ?_
  show Opens _ _ (Prog.bind (clientFlow (match C.parsePKIX raw with
    | .error e => .ret (.error (.wrap "error parsing public key" e))
    | .ok (.inl _) => .ret (.ok (.otherType 0))
    | .ok (.inr publicKey) => .ret (.ok publicKey) : CProg C (Except Err PublicKey))) _) _ _
  rw [hC.parse_marshalPKIX _ _ hraw]
  refine .inr fun _ _ => Opens.done rfl

/-! ### One message -/

theorem replies_process (hC : C.Lawful) (host : Bytes) {gcm : Bytes} (hgcm : newGCM C secret = .ok gcm) (id : ID)
    {m request reply : Bytes} (hm : m.length + 16 ≤ 2 ^ 30) (hr : Answers C f gcm id m request reply) :
    Replies (QuickRet serverKey signer secret f) (serverPass (inMemory C) (.ok host)) request reply
      (· = .serving) := by
  have hne := (answers_ne hr).2
  obtain ⟨counter, n1, n2, h1, h2, rfl, rfl⟩ := hr
  have hlen : (C.aeadSeal gcm n1 m).length ≤ 2 ^ 30 := by rw [hC.seal_length]; exact hm
  obtain ⟨gcm', hk1, hk2⟩ := newGCM_ok hC secret
  have hkey : gcm' = gcm := by rw [hk2] at hgcm; exact Except.ok.inj hgcm
  subst hkey
  obtain ⟨key', hk1', -, hk3, hk4⟩ := C55_aead_key C hC secret
  obtain rfl : key' = gcm' := by rw [hk1'] at hk1; exact Except.ok.inj hk1
  apply Replies.thenHangUp
  refine replies_op _ _ rfl fun (closed : Bool) hcl => ?_
  obtain rfl : closed = false := hcl.1
  rw [if_neg (by simp)]
  refine replies_op _ _ rfl fun _ _ => ?_
  rw [serveRequest, serverFlow_bind, serverFlow_onConn]
  generalize hsealed : C.aeadSeal key' n1 m = sealed at hlen ⊢
  have hb : (newProcessRequest id counter sealed true).bytes = 0x13#8 :: 0x80#8 ::
      (id.val ++ (beEnc 8 counter.toNat ++ (beEnc 8 sealed.length ++ (sealed ++ [])))) := by
    simp [ProcessRequest.bytes, newProcessRequest, RequestCommon.bytes, version1, actionProcess,
      Nat.mod_eq_of_lt (show sealed.length < 18446744073709551616 by omega)]
  rw [hb]
  refine replies_readOctet _ _ _ _ ?_
  show Replies _ (serverFlow (if ((0x13#8 &&& 0xF0#8) >>> 4 : Byte) ≠ version1 then _ else _)) _ _ _
  rw [if_neg (by decide), serverFlow_bind]
  refine Replies.map (Q := (· = none)) ?_ (fun a ha => ?_)
  · rw [handle, if_neg (by decide), if_neg (by decide), if_pos (by decide), processHandler, serverFlow_bind,
      serverFlow_onConn]
    have hmm : BitVec.ofNat 64 (beDec (beEnc 8 sealed.length)) = BitVec.ofNat 64 sealed.length := by
      rw [beDec_beEnc, Nat.mod_eq_of_lt (by omega)]
    have hn : (BitVec.ofNat 64 sealed.length).toNat = sealed.length := by
      rw [BitVec.toNat_ofNat, Nat.mod_eq_of_lt (by omega)]
    refine replies_readOctet _ _ _ _ (replies_readField _ _ _ _ _ id.property
      (replies_readField _ _ _ _ _ (beEnc_length _ _) (replies_readField _ _ _ _ _ (beEnc_length _ _) ?_)))
    simp only [hmm, hn, maxMessageSize]
    rw [if_neg (by omega)]
    refine replies_readField _ _ _ _ _ rfl ?_
    rw [toID_val, ofNat_beDec_beEnc8]
    show Replies _ (serverFlow (Prog.bind _ _)) _ _ _
    rw [serverFlow_bind]
    show Replies _ (Prog.bind (serverFlow (.op (.mapLoad _) _)) _) _ _ _
    refine fun (loaded : Option (Ref × Nat)) hl => ?_
    have hl : loaded.isSome = true := hl.2
    cases loaded with
    | none => cases hl
    | some x =>
      obtain ⟨session, t⟩ := x
      refine fun t _ => fun _ _ => ?_
      refine replies_op _ _ rfl fun (fresh : Bool) hf => ?_
      obtain rfl : fresh = true := hf.2
      rw [if_pos rfl]
      refine replies_op _ _ rfl fun (s : Bytes) hs => ?_
      obtain rfl : s = secret := hs.2
      simp only [hk1', hk3, hk4, h1, ofRes, Prog.bind, ← hsealed, hC.open_seal]
      refine replies_op _ _ rfl fun (handled : HRes) hh => ?_
      obtain rfl : handled = .reply (f m) := hh.2
      simp only []
      rw [if_pos (by decide)]
      simp only [h2, ofRes, Prog.bind]
      refine replies_op _ _ rfl fun (sealed : Bytes) hs => ?_
      obtain rfl : sealed = C.aeadSeal key' n2 (f m) := hs.2
      exact replies_respondWith _ hne
  · subst ha
    exact ⟨true, rfl, rfl⟩

/-- The client has the reply. -/
def Replied (m : Bytes) (q : FlowProg C FlowLoop) : Prop := q = .op (.gotData (m, none)) fun _ => .ret .ended

/-- The rest of `io.ReadAll` after a `Read`. -/
def readOn (rooms : List Nat) (data : Bytes) (a : (Bytes × Option Err) × Client) :
    CProg C (Option (Bytes × Option Err) × Client) :=
  match a.1.2 with
  | none => Client.readAll rooms (data ++ a.1.1) a.2
  | some e => .ret (some (data ++ a.1.1, if e = .eof then none else some e), a.2)

theorem opens_readOn (rooms : List Nat) (room : Nat) (hroom : 0 < room) (hr : ∀ room ∈ rooms, 0 < room) (data : Bytes)
    (c : Client) (hb : c.buffer ≠ []) (hl : c.buffer.length ≤ rooms.length + 1)
    {g : Option (Bytes × Option Err) × Client → FlowProg C FlowLoop}
    (hg : ∀ c', Opens (QuickDial hostname key random clientKey) R (g (some (data ++ c.buffer, none), c')) [] []) :
    Opens (QuickDial hostname key random clientKey) R ((clientFlow (readOn rooms data (readBuffer c room))).bind g) [] [] := by
  induction rooms generalizing data c room with
  | nil =>
    have hlen := List.length_pos_iff.mpr hb
    simp only [List.length_nil] at hl
    have he : c.buffer.drop room = [] := List.drop_eq_nil_of_le (by omega)
    have ht : c.buffer.take room = c.buffer := List.take_of_length_le (by omega)
    rw [readBuffer, if_neg (fun h => hb h.1)]
    simp only [readOn, he, ht, if_true]
    exact hg _
  | cons room' rooms ih =>
    rw [readBuffer, if_neg (fun h => hb h.1)]
    by_cases he : c.buffer.drop room = []
    · have ht : c.buffer.take room = c.buffer := by
        have := List.take_append_drop room c.buffer
        rw [he, List.append_nil] at this
        exact this
      simp only [readOn, he, ht, if_true]
      exact hg _
    · simp only [readOn, he, if_false]
      rw [Client.readAll, clientFlow_bind, Prog.bind_assoc, read_eq, clientFlow_bind, Prog.bind_assoc]
      have hrest := ih room' (hr room' List.mem_cons_self) (fun r h => hr r (List.mem_cons_of_mem _ h))
        (data ++ c.buffer.take room) { c with buffer := c.buffer.drop room } he
        (by
          have := List.length_pos_iff.mpr hb
          simp only [List.length_cons] at hl
          simp only [List.length_drop]
          omega)
        (fun c' => by
          rw [List.append_assoc, List.take_append_drop]
          exact hg c')
      have hbody : Opens (QuickDial hostname key random clientKey) R
          ((clientFlow (readBody { c with buffer := c.buffer.drop room } room')).bind fun a =>
            (clientFlow (readOn rooms (data ++ c.buffer.take room) a)).bind g) [] [] := by
        unfold readBody
        rw [if_pos he]
        exact hrest
      split
      · refine .inr fun (r : Option Err) hr => ?_
        obtain rfl : r = none := hr.2
        exact hbody
      · exact hbody

/-- The result of `io.ReadAll` is recorded. -/
def record (q : Option (Bytes × Option Err) × Client) : FlowProg C FlowLoop :=
  match q.1 with
  | none => .ret .ended
  | some result => .op (.gotData result) fun _ => .ret .ended

theorem opens_response (hC : C.Lawful) {gcm : Bytes} (c : Client) (hbuf : c.buffer = []) (s : ClientSession)
    (hs : c.session = some s) (hgcm : newGCM C s.secret = .ok gcm) (hcounter : c.lastSentCounter = 1) {m n2 : Bytes}
    (h2 : nonce directionServerToClient 1 gcmNonceSize = .val n2) (hm : m.length + 16 ≤ 2 ^ 30) (hne : m ≠ [])
    (rooms : List Nat) (hr : ∀ room ∈ rooms, 0 < room) (hl : m.length ≤ rooms.length) :
    Opens (QuickDial hostname key random clientKey) (Replied m) ((clientFlow (Client.readAll rooms [] c)).bind record) []
      (newProcessResponse 1 (C.aeadSeal gcm n2 m)).bytes := by
  have hlen : (C.aeadSeal gcm n2 m).length ≤ 2 ^ 30 := by rw [hC.seal_length]; exact hm
  have hb : (newProcessResponse 1 (C.aeadSeal gcm n2 m)).bytes =
      128#8 :: (beEnc 8 (1 : BitVec 64).toNat ++
        (beEnc 8 (C.aeadSeal gcm n2 m).length ++ (C.aeadSeal gcm n2 m ++ []))) := by
    simp [ProcessResponse.bytes, newProcessResponse, ResponseCommon.bytes, Nat.mod_eq_of_lt (show
      (C.aeadSeal gcm n2 m).length < 18446744073709551616 by omega)]
  have hmm : BitVec.ofNat 64 (beDec (beEnc 8 (C.aeadSeal gcm n2 m).length)) =
      BitVec.ofNat 64 (C.aeadSeal gcm n2 m).length := by
    rw [beDec_beEnc, Nat.mod_eq_of_lt (by omega)]
  have hn : (BitVec.ofNat 64 (C.aeadSeal gcm n2 m).length).toNat = (C.aeadSeal gcm n2 m).length := by
    rw [BitVec.toNat_ofNat, Nat.mod_eq_of_lt (by omega)]
  cases rooms with
  | nil =>
    simp only [List.length_nil, Nat.le_zero, List.length_eq_zero_iff] at hl
    exact absurd hl hne
  | cons room rooms =>
  rw [Client.readAll, clientFlow_bind, Prog.bind_assoc, read_eq, clientFlow_bind, Prog.bind_assoc]
  have hbody : Opens (QuickDial hostname key random clientKey) (Replied m)
      ((clientFlow (readBody c room)).bind fun a => (clientFlow (readOn rooms [] a)).bind record) []
      (newProcessResponse 1 (C.aeadSeal gcm n2 m)).bytes := by
    unfold readBody
    rw [if_neg (by simp [hbuf]), clientFlow_bind, Prog.bind_assoc, clientFlow_onConn, hb]
    refine opens_readOctet _ _ _ _ ?_
    show Opens _ _ ((clientFlow (Prog.bind (onClientConn (parseProcessResponse _)) _)).bind _) _ _
    rw [clientFlow_bind, Prog.bind_assoc, clientFlow_onConn]
    refine opens_readField _ _ _ _ _ (beEnc_length _ _) (opens_readField _ _ _ _ _ (beEnc_length _ _) ?_)
    show Opens _ _ ((parserFlow (if (BitVec.ofNat 64 (beDec (beEnc 8 (C.aeadSeal gcm n2 m).length))).toNat > maxMessageSize
      then _ else _)).bind _) _ _
    rw [hmm, hn, if_neg (by simp only [maxMessageSize]; omega)]
    show Opens _ _ ((parserFlow (readField _ _ _)).bind _) _ _
    refine opens_readField _ _ _ _ _ rfl ?_
    have hcnt : BitVec.ofNat 64 (beDec (beEnc 8 (1 : BitVec 64).toNat)) = c.lastSentCounter := by
      rw [ofNat_beDec_beEnc8, hcounter]
    show Opens _ _ (Prog.bind (clientFlow (if (BitVec.ofNat 64 (beDec (beEnc 8 (1 : BitVec 64).toNat))) ≠ c.lastSentCounter
      then _ else _)) _) _ _
    rw [if_neg (fun h => h hcnt), hs]
    simp only [hgcm, ofNat_beDec_beEnc8, h2, ofClientRes, Prog.bind, hC.open_seal]
    refine opens_readOn rooms room (hr room List.mem_cons_self) (fun r h => hr r (List.mem_cons_of_mem _ h)) [] _
      (by simpa [hbuf] using hne) (by simpa [hbuf] using hl) (fun c' => ?_)
    simp only [hbuf, List.nil_append]
    exact Opens.done rfl
  split
  · refine .inr fun (r : Option Err) hr => ?_
    obtain rfl : r = none := hr.2
    exact hbody
  · exact hbody

theorem opens_message (hC : C.Lawful) {gcm : Bytes} (c : Client) (he : c.expectReply = true) (hbuf : c.buffer = [])
    (s : ClientSession) (hs : c.session = some s) (hgcm : newGCM C s.secret = .ok gcm) (m : Bytes) {n1 n2 : Bytes}
    (h1 : nonce directionClientToServer 1 gcmNonceSize = .val n1)
    (h2 : nonce directionServerToClient 1 gcmNonceSize = .val n2) (hm : (f m).length + 16 ≤ 2 ^ 30) (hne : f m ≠ [])
    (rooms : List Nat) (hr : ∀ room ∈ rooms, 0 < room) (hl : (f m).length ≤ rooms.length) :
    Opens (QuickDial hostname key random clientKey) (Replied (f m)) (writeThenReadAll c m rooms)
      (newProcessRequest s.id 1 (C.aeadSeal gcm n1 m) true).bytes
      (newProcessResponse 1 (C.aeadSeal gcm n2 (f m))).bytes := by
  unfold writeThenReadAll Client.write
  rw [clientFlow_bind, Prog.bind_assoc]
  have hrest : Opens (QuickDial hostname key random clientKey) (Replied (f m)) ((clientFlow (match c.session with
      | none => .panic "nil pointer dereference"
      | some session =>
      match newGCM C session.secret with
      | .error e => .ret ((0, some e), c)
      | .ok gcm =>
      .op (.addCounter session.sendCounter) fun (counter : BitVec 64) =>
      if counter = 0 then .ret ((0, some (.other "message counter exhausted")), c)
      else
      (ofClientRes (nonce directionClientToServer counter gcmNonceSize)).bind fun nonce =>
      .op (.aead gcm nonce m) fun (sealed : Bytes) =>
      .op (.write (newProcessRequest session.id counter sealed c.expectReply).bytes)
        fun (r : Nat × Option Err) =>
      (.ret (r, { c with lastSentCounter := counter }) : CProg C ((Nat × Option Err) × Client)))).bind fun r =>
        match r.1.2 with
        | some e => .op (.wrote (r.1.1, some e)) fun _ => .ret .ended
        | none => (clientFlow (Client.readAll rooms [] r.2)).bind record)
      (newProcessRequest s.id 1 (C.aeadSeal gcm n1 m) true).bytes
      (newProcessResponse 1 (C.aeadSeal gcm n2 (f m))).bytes := by
    rw [hs]
    simp only [hgcm]
    refine .inr fun (counter : BitVec 64) hcounter => ?_
    obtain rfl : counter = 1 := hcounter.2
    show Opens _ _ (Prog.bind (clientFlow (if (1 : BitVec 64) = 0 then _ else _)) _) _ _
    rw [if_neg (by decide), h1]
    simp only [ofClientRes, Prog.bind]
    refine .inr fun (sealed : Bytes) hsealed => ?_
    obtain rfl : sealed = C.aeadSeal gcm n1 m := hsealed.2
    rw [he]
    refine Eq.mpr (congrArg (Opens _ _ · _ _) (Prog.bind_assoc (S := FlowSig C) (sendAll _ 0) _ _)) ?_
    refine opens_sendAll _ 0 ?_
    exact opens_response hC { c with expectReply := true, session := some s, lastSentCounter := 1 } hbuf s rfl hgcm rfl h2 hm
      hne rooms hr hl
  split
  · refine .inr fun (r : Option Err) hr => ?_
    obtain rfl : r = none := hr.2
    exact hrest
  · exact hrest

end

end Goe2ee
