import Verif.Proofs.Safe
import Verif.Proofs.Codec
import Verif.Spec.Server
import Verif.Props.Nonce

/-!
# What a pass of the server writes
-/

set_option autoImplicit false

namespace Goe2ee

/-- Octets the transport accepted. -/
def accepted (ws : List WRec) : Bytes := (ws.map fun w => w.1.take w.2.1).flatten

theorem accepted_append (as bs : List WRec) : accepted (as ++ bs) = accepted as ++ accepted bs := by
  simp [accepted]

section
variable (C : Crypto)

/-- Records the writes; none may follow one that was partial or timed out. -/
def writesA : Auto (SSig C) (List WRec) where
  pre
    | .flush, _ => False
    | .write _, g => ∀ w ∈ g, ¬ w.Part ∧ ¬ w.TimedOut
    | _, _ => True
  next
    | .write bs, (n, e), g => g ++ [(bs, n, e)]
    | _, _, g => g

variable {C}

/-- What a handler may have written when it returns: nothing (if `silent`), or one complete response
`r` with `P r`, after attempts that wrote nothing; if it returns an error, a beginning of one. -/
def Outcome (silent : Prop) (P : Bytes → Prop) : Option Err → List WRec → Prop
  | none, ws => (silent ∧ ws = []) ∨
      ∃ fails r, ws = fails ++ [(r, r.length, none)] ∧ P r ∧ ∀ f ∈ fails, f.2.1 = 0 ∧ ¬ WRec.TimedOut f
  | some _, ws => (∃ r, P r ∧ accepted ws <+: r) ∧ ∃ w ∈ ws, ¬ WRec.Complete w

/-- … when it panics: nothing. -/
def NothingWritten : String → List WRec → Prop := fun _ ws => ws = []

theorem Outcome.mono {S S' : Prop} {P P' : Bytes → Prop} (hS : S → S') (hP : ∀ r, P r → P' r)
    {err : Option Err} {ws : List WRec} (h : Outcome S P err ws) : Outcome S' P' err ws := by
  cases err with
  | none =>
    rcases h with ⟨hs, hw⟩ | ⟨fails, r, hw, hr, hf⟩
    · exact .inl ⟨hS hs, hw⟩
    · exact .inr ⟨fails, r, hw, hP _ hr, hf⟩
  | some e =>
    obtain ⟨⟨r, hr, hpre⟩, hw⟩ := h
    exact ⟨⟨r, hP _ hr, hpre⟩, hw⟩

/-- Effects that write nothing. -/
def SOp.isMute : SOp → Prop
  | .write _ => False
  | .flush => False
  | _ => True

theorem mute_safe {α : Type} {p : SProg C α} (hp : Uses (S := SSig C) SOp.isMute p) {g : List WRec}
    {Q : α → List WRec → Prop} {E : String → List WRec → Prop} (hQ : ∀ a, Q a g) (hE : ∀ m, E m g) :
    SafeE (writesA C) p g Q E :=
  SafeE.of_uses hp (fun o _ h => by cases o <;> first | trivial | exact h.elim)
    (fun o _ _ h => by cases o <;> first | rfl | exact h.elim) hQ hE

theorem isRead_mute (o : SOp) (h : o.isRead) : o.isMute := by cases o <;> first | trivial | exact h.elim
theorem isTable_mute (o : SOp) (h : o.isTable) : o.isMute := by cases o <;> first | trivial | exact h.elim

theorem isError_errorBytes (code : ErrorCode) (text : String) : IsError (errorBytes code text) := by
  refine ⟨code.toNat, str text, ?_⟩
  simp [errorBytes, ErrorResponse.bytes, newErrorResponse, ResponseCommon.bytes, Wire.errorResponse,
    beEnc_eight, beEnc_four]

theorem outcome_writeError (silent : Prop) (fails : List WRec) (hf : ∀ f ∈ fails, f.2.1 = 0 ∧ ¬ WRec.TimedOut f)
    (P : Bytes → Prop) (r : Bytes) (hr : P r) {Q : Bool → List WRec → Prop}
    {E : String → List WRec → Prop}
    (hQ : ∀ ok ws, Outcome silent P (if ok then none else some .shortWrite) ws → Q ok ws) :
    SafeE (writesA C) (writeErrorResponse r) fails Q E := by
  have hacc : accepted fails = [] := by
    simp only [accepted, List.flatten_eq_nil_iff, List.mem_map]
    rintro l ⟨w, hw, rfl⟩
    rw [(hf w hw).1]; rfl
  refine ⟨fun w hw => ⟨fun h => by have := h.1; have := (hf w hw).1; omega, (hf w hw).2⟩, fun (x : Nat × Option Err) => ?_⟩
  obtain ⟨n, e⟩ := x
  rcases e with _ | e
  · dsimp only
    split
    · rename_i hn
      refine hQ false _ ⟨⟨r, hr, ?_⟩, (r, n, none), List.mem_append_right _ (List.mem_singleton_self _),
        fun h => hn (congrArg Prod.fst h)⟩
      show accepted (fails ++ [(r, n, none)]) <+: r
      rw [accepted_append, hacc]
      simp only [accepted, List.map_cons, List.map_nil, List.flatten_cons, List.flatten_nil,
        List.append_nil, List.nil_append]
      exact List.take_prefix _ _
    · rename_i hn
      have hn : n = r.length := Classical.not_not.mp hn
      subst hn
      exact hQ true _ (.inr ⟨fails, r, rfl, hr, hf⟩)
  · refine hQ false _ ⟨⟨r, hr, ?_⟩, (r, n, some e), List.mem_append_right _ (List.mem_singleton_self _),
      fun h => by cases congrArg Prod.snd h⟩
    show accepted (fails ++ [(r, n, some e)]) <+: r
    rw [accepted_append, hacc]
    simp only [accepted, List.map_cons, List.map_nil, List.flatten_cons, List.flatten_nil,
      List.append_nil, List.nil_append]
    exact List.take_prefix _ _

theorem outcome_failWith (silent : Prop) (P : Bytes → Prop) (code : ErrorCode) (text : String)
    (hP : ∀ r, IsError r → P r) {E : String → List WRec → Prop} :
    SafeE (writesA C) (failWith code text) [] (Outcome silent P) E := by
  refine SafeE.bind (outcome_writeError silent [] (by simp) P _ (hP _ (isError_errorBytes _ _)) ?_)
  intro ok ws h
  cases ok <;> exact h

theorem outcome_respondWith (silent : Prop) (P : Bytes → Prop) (r : Bytes) (hr : P r)
    (hP : ∀ r, IsError r → P r) {E : String → List WRec → Prop} :
    SafeE (writesA C) (respondWith r) [] (Outcome silent P) E := by
  refine SafeE.bind (Q := Outcome silent P) ?_
  refine ⟨fun w hw => absurd hw (by simp), fun (x : Nat × Option Err) => ?_⟩
  obtain ⟨n, e⟩ := x
  have hpre : ∀ e, accepted [(r, n, e)] <+: r := by
    intro e
    simp only [accepted, List.map_cons, List.map_nil, List.flatten_cons, List.flatten_nil,
      List.append_nil]
    exact List.take_prefix _ _
  rcases e with _ | e
  · dsimp only
    split
    · rename_i hn
      exact ⟨⟨r, hr, hpre _⟩, _, List.mem_singleton_self _, fun h => hn (congrArg Prod.fst h)⟩
    · rename_i hn
      have hn : n = r.length := Classical.not_not.mp hn
      subst hn
      exact .inr ⟨[], r, rfl, hr, by simp⟩
  · dsimp only
    split
    · exact ⟨⟨r, hr, hpre _⟩, _, List.mem_singleton_self _, fun h => by cases congrArg Prod.snd h⟩
    · rename_i hd
      split
      · exact ⟨⟨r, hr, hpre _⟩, _, List.mem_singleton_self _, fun h => by cases congrArg Prod.snd h⟩
      · rename_i hn
        have hn : n = 0 := by omega
        subst hn
        refine outcome_writeError silent [(r, 0, some e)] (by simpa [WRec.TimedOut] using hd) P _
          (hP _ (isError_errorBytes _ _)) ?_
        intro ok ws h
        cases ok <;> exact h

/-! ## The handlers after parsing -/

/-- The part of `setupHandler` after parsing. -/
def setupParsed (M : Manager C) (host : Except Err Bytes) (request : SetupRequest C) :
    SProg C (Option Err) :=
  .op .genKey fun (generated : Except Err C.EPriv) =>
  match generated with
  | .error _ => failWith codeMalformedRequest "failed to generate private key"
  | .ok serverPrivateKey =>
  match C.ecdh serverPrivateKey request.publicKey with
  | .error _ => failWith codeMalformedRequest "failed to generate shared secret"
  | .ok sharedSecret =>
  match host with
  | .error _ => failWith codeServerError "failed to split host and port"
  | .ok host =>
  .op (.newSession sharedSecret host request.id.val) fun (session : Ref) =>
  (M.store (sessionKey C host request.id) session).bind fun stored =>
  match stored with
  | .error _ => failWith codeServerError "failed to store shared secret"
  | .ok () =>
  .op (.sign cryptoSHA512
      (setupTranscript C request.publicKey (C.epub serverPrivateKey) request.id))
    fun (signed : Except Err Bytes) =>
  match signed with
  | .error _ => failWith codeServerError "failed to sign response"
  | .ok signature =>
  (ofRes (newHashType cryptoSHA512)).bind fun hashType =>
  respondWith ((newSetupResponse C (C.epub serverPrivateKey)).setSignature hashType signature).bytes

/-- The part of `processHandler` after parsing. -/
def processParsed (M : Manager C) (host : Except Err Bytes) (request : ProcessRequest) :
    SProg C (Option Err) :=
  match host with
  | .error _ => failWith codeServerError "failed to split host and port"
  | .ok host =>
  (M.load (sessionKey C host request.id)).bind fun loaded =>
  match loaded with
  | none => failWith codeUnknownClient "could not find a shared secret matching the given ID"
  | some session =>
  .op (.check session request.counter) fun (fresh : Bool) =>
  if fresh then
    .op (.secretOf session) fun (secret : Bytes) =>
    match deriveKey C secret kdfInfo aesKeySize with
    | .error _ => failWith codeServerError "failed to derive encryption key"
    | .ok aesKey =>
    match aesNewCipher aesKey with
    | .error _ => failWith codeServerError "failed to create AES cipher"
    | .ok block =>
    match cipherNewGCM block with
    | .error _ => failWith codeServerError "failed to create GCM cipher"
    | .ok gcm =>
    (ofRes (nonce directionClientToServer request.counter gcmNonceSize)).bind fun nonce =>
    match C.aeadOpen gcm nonce request.message with
    | none => failWith codeServerError "failed to decrypt message"
    | some message => runHandler session host request gcm message
  else failWith codeReplayDetected "message counter was already seen or is too old"

theorem setupHandler_eq (M : Manager C) (host : Except Err Bytes) (common : RequestCommon) :
    setupHandler M host common = (onConn (parseSetupRequest C common)).bind fun parsed =>
      match parsed with
      | .error _ => failWith codeMalformedRequest "failed to parse data of the request"
      | .ok request => setupParsed M host request := rfl

theorem processHandler_eq (M : Manager C) (host : Except Err Bytes) (common : RequestCommon) :
    processHandler M host common = (onConn (parseProcessRequest common)).bind fun parsed =>
      match parsed with
      | .error _ => failWith codeMalformedRequest "failed to parse data of the request"
      | .ok request => processParsed M host request := rfl

theorem be64_mod (n : Nat) : Wire.be64 (n % 2 ^ 64) = Wire.be64 n := by
  simp only [Wire.be64, Wire.octet]
  have key : ∀ i, i < 8 → BitVec.ofNat 8 (n % 2 ^ 64 / 256 ^ i) = BitVec.ofNat 8 (n / 256 ^ i) := by
    intro i hi
    apply BitVec.eq_of_toNat_eq
    simp only [BitVec.toNat_ofNat]
    rcases i with _ | _ | _ | _ | _ | _ | _ | _ | i <;> omega
  rw [key 7 (by omega), key 6 (by omega), key 5 (by omega), key 4 (by omega), key 3 (by omega),
    key 2 (by omega), key 1 (by omega), key 0 (by omega)]

theorem processResponse_bytes (counter : BitVec 64) (msg : Bytes) :
    (newProcessResponse counter msg).bytes = Wire.processResponse counter.toNat msg := by
  simp [ProcessResponse.bytes, newProcessResponse, ResponseCommon.bytes, Wire.processResponse,
    beEnc_eight, ← be64_mod msg.length]

theorem fetchKeyResponse_bytes (alg : Byte) (pk : Bytes) :
    (newFetchKeyResponse alg pk).bytes = Wire.fetchKeyResponse alg pk := by
  simp [FetchKeyResponse.bytes, newFetchKeyResponse, ResponseCommon.bytes, Wire.fetchKeyResponse,
    beEnc_eight, ← be64_mod pk.length]

/-- What `handle` may write for a request. -/
def ResponseTo (q : Req C) : Bytes → Prop := IsResponse q

theorem outcome_setupParsed {M : Manager C} (hM : M.Passive) (host : Except Err Bytes)
    (request : SetupRequest C) (silent : Prop) (id : ID) (pk : C.EPub) :
    SafeE (writesA C) (setupParsed M host request) [] (Outcome silent (IsResponse (.setup id pk)))
      NothingWritten := by
  have hE : ∀ r, IsError r → IsResponse (C := C) (.setup id pk) r := fun r h => .inr h
  unfold setupParsed
  refine ⟨trivial, fun (generated : Except Err C.EPriv) => ?_⟩
  rcases generated with _ | serverPrivateKey
  · exact outcome_failWith _ _ _ _ hE
  dsimp only
  split
  · exact outcome_failWith _ _ _ _ hE
  split
  · exact outcome_failWith _ _ _ _ hE
  refine ⟨trivial, fun session => ?_⟩
  refine SafeE.bind (mute_safe ((hM.store _ _).mono isTable_mute) (fun stored => ?_) fun _ => rfl)
  split
  · exact outcome_failWith _ _ _ _ hE
  refine ⟨trivial, fun (signed : Except Err Bytes) => ?_⟩
  rcases signed with _ | signature
  · exact outcome_failWith _ _ _ _ hE
  refine outcome_respondWith _ _ _ (.inl ⟨rfl, C.epub serverPrivateKey, signature, ?_⟩) hE
  by_cases hs : signature = []
  · subst hs
    right
    exact ⟨rfl, by simp [SetupResponse.bytes, newSetupResponse, SetupResponse.setSignature,
      ResponseCommon.bytes, beEnc_four]⟩
  · left
    refine ⟨hs, ?_⟩
    have : 0 < signature.length := List.length_pos_iff.mpr hs
    simp [SetupResponse.bytes, newSetupResponse, SetupResponse.setSignature, ResponseCommon.bytes,
      Wire.setupResponse, beEnc_four, this, hashTypeSHA512]

theorem outcome_processParsed {M : Manager C} (hM : M.Passive) (host : Except Err Bytes)
    (request : ProcessRequest) :
    SafeE (writesA C) (processParsed M host request) []
      (Outcome (request.expectReply = false)
        (IsResponse (C := C) (.process request.expectReply request.id request.counter request.message)))
      NothingWritten := by
  have hE : ∀ r, IsError r → IsResponse (C := C)
      (.process request.expectReply request.id request.counter request.message) r :=
    fun r h => .inr h
  unfold processParsed
  split
  · exact outcome_failWith _ _ _ _ hE
  refine SafeE.bind (mute_safe ((hM.load _).mono isTable_mute) (fun loaded => ?_) fun _ => rfl)
  split
  · exact outcome_failWith _ _ _ _ hE
  refine ⟨trivial, fun fresh => ?_⟩
  cases fresh with
  | false => exact outcome_failWith _ _ _ _ hE
  | true =>
    refine ⟨trivial, fun (secret : Bytes) => ?_⟩
    dsimp only
    split
    · exact outcome_failWith _ _ _ _ hE
    split
    · exact outcome_failWith _ _ _ _ hE
    split
    · exact outcome_failWith _ _ _ _ hE
    rw [show gcmNonceSize = 12 from rfl, C12_nonce_layout]
    dsimp only [ofRes, Prog.ret_bind]
    split
    · exact outcome_failWith _ _ _ _ hE
    unfold runHandler
    refine ⟨trivial, fun (handled : HRes) => ?_⟩
    rcases handled with written | e | m
    rotate_left
    · exact outcome_failWith _ _ _ _ hE
    · rfl
    dsimp only
    split
    · rename_i hexp
      rw [show gcmNonceSize = 12 from rfl, C12_nonce_layout]
      refine ⟨trivial, fun sealed => ?_⟩
      exact outcome_respondWith _ _ _ (.inl ⟨hexp, sealed, processResponse_bytes _ _⟩) hE
    · rename_i hexp
      exact .inl ⟨by simpa using hexp, rfl⟩

theorem outcome_fetchKeyHandler (silent : Prop) :
    SafeE (writesA C) fetchKeyHandler [] (Outcome silent (IsResponse (C := C) .fetchKey))
      NothingWritten := by
  have hE : ∀ r, IsError r → IsResponse (C := C) .fetchKey r := fun r h => .inr h
  unfold fetchKeyHandler
  refine ⟨trivial, fun (fetched : Except Err (KeyAlgorithm × PublicKey)) => ?_⟩
  rcases fetched with _ | ⟨alg, pk⟩
  · exact outcome_failWith _ _ _ _ hE
  dsimp only
  split
  · exact outcome_failWith _ _ _ _ hE
  · exact outcome_respondWith _ _ _ (.inl ⟨rfl, alg, _, fetchKeyResponse_bytes _ _⟩) hE

theorem outcome_hello (silent : Prop) :
    SafeE (writesA C) (respondWith Goe2ee.helloResponse.bytes) []
      (Outcome silent (IsResponse (C := C) .hello)) NothingWritten :=
  outcome_respondWith _ _ _ (.inl ⟨rfl, rfl⟩) fun _ h => .inr h

/-! ## A whole pass, whatever is read -/

/-- A complete response to some request. -/
def AnyResponse (C : Crypto) (r : Bytes) : Prop := ∃ q : Req C, IsResponse q r

theorem outcome_handle {M : Manager C} (hM : M.Passive) (host : Except Err Bytes)
    (common : RequestCommon) :
    SafeE (writesA C) (handle M host common) [] (Outcome True (AnyResponse C)) NothingWritten := by
  have hE : ∀ r, IsError r → AnyResponse C r := fun r h => ⟨.hello, .inr h⟩
  unfold handle
  split
  · exact (outcome_hello True).mono (fun _ _ h => h.mono id fun r hr => ⟨_, hr⟩) fun _ _ h => h
  split
  · rw [setupHandler_eq]
    refine SafeE.bind (mute_safe ((uses_onConn _).mono isRead_mute) (fun parsed => ?_) fun _ => rfl)
    rcases parsed with _ | request
    · exact outcome_failWith _ _ _ _ hE
    · exact (outcome_setupParsed hM host request True request.id request.publicKey).mono
        (fun _ _ h => h.mono id fun r hr => ⟨_, hr⟩) fun _ _ h => h
  split
  · rw [processHandler_eq]
    refine SafeE.bind (mute_safe ((uses_onConn _).mono isRead_mute) (fun parsed => ?_) fun _ => rfl)
    rcases parsed with _ | request
    · exact outcome_failWith _ _ _ _ hE
    · exact (outcome_processParsed hM host request).mono
        (fun _ _ h => h.mono (fun _ => trivial) fun r hr => ⟨_, hr⟩) fun _ _ h => h
  split
  · exact (outcome_fetchKeyHandler True).mono (fun _ _ h => h.mono id fun r hr => ⟨_, hr⟩) fun _ _ h => h
  · exact .inl ⟨trivial, rfl⟩

/-- What a pass may have written when the loop goes on, and when it ends. -/
def PassOutcome (C : Crypto) : Bool → List WRec → Prop
  | true, ws => Outcome True (AnyResponse C) none ws
  | false, ws => ws = [] ∨ Outcome True (AnyResponse C) (some .eof) ws

theorem outcome_serveRequest {M : Manager C} (hM : M.Passive) (host : Except Err Bytes) :
    SafeE (writesA C) (serveRequest M host) [] (PassOutcome C) NothingWritten := by
  unfold serveRequest
  refine SafeE.bind (mute_safe ((uses_onConn _).mono isRead_mute) (fun parsed => ?_) fun _ => rfl)
  rcases parsed with _ | common
  · exact .inl rfl
  dsimp only
  split
  · exact .inl rfl
  refine SafeE.bind ((outcome_handle hM host common).mono (fun err ws h => ?_) fun _ _ h => h)
  rcases err with _ | e
  · exact h
  · exact .inr h

theorem outcome_connPass {M : Manager C} (hM : M.Passive) (host : Except Err Bytes) :
    SafeE (writesA C) (connPass M host) [] (PassOutcome C) NothingWritten := by
  refine ⟨trivial, fun (closed : Bool) => ?_⟩
  cases closed with
  | true => exact .inl rfl
  | false => exact ⟨trivial, fun _ => outcome_serveRequest hM host⟩

end

end Goe2ee
