import Verif.Spec.ServerLog
import Verif.Proofs.Safe
import Verif.Proofs.Codec

/-!
# Proofs about the log of the server
-/

set_option autoImplicit false

namespace Goe2ee

/-! ## Assertions about all traces of a program -/

section
variable {S : Sig} {σ α β : Type}

/-- A state `σ` is updated after each effect (`next`); before each effect `ok` holds, and in the end `post`. -/
def Along (next : (o : S.Op) → S.Ret o → σ → σ) (ok : S.Op → σ → Prop) (post : α → σ → Prop) : Prog S α → σ → Prop
  | .ret a, s => post a s
  | .panic _, _ => True
  | .op o k, s => ok o s ∧ ∀ r, Along next ok post (k r) (next o r s)

variable {next : (o : S.Op) → S.Ret o → σ → σ} {ok : S.Op → σ → Prop}

theorem Along.bind {mid : α → σ → Prop} {post : β → σ → Prop} {p : Prog S α} {f : α → Prog S β} {s : σ}
    (hp : Along next ok mid p s) (hf : ∀ a s, mid a s → Along next ok post (f a) s) : Along next ok post (p.bind f) s := by
  induction p generalizing s with
  | ret a => exact hf _ _ hp
  | panic m => trivial
  | op o k ih => exact ⟨hp.1, fun r => ih r (hp.2 r)⟩

theorem Along.mono {post post' : α → σ → Prop} {p : Prog S α} {s : σ} (hp : Along next ok post p s)
    (h : ∀ a s, post a s → post' a s) : Along next ok post' p s := by
  induction p generalizing s with
  | ret a => exact h _ _ hp
  | panic m => trivial
  | op o k ih => exact ⟨hp.1, fun r => ih r (hp.2 r)⟩

/-- The state after a trace. -/
def stateAfter (next : (o : S.Op) → S.Ret o → σ → σ) (s : σ) (tr : List ((o : S.Op) × S.Ret o)) : σ :=
  tr.foldl (fun s e => next e.1 e.2 s) s

theorem Along.before {τ : Type} {post : α → σ → Prop} {p : Prog S α} {s : σ} (hp : Along next ok post p s) (I : Interp S τ)
    (t : τ) {pre suf : List ((o : S.Op) × S.Ret o)} {e : (o : S.Op) × S.Ret o} (h : p.trace I t = pre ++ e :: suf) :
    ok e.1 (stateAfter next s pre) := by
  induction p generalizing s t pre with
  | ret a => simp [Prog.trace] at h
  | panic m => simp [Prog.trace] at h
  | op o k ih =>
    rw [Prog.trace] at h
    cases pre with
    | nil =>
      simp only [List.nil_append, List.cons.injEq] at h
      rw [← h.1]
      exact hp.1
    | cons x pre =>
      simp only [List.cons_append, List.cons.injEq] at h
      rw [← h.1]
      exact ih _ (hp.2 _) _ h.2

theorem Along.finally {τ : Type} {post : α → σ → Prop} {p : Prog S α} {s : σ} (hp : Along next ok post p s) (I : Interp S τ)
    (t : τ) {a : α} (h : (p.run I t).1 = .val a) : post a (stateAfter next s (p.trace I t)) := by
  induction p generalizing s t with
  | ret b => cases h; exact hp
  | panic m => cases h
  | op o k ih => exact ih _ (hp.2 _) _ h

end

section
variable {C : Crypto} {α β σ : Type}

/-! ## Without the lines -/

theorem unlogged_bind (p : LProg C α) (f : α → LProg C β) :
    (p.bind f).unlogged = p.unlogged.bind fun a => (f a).unlogged := by
  induction p with
  | ret a => rfl
  | panic m => rfl
  | op o k ih =>
    cases o with
    | base o => exact congrArg (Prog.op (S := SSig C) o) (funext fun r => ih r)
    | log f a => exact ih ()
    | logIfFailed f => exact ih ()

theorem unlogged_emb (p : SProg C α) : (emb p).unlogged = p := by
  unfold emb
  induction p with
  | ret a => rfl
  | panic m => rfl
  | op o k ih => exact congrArg (Prog.op (S := SSig C) o) (funext fun r => ih r)

theorem unlogged_writeErrorResponse (bs : Bytes) :
    (writeErrorResponseL (C := C) bs).unlogged = writeErrorResponse bs := by
  refine congrArg (Prog.op (S := SSig C) (.write bs)) (funext fun r => ?_)
  rcases r with ⟨n, _ | e⟩
  · dsimp only; split <;> rfl
  · dsimp only; split <;> rfl

theorem unlogged_writeResponse (a : Byte) (bs : Bytes) :
    (writeResponseL (C := C) a bs).unlogged = writeResponse bs := by
  refine congrArg (Prog.op (S := SSig C) (.write bs)) (funext fun r => ?_)
  rcases r with ⟨n, _ | e⟩
  · dsimp only; split <;> rfl
  · dsimp only
    split
    · rfl
    · show Prog.unlogged (if _ then _ else _) = _
      split
      · rfl
      · exact unlogged_writeErrorResponse _

theorem unlogged_refuse (c : ErrorCode) (t : String) : (refuse (C := C) c t).unlogged = failWith c t := by
  rw [refuse, unlogged_bind, unlogged_writeErrorResponse]
  refine congrArg (Prog.bind _) (funext fun ok => ?_)
  cases ok <;> rfl

theorem unlogged_failWith (f : String) (a : LogArg) (c : ErrorCode) (t : String) :
    (failWithL (C := C) f a c t).unlogged = failWith c t := unlogged_refuse c t

theorem unlogged_respondWith (a : Byte) (bs : Bytes) : (respondWithL (C := C) a bs).unlogged = respondWith bs := by
  rw [respondWithL, unlogged_bind, unlogged_writeResponse]
  refine congrArg (Prog.bind _) (funext fun ok => ?_)
  cases ok <;> rfl

theorem unlogged_setupHandler (M : Manager C) (host : Except Err Bytes) (common : RequestCommon) :
    (setupHandlerL M host common).unlogged = setupHandler M host common := by
  rw [setupHandlerL, unlogged_bind, unlogged_emb]
  refine congrArg (Prog.bind _) (funext fun parsed => ?_)
  cases parsed with
  | error e => exact unlogged_failWith ..
  | ok request =>
  refine congrArg (Prog.op (S := SSig C) .genKey) (funext fun g => ?_)
  cases g with
  | error e => exact unlogged_failWith ..
  | ok k =>
  dsimp only
  cases C.ecdh k request.publicKey with
  | error e => exact unlogged_failWith ..
  | ok sh =>
  cases host with
  | error e => exact unlogged_failWith ..
  | ok host =>
  refine congrArg (Prog.op (S := SSig C) (.newSession _ _ _)) (funext fun r => ?_)
  rw [unlogged_bind, unlogged_emb]
  refine congrArg (Prog.bind _) (funext fun stored => ?_)
  cases stored with
  | error e => exact unlogged_failWith ..
  | ok u =>
  refine congrArg (Prog.op (S := SSig C) (.sign _ _)) (funext fun sg => ?_)
  cases sg with
  | error e => exact unlogged_failWith ..
  | ok sg =>
  dsimp only
  rw [unlogged_bind, unlogged_emb]
  exact congrArg (Prog.bind _) (funext fun ht => unlogged_respondWith ..)

theorem unlogged_runHandler (session : Ref) (host : Bytes) (common : RequestCommon) (request : ProcessRequest)
    (gcm message : Bytes) :
    (runHandlerL (C := C) session host common request gcm message).unlogged = runHandler session host request gcm message := by
  refine congrArg (Prog.op (S := SSig C) (.invoke _ _ _ _ _)) (funext fun h => ?_)
  cases h with
  | panic m => rfl
  | error e => exact unlogged_failWith ..
  | reply bs =>
    dsimp only
    split
    · rw [unlogged_bind, unlogged_emb]
      refine congrArg (Prog.bind _) (funext fun n => ?_)
      exact congrArg (Prog.op (S := SSig C) (.aead _ _ _ _)) (funext fun sealed => unlogged_respondWith ..)
    · rfl

theorem unlogged_processHandler (M : Manager C) (host : Except Err Bytes) (common : RequestCommon) :
    (processHandlerL M host common).unlogged = processHandler M host common := by
  rw [processHandlerL, unlogged_bind, unlogged_emb]
  refine congrArg (Prog.bind _) (funext fun parsed => ?_)
  cases parsed with
  | error e => exact unlogged_failWith ..
  | ok request =>
  cases host with
  | error e => exact unlogged_failWith ..
  | ok host =>
  dsimp only
  rw [unlogged_bind, unlogged_emb]
  refine congrArg (Prog.bind _) (funext fun loaded => ?_)
  cases loaded with
  | none => exact unlogged_refuse ..
  | some session =>
  refine congrArg (Prog.op (S := SSig C) (.check _ _)) (funext fun fresh => ?_)
  dsimp only
  split
  · refine congrArg (Prog.op (S := SSig C) (.secretOf _)) (funext fun secret => ?_)
    dsimp only
    cases deriveKey C secret kdfInfo aesKeySize with
    | error e => exact unlogged_failWith ..
    | ok k =>
    dsimp only
    cases aesNewCipher k with
    | error e => exact unlogged_failWith ..
    | ok b =>
    dsimp only
    cases cipherNewGCM b with
    | error e => exact unlogged_failWith ..
    | ok gcm =>
    dsimp only
    rw [unlogged_bind, unlogged_emb]
    refine congrArg (Prog.bind _) (funext fun n => ?_)
    cases C.aeadOpen gcm n request.message with
    | none => exact unlogged_failWith ..
    | some m => exact unlogged_runHandler ..
  · exact unlogged_failWith ..

theorem unlogged_fetchKeyHandler (common : RequestCommon) :
    (fetchKeyHandlerL (C := C) common).unlogged = fetchKeyHandler := by
  refine congrArg (Prog.op (S := SSig C) .fetchKey) (funext fun f => ?_)
  cases f with
  | error e => exact unlogged_failWith ..
  | ok kp =>
  obtain ⟨a, p⟩ := kp
  dsimp only
  cases C.marshalPKIX p with
  | error e => exact unlogged_failWith ..
  | ok raw => exact unlogged_respondWith ..

theorem unlogged_handle (M : Manager C) (host : Except Err Bytes) (common : RequestCommon) :
    (handleL M host common).unlogged = handle M host common := by
  unfold handleL handle
  split
  · exact unlogged_respondWith ..
  split
  · exact unlogged_setupHandler ..
  split
  · exact unlogged_processHandler ..
  split
  · exact unlogged_fetchKeyHandler ..
  · rfl

theorem unlogged_serveRequest (M : Manager C) (host : Except Err Bytes) (closed : Err) (addr : LogArg) :
    (serveRequestL M host closed addr).unlogged = serveRequest M host := by
  rw [serveRequestL, unlogged_bind, unlogged_emb]
  refine congrArg (Prog.bind _) (funext fun parsed => ?_)
  cases parsed with
  | error e => dsimp only; split <;> rfl
  | ok common =>
    dsimp only
    split
    · rfl
    · rw [unlogged_bind, unlogged_handle]
      refine congrArg (Prog.bind _) (funext fun err => ?_)
      cases err with
      | none => rfl
      | some e => dsimp only; split <;> rfl

/-! ## Parts that do not log -/

variable {next : (o : (LSig C).Op) → (LSig C).Ret o → σ → σ} {ok : (LSig C).Op → σ → Prop}

/-- Effects that are allowed and leave the state alone. -/
theorem Along.emb_uses {P : SOp → Prop} {p : SProg C α} (hp : Uses (S := SSig C) P p)
    (hP : ∀ o, P o → ∀ s, ok (.base o) s ∧ ∀ r, next (.base o) r s = s) (s : σ) :
    Along next ok (fun _ s' => s' = s) (emb p) s := by
  unfold emb
  induction p with
  | ret a => rfl
  | panic m => trivial
  | op o k ih =>
    refine ⟨(hP o hp.1 s).1, fun r => ?_⟩
    rw [(hP o hp.1 s).2 r]
    exact ih r (hp.2 r)

theorem Along.emb_ofRes (r : Res α) (s : σ) : Along next ok (fun _ s' => s' = s) (emb (ofRes r) : LProg C α) s := by
  cases r
  · rfl
  · trivial


/-- The invariant `J` is kept. -/
theorem Along.keeps {S : Sig} {next : (o : S.Op) → S.Ret o → σ → σ} {ok : S.Op → σ → Prop} {τ : Type} {post : α → σ → Prop}
    {J : σ → Prop} {p : Prog S α} {s : σ} (hp : Along next ok post p s) (hJ : ∀ o r s, ok o s → J s → J (next o r s))
    (hs : J s) (I : Interp S τ) (t : τ) : J (stateAfter next s (p.trace I t)) := by
  induction p generalizing s t with
  | ret a => exact hs
  | panic m => exact hs
  | op o k ih => exact ih _ (hp.2 _) (hJ _ _ _ hp.1 hs) _

/-- Effects other than writes. -/
def SOp.noWrite : SOp → Prop
  | .write _ => False
  | _ => True

variable {R : σ → Prop}

theorem Along.emb_keeps {p : SProg C α} (hp : Uses (S := SSig C) SOp.noWrite p)
    (hR : ∀ o, o.noWrite → ∀ s, R s → ok (.base o) s ∧ ∀ r, R (next (.base o) r s)) {s : σ} (hs : R s) :
    Along next ok (fun _ s' => R s') (emb p) s := by
  unfold emb
  induction p generalizing s with
  | ret a => exact hs
  | panic m => trivial
  | op o k ih => exact ⟨(hR o hp.1 s hs).1, fun r => ih r (hp.2 r) ((hR o hp.1 s hs).2 r)⟩

theorem isRead_noWrite (o : SOp) (h : o.isRead) : o.noWrite := by cases o <;> first | trivial | exact h.elim
theorem isTable_noWrite (o : SOp) (h : o.isTable) : o.noWrite := by cases o <;> first | trivial | exact h.elim

theorem noWrite_onConn (p : RProg α) : Uses (S := SSig C) SOp.noWrite (onConn p) :=
  (uses_onConn p).mono isRead_noWrite

theorem noWrite_ofRes (r : Res α) : Uses (S := SSig C) SOp.noWrite (ofRes r) := by cases r <;> trivial

theorem head_setupResponse (k : C.EPub) (h : HashType) (sg : Bytes) :
    ((newSetupResponse C k).setSignature h sg).bytes.head? = some 0x80#8 := by
  simp [SetupResponse.bytes, SetupResponse.setSignature, newSetupResponse, ResponseCommon.bytes]

theorem head_processResponse (n : BitVec 64) (bs : Bytes) : (newProcessResponse n bs).bytes.head? = some 0x80#8 := by
  simp [ProcessResponse.bytes, newProcessResponse, ResponseCommon.bytes]

theorem head_fetchKeyResponse (a : KeyAlgorithm) (bs : Bytes) : (newFetchKeyResponse a bs).bytes.head? = some 0x80#8 := by
  simp [FetchKeyResponse.bytes, newFetchKeyResponse, ResponseCommon.bytes]

/-- What has to be shown about the handler of a request. -/
theorem along_handle {M : Manager C} (hM : M.Passive) (host : Except Err Bytes) (common : RequestCommon)
    {post : Option Err → σ → Prop}
    (hR : ∀ o, o.noWrite → ∀ s, R s → ok (.base o) s ∧ ∀ r, R (next (.base o) r s))
    (hnone : ∀ s, R s → post none s)
    (hfail : ∀ f a (c : ErrorCode) t s, (c.toNat, t, f) ∈ reasons → R s →
      (f = "replay detected for counter %d" → ∃ session n s', s = next (.base (.check session n)) false s' ∧ a = .num n.toNat) →
      Along next ok post (failWithL f a c t) s)
    (hunknown : ∀ s, R s →
      Along next ok post (refuse codeUnknownClient "could not find a shared secret matching the given ID") s)
    (hrespond : ∀ a bs s, bs.head? = some 0x80#8 → R s → Along next ok post (respondWithL a bs) s) {s : σ} (hs : R s) :
    Along next ok post (handleL M host common) s := by
  have hop : ∀ (o : SOp), o.noWrite → ∀ s (k : o.Ret C → LProg C (Option Err)), R s →
      (∀ r s, R s → Along next ok post (k r) s) → Along next ok post (.op (S := LSig C) (.base o) k) s :=
    fun o ho s k hs hk => ⟨(hR o ho s hs).1, fun r => hk r _ ((hR o ho s hs).2 r)⟩
  have hbind : ∀ {α : Type} (p : SProg C α) (f : α → LProg C (Option Err)) s, Uses (S := SSig C) SOp.noWrite p → R s →
      (∀ a s, R s → Along next ok post (f a) s) → Along next ok post ((emb p).bind f) s :=
    fun p f s hp hs hf => (Along.emb_keeps hp hR hs).bind hf
  unfold handleL
  split
  · exact hrespond _ _ _ rfl hs
  split
  · unfold setupHandlerL
    refine hbind _ _ _ (noWrite_onConn _) hs fun parsed s hs => ?_
    cases parsed with
    | error e => exact hfail _ _ _ _ _ (by decide +kernel) hs (fun h => absurd h (by decide +kernel))
    | ok request =>
    refine hop _ (by trivial) _ _ hs fun g s hs => ?_
    cases g with
    | error e => exact hfail _ _ _ _ _ (by decide +kernel) hs (fun h => absurd h (by decide +kernel))
    | ok k =>
    dsimp only
    cases C.ecdh k request.publicKey with
    | error e => exact hfail _ _ _ _ _ (by decide +kernel) hs (fun h => absurd h (by decide +kernel))
    | ok sh =>
    cases host with
    | error e => exact hfail _ _ _ _ _ (by decide +kernel) hs (fun h => absurd h (by decide +kernel))
    | ok host =>
    refine hop _ (by trivial) _ _ hs fun r s hs => ?_
    refine hbind _ _ _ ((hM.store _ _).mono isTable_noWrite) hs fun stored s hs => ?_
    cases stored with
    | error e => exact hfail _ _ _ _ _ (by decide +kernel) hs (fun h => absurd h (by decide +kernel))
    | ok u =>
    refine hop _ (by trivial) _ _ hs fun sg s hs => ?_
    cases sg with
    | error e => exact hfail _ _ _ _ _ (by decide +kernel) hs (fun h => absurd h (by decide +kernel))
    | ok sg =>
    exact hbind _ _ _ (noWrite_ofRes _) hs fun ht s hs => hrespond _ _ _ (head_setupResponse ..) hs
  split
  · unfold processHandlerL
    refine hbind _ _ _ (noWrite_onConn _) hs fun parsed s hs => ?_
    cases parsed with
    | error e => exact hfail _ _ _ _ _ (by decide +kernel) hs (fun h => absurd h (by decide +kernel))
    | ok request =>
    cases host with
    | error e => exact hfail _ _ _ _ _ (by decide +kernel) hs (fun h => absurd h (by decide +kernel))
    | ok host =>
    refine hbind _ _ _ ((hM.load _).mono isTable_noWrite) hs fun loaded s hs => ?_
    cases loaded with
    | none => exact hunknown _ hs
    | some session =>
    refine ⟨(hR (.check session request.counter) (by trivial) s hs).1, fun fresh => ?_⟩
    have hs' := (hR (.check session request.counter) (by trivial) s hs).2 fresh
    generalize s = s₀ at hs'
    dsimp only
    split
    · have hs := hs'
      refine hop _ (by trivial) _ _ hs fun secret s hs => ?_
      cases deriveKey C secret kdfInfo aesKeySize with
      | error e => exact hfail _ _ _ _ _ (by decide +kernel) hs (fun h => absurd h (by decide +kernel))
      | ok k =>
      dsimp only
      cases aesNewCipher k with
      | error e => exact hfail _ _ _ _ _ (by decide +kernel) hs (fun h => absurd h (by decide +kernel))
      | ok b =>
      dsimp only
      cases cipherNewGCM b with
      | error e => exact hfail _ _ _ _ _ (by decide +kernel) hs (fun h => absurd h (by decide +kernel))
      | ok gcm =>
      refine hbind _ _ _ (noWrite_ofRes _) hs fun n s hs => ?_
      cases C.aeadOpen gcm n request.message with
      | none => exact hfail _ _ _ _ _ (by decide +kernel) hs (fun h => absurd h (by decide +kernel))
      | some m =>
      refine hop _ (by trivial) _ _ hs fun h s hs => ?_
      cases h with
      | panic m => trivial
      | error e => exact hfail _ _ _ _ _ (by decide +kernel) hs (fun h => absurd h (by decide +kernel))
      | reply bs =>
        dsimp only
        split
        · refine hbind _ _ _ (noWrite_ofRes _) hs fun n s hs => ?_
          exact hop _ (by trivial) _ _ hs fun sealed s hs => hrespond _ _ _ (head_processResponse ..) hs
        · exact hnone _ hs
    · rename_i h
      refine hfail _ _ _ _ _ (by decide +kernel) hs' fun _ => ⟨session, request.counter, s₀, ?_, rfl⟩
      have hf : (fresh : Bool) = false := Bool.eq_false_iff.2 h
      exact congrArg (next (.base (.check session request.counter)) · s₀) hf
  split
  · refine hop _ (by trivial) _ _ hs fun f s hs => ?_
    cases f with
    | error e => exact hfail _ _ _ _ _ (by decide +kernel) hs (fun h => absurd h (by decide +kernel))
    | ok kp =>
    obtain ⟨a, p⟩ := kp
    dsimp only
    cases C.marshalPKIX p with
    | error e => exact hfail _ _ _ _ _ (by decide +kernel) hs (fun h => absurd h (by decide +kernel))
    | ok raw => exact hrespond _ _ _ (head_fetchKeyResponse ..) hs
  · exact hnone _ hs

end

end Goe2ee
