import Verif.Spec.LogView
import Verif.Proofs.ClientCalls
import Verif.Props.Handshake

/-!
# C170: the log tells no secrets
-/

set_option autoImplicit false

namespace Goe2ee

section
variable {C : Crypto}

/-! ## Programs that log the same -/

/-- The next effect besides lines of the log. -/
inductive Starts {α : Type} : LProg C α → SOp → Prop where
  | base (o : SOp) (k : o.Ret C → LProg C α) : Starts (.op (.base o) k) o
  | log (format : String) (args : List LogArg) (k : Unit → LProg C α) {o : SOp} : Starts (k ()) o →
    Starts (.op (.log format args) k) o

/-- Two programs that write the same lines as long as the views of what they do are the same. -/
inductive SameLog {α : Type} (R : α → α → Prop) : LProg C α → LProg C α → Prop where
  | ret {a a' : α} : R a a' → SameLog R (.ret a) (.ret a')
  | panic (m : String) : SameLog R (.panic m) (.panic m)
  | log (format : String) (args : List LogArg) {k k' : Unit → LProg C α} : SameLog R (k ()) (k' ()) →
    SameLog R (.op (.log format args) k) (.op (.log format args) k')
  | logIf (format : String) {k k' : Unit → LProg C α} : SameLog R (k ()) (k' ()) →
    SameLog R (.op (.logIfFailed format) k) (.op (.logIfFailed format) k')
  | base {o o' : SOp} {k : o.Ret C → LProg C α} {k' : o'.Ret C → LProg C α} :
    (∀ r r', logView o r = logView o' r' → SameLog R (k r) (k' r')) →
    SameLog R (.op (.base o) k) (.op (.base o') k')
  | apart {p p' : LProg C α} {o o' : SOp} : Starts p o → Starts p' o' →
    (∀ (r : o.Ret C) (r' : o'.Ret C), logView o r ≠ logView o' r') → SameLog R p p'

theorem Starts.bind {α β : Type} {p : LProg C α} {o : SOp} (h : Starts p o) (f : α → LProg C β) :
    Starts (p.bind f) o := by
  induction h with
  | base o k => exact .base _ _
  | log format args k _ ih => exact .log _ _ _ ih

theorem SameLog.bind {α β : Type} {R : α → α → Prop} {Q : β → β → Prop} {p p' : LProg C α} {f f' : α → LProg C β}
    (h : SameLog R p p') (hf : ∀ a a', R a a' → SameLog Q (f a) (f' a')) : SameLog Q (p.bind f) (p'.bind f') := by
  induction h with
  | ret h => exact hf _ _ h
  | panic m => exact .panic m
  | log format args _ ih => exact .log _ _ ih
  | logIf format _ ih => exact .logIf _ ih
  | base _ ih => exact .base fun r r' hr => ih r r' hr
  | apart h1 h2 h3 => exact .apart (h1.bind f) (h2.bind f') h3

theorem Starts.views {α σ : Type} {p : LProg C α} {o : SOp} (h : Starts p o) (I : Interp (LSig C) σ) (s : σ) :
    ∃ r rest, logViews (p.trace I s) = logView (C := C) o r :: rest := by
  induction h generalizing s with
  | base o k => exact ⟨_, _, rfl⟩
  | log format args k _ ih => exact ih _

theorem SameLog.lines {α σ σ' : Type} {R : α → α → Prop} {p p' : LProg C α} (h : SameLog R p p') (I : Interp (LSig C) σ)
    (s : σ) (I' : Interp (LSig C) σ') (s' : σ') (hv : logViews (p.trace I s) = logViews (p'.trace I' s')) :
    logLines (p.trace I s) = logLines (p'.trace I' s') := by
  induction h generalizing s s' with
  | ret h => rfl
  | panic m => rfl
  | log format args _ ih => exact congrArg ((format, args) :: ·) (ih _ _ hv)
  | logIf format _ ih => exact ih _ _ hv
  | @base o o' k k' _ ih =>
    have hv : logView o (I (.base o) s).1 :: logViews ((k (I (.base o) s).1).trace I (I (.base o) s).2) =
      logView o' (I' (.base o') s').1 :: logViews ((k' (I' (.base o') s').1).trace I' (I' (.base o') s').2) := hv
    exact ih _ _ (List.cons.inj hv).1 _ _ (List.cons.inj hv).2
  | apart h1 h2 h3 =>
    obtain ⟨r, rest, e⟩ := h1.views I s
    obtain ⟨r', rest', e'⟩ := h2.views I' s'
    rw [e, e'] at hv
    exact absurd (List.cons.inj hv).1 (h3 r r')

/-! ## The server's programs -/

theorem sameLog_onConn {α : Type} (p : RProg α) : SameLog Eq (emb (onConn p) : LProg C α) (emb (onConn p)) := by
  induction p with
  | ret a => exact .ret rfl
  | panic m => exact .panic m
  | op o k ih =>
    refine .base (o := .read o) (o' := .read o) fun r r' h => ?_
    cases h
    exact ih r

theorem sameLog_ofRes {α : Type} (r : Res α) : SameLog Eq (emb (ofRes r) : LProg C α) (emb (ofRes r)) := by
  cases r with
  | val a => exact .ret rfl
  | panic m => exact .panic m

theorem sameLog_writeError (bs : Bytes) : SameLog Eq (writeErrorResponseL bs : LProg C Bool) (writeErrorResponseL bs) := by
  refine .base (o := .write bs) (o' := .write bs) fun r r' h => ?_
  injection h with _ h
  subst h
  rcases r with ⟨n, _ | e⟩
  · dsimp only
    split
    · exact .log _ _ (.ret rfl)
    · exact .ret rfl
  · dsimp only
    split
    · exact .ret rfl
    · exact .log _ _ (.ret rfl)

theorem sameLog_refuse (code : ErrorCode) (text : String) :
    SameLog Eq (refuse code text : LProg C (Option Err)) (refuse code text) :=
  (sameLog_writeError _).bind fun ok _ h => by subst h; cases ok <;> exact .ret rfl

theorem sameLog_fail (format : String) (arg : LogArg) (code : ErrorCode) (text : String) :
    SameLog Eq (failWithL format arg code text : LProg C (Option Err)) (failWithL format arg code text) :=
  .log _ _ (sameLog_refuse _ _)

theorem starts_fail (format : String) (arg : LogArg) (code : ErrorCode) (text : String) :
    Starts (failWithL format arg code text : LProg C (Option Err)) (.write (errorBytes code text)) :=
  .log _ _ _ (.base _ _)

theorem sameLog_respond (action : Byte) (bs bs' : Bytes) :
    SameLog Eq (respondWithL action bs : LProg C (Option Err)) (respondWithL action bs') := by
  refine SameLog.bind (R := Eq) ?_ fun ok _ h => by subst h; cases ok <;> exact .ret rfl
  refine .base (o := .write bs) (o' := .write bs') fun r r' h => ?_
  injection h with hl h
  subst h
  rcases r with ⟨n, _ | e⟩
  · dsimp only
    rw [hl]
    split
    · exact .log _ _ (.ret rfl)
    · exact .ret rfl
  · dsimp only
    split
    · exact .ret rfl
    · refine .log _ _ ?_
      split
      · exact .ret rfl
      · exact sameLog_writeError _

/-- The error of a failing Diffie–Hellman does not depend on the private key. -/
def EcdhErrors (C : Crypto) : Prop := ∀ key key' pub e e', C.ecdh key pub = .error e → C.ecdh key' pub = .error e' → e = e'

theorem sameLog_setup (he : EcdhErrors C) (host : Except Err Bytes) (common : RequestCommon) :
    SameLog Eq (setupHandlerL (inMemory C) host common) (setupHandlerL (inMemory C) host common) := by
  refine (sameLog_onConn _).bind fun parsed _ h => ?_
  subst h
  rcases parsed with _ | request
  · exact sameLog_fail _ _ _ _
  refine .base (o := .genKey) (o' := .genKey) ?_
  rintro (e | key) (e' | key') h
  · have h : LogView.keyGenerated (some e) = .keyGenerated (some e') := h
    cases h
    exact sameLog_fail _ _ _ _
  · exact absurd h (by simp [logView, failure])
  · exact absurd h (by simp [logView, failure])
  clear h
  dsimp only
  cases h1 : C.ecdh key request.publicKey with
  | error e =>
    cases h2 : C.ecdh key' request.publicKey with
    | error e' =>
      cases he _ _ _ _ _ h1 h2
      exact sameLog_fail _ _ _ _
    | ok secret' =>
      cases host with
      | error x =>
        refine .apart (starts_fail _ _ _ _) (starts_fail _ _ _ _) ?_
        intro r r' h
        injection h with h
        exact absurd h (by decide +kernel)
      | ok host => exact .apart (starts_fail _ _ _ _) (.base _ _) fun r r' h => nomatch h
  | ok secret =>
    cases h2 : C.ecdh key' request.publicKey with
    | error e' =>
      cases host with
      | error x =>
        refine .apart (starts_fail _ _ _ _) (starts_fail _ _ _ _) ?_
        intro r r' h
        injection h with h
        exact absurd h (by decide +kernel)
      | ok host => exact .apart (.base _ _) (starts_fail _ _ _ _) fun r r' h => nomatch h
    | ok secret' =>
      cases host with
      | error x => exact sameLog_fail _ _ _ _
      | ok host =>
        refine .base fun session session' _ => ?_
        refine .base (o := .now) (o' := .now) fun t t' _ => ?_
        refine .base fun _ _ _ => ?_
        refine .base ?_
        rintro (e | signature) (e' | signature') h
        · have h : LogView.signed (some e) = .signed (some e') := h
          cases h
          exact sameLog_fail _ _ _ _
        · exact absurd h (by simp [logView, failure])
        · exact absurd h (by simp [logView, failure])
        · exact (sameLog_ofRes _).bind fun _ _ h => by subst h; exact sameLog_respond _ _ _

theorem sameLog_run (session session' : Ref) (host : Bytes) (common : RequestCommon) (request : ProcessRequest)
    (gcm gcm' message message' : Bytes) :
    SameLog Eq (runHandlerL session host common request gcm message : LProg C (Option Err))
      (runHandlerL session' host common request gcm' message') := by
  refine .base ?_
  rintro r r' h
  cases r with
  | panic m =>
    cases r' with
    | panic m' => cases h; exact .panic m
    | _ => cases h
  | error e =>
    cases r' with
    | error e' => cases h; exact sameLog_fail _ _ _ _
    | _ => cases h
  | reply text =>
    cases r' with
    | reply text' =>
      dsimp only
      split
      · exact (sameLog_ofRes _).bind fun _ _ h => by subst h; exact .base fun _ _ _ => sameLog_respond _ _ _
      · exact .ret rfl
    | _ => cases h

theorem sameLog_process (hC : C.Lawful) (host : Except Err Bytes) (common : RequestCommon) :
    SameLog Eq (processHandlerL (inMemory C) host common) (processHandlerL (inMemory C) host common) := by
  refine (sameLog_onConn _).bind fun parsed _ h => ?_
  subst h
  rcases parsed with _ | request
  · exact sameLog_fail _ _ _ _
  cases host with
  | error e => exact sameLog_fail _ _ _ _
  | ok host =>
  refine SameLog.bind (R := fun a a' : Option Ref => a.isSome = a'.isSome) ?_ fun loaded loaded' h => ?_
  · refine .base (o := .mapLoad _) (o' := .mapLoad _) ?_
    rintro (_ | ⟨session, t⟩) (_ | ⟨session', t'⟩) h
    · exact .ret rfl
    · cases h
    · cases h
    · exact .base fun _ _ _ => .base fun _ _ _ => .ret rfl
  rcases loaded with _ | session <;> rcases loaded' with _ | session'
  · exact sameLog_refuse _ _
  · cases h
  · cases h
  refine .base (o := .check _ _) (o' := .check _ _) fun fresh fresh' h => ?_
  injection h with h
  subst h
  split
  case isFalse => exact sameLog_fail _ _ _ _
  refine .base fun (secret secret' : Bytes) _ => ?_
  obtain ⟨key, h1, -, h3, h4⟩ := C55_aead_key C hC secret
  obtain ⟨key', h1', -, h3', h4'⟩ := C55_aead_key C hC secret'
  simp only [h1, h3, h4, h1', h3', h4']
  refine (sameLog_ofRes _).bind fun nonce _ h => ?_
  subst h
  cases C.aeadOpen key nonce request.message with
  | none =>
    cases C.aeadOpen key' nonce request.message with
    | none => exact sameLog_fail _ _ _ _
    | some message' =>
      refine .apart (starts_fail _ _ _ _) (.base _ _) fun r r' h => ?_
      rcases r' with _ | _ | _ <;> cases h
  | some message =>
    cases C.aeadOpen key' nonce request.message with
    | none =>
      refine .apart (.base _ _) (starts_fail _ _ _ _) fun r r' h => ?_
      rcases r with _ | _ | _ <;> cases h
    | some message' => exact sameLog_run _ _ _ _ _ _ _ _ _

theorem sameLog_fetchKey (common : RequestCommon) :
    SameLog Eq (fetchKeyHandlerL common : LProg C (Option Err)) (fetchKeyHandlerL common) := by
  refine .base (o := .fetchKey) (o' := .fetchKey) fun r r' h => ?_
  injection h with h
  subst h
  rcases r with _ | ⟨algorithm, key⟩
  · exact sameLog_fail _ _ _ _
  · dsimp only
    split
    · exact sameLog_fail _ _ _ _
    · exact sameLog_respond _ _ _

theorem sameLog_serve (hC : C.Lawful) (he : EcdhErrors C) (host : Except Err Bytes) (closed : Err) (addr : LogArg) :
    SameLog Eq (serveRequestL (inMemory C) host closed addr) (serveRequestL (inMemory C) host closed addr) := by
  refine (sameLog_onConn _).bind fun parsed _ h => ?_
  subst h
  rcases parsed with _ | common
  · dsimp only
    split <;> exact .log _ _ (.ret rfl)
  dsimp only
  split
  · exact .log _ _ (.ret rfl)
  refine SameLog.bind (R := Eq) ?_ fun e _ h => ?_
  · unfold handleL
    split
    · exact sameLog_respond _ _ _
    split
    · exact sameLog_setup he _ _
    split
    · exact sameLog_process hC _ _
    split
    · exact sameLog_fetchKey _
    · exact .ret rfl
  · subst h
    rcases e with _ | e
    · exact .ret rfl
    · dsimp only
      split <;> exact .log _ _ (.ret rfl)

theorem sameLog_recovered {α : Type} {R : α → α → Prop} (panicked : Option String) {p p' : LProg C α}
    (h : SameLog R p p') : SameLog R (logRecovered panicked p) (logRecovered panicked p') := by
  cases panicked with
  | none => exact h
  | some m => exact .log _ _ h

/-- The parts of the server's goroutines: one pass of the loops that accept connections and receive datagrams, one request of
a connection, a datagram, and the deferred functions of both after a panic or without. -/
inductive ServerPart (C : Crypto) : LProg C Bool → Prop where
  | request (host : Except Err Bytes) : ServerPart C (connPassL (inMemory C) host)
  | datagram (host : Except Err Bytes) : ServerPart C (packetBodyL (inMemory C) host)
  | connectionEnds (panicked : Option String) : ServerPart C (connDeferredL panicked)
  | datagramEnds (panicked : Option String) : ServerPart C (packetDeferredL panicked)
  | accepts : ServerPart C acceptPassL
  | receives : ServerPart C packetPassL

theorem sameLog_part (hC : C.Lawful) (he : EcdhErrors C) {p : LProg C Bool} (h : ServerPart C p) : SameLog Eq p p := by
  cases h with
  | request host =>
    refine .base (o := .quitClosed) (o' := .quitClosed) fun r r' h => ?_
    injection h with h
    subst h
    dsimp only
    split
    · exact .ret rfl
    · exact .base fun _ _ _ => .logIf _ (.logIf _ (sameLog_serve hC he _ _ _))
  | datagram host =>
    exact .base fun _ _ _ => .logIf _ ((sameLog_serve hC he _ _ _).bind fun _ _ _ => .ret rfl)
  | connectionEnds panicked =>
    exact sameLog_recovered _ (.base fun _ _ _ => .logIf _ (.base fun _ _ _ => .ret rfl))
  | datagramEnds panicked => exact .base fun _ _ _ => .logIf _ (sameLog_recovered _ (.ret rfl))
  | accepts =>
    refine .base (o := .quitClosed) (o' := .quitClosed) fun r r' h => ?_
    injection h with h
    subst h
    dsimp only
    split
    · exact .ret rfl
    refine .base (o := .accept) (o' := .accept) ?_
    rintro (e | peer) (e' | peer') h
    · have h : LogView.accepted (some e) = .accepted (some e') := h
      cases h
      exact .log _ _ (.ret rfl)
    · cases h
    · cases h
    · exact .base fun _ _ _ => .base fun _ _ _ => .ret rfl
  | receives =>
    refine .base (o := .quitClosed) (o' := .quitClosed) fun r r' h => ?_
    injection h with h
    subst h
    dsimp only
    split
    · exact .ret rfl
    refine .logIf _ (.base (o := .receive) (o' := .receive) ?_)
    rintro (e | peer) (e' | peer') h
    · have h : LogView.accepted (some e) = .accepted (some e') := h
      cases h
      exact .log _ _ (.ret rfl)
    · cases h
    · cases h
    · exact .base fun _ _ _ => .ret rfl

/-- **C170.**  Whatever a part of the server does in two environments, if the views of both are the same, so are the lines
of the log. -/
theorem C170_log {σ σ' : Type} (hC : C.Lawful) (he : EcdhErrors C) {p : LProg C Bool} (hp : ServerPart C p)
    (I : Interp (LSig C) σ) (s : σ) (I' : Interp (LSig C) σ') (s' : σ')
    (h : logViews (p.trace I s) = logViews (p.trace I' s')) : logLines (p.trace I s) = logLines (p.trace I' s') :=
  (sameLog_part hC he hp).lines I s I' s' h

end

/-! ## Examples -/

example : EcdhErrors Toy.crypto := by
  intro key key' pub e e' h h'
  have h : Toy.ecdh' key pub = .error e := h
  have h' : Toy.ecdh' key' pub = .error e' := h'
  unfold Toy.ecdh' at h h'
  split at h <;> cases h
  split at h' <;> cases h'
  rfl

namespace LogViewExample

/-- The lines about the first message of a client, when the application returns `res` and the reply cannot be sent. -/
def lines (res : HRes) : List Line :=
  let ans : Nat → Answer Toy.crypto := fun n => { SessionExample.env n with handle := res, write := (1000, some (.other "broken")) }
  logLines ((connPassL (inMemory Toy.crypto) (.ok (str "10.0.0.1"))).trace (withLog (seqI Toy.crypto 5000 ans))
    (SessionExample.start SessionExample.world OnceExample.message))

/-- Two replies of the same length: the same lines. -/
example : lines (.reply (str "attack")) = lines (.reply (str "retire")) ∧
    lines (.reply (str "attack")) = [("failed to send %s action response: %v", [.action 3, .err (.other "broken")]),
      ("failed to send error response: %v", [.err (.other "broken")]), closedByClient] := by decide +kernel

/-- The error of the application is in the log. -/
example : lines (.error (.other "attack")) ≠ lines (.error (.other "retire")) ∧
    lines (.error (.other "attack")) = [("failed to handle message: %v", [.err (.other "attack")]),
      ("failed to send error response: %v", [.err (.other "broken")]), closedByClient] := by decide +kernel

/-- The lines about a setup, with a private key of the server and a signature. -/
def setupLines (key : BitVec 256) (signature : Bytes) : List Line :=
  let ans : Nat → Answer Toy.crypto := fun n => { SessionExample.env n with
    genKey := .ok key, sign := fun _ _ => .ok signature, write := (1, none) }
  logLines ((connPassL (inMemory Toy.crypto) (.ok (str "10.0.0.1"))).trace (withLog (seqI Toy.crypto 5000 ans))
    (SessionExample.start SessionExample.world OnceExample.setup))

/-- Another key and another signature: the same lines; a longer signature shows by the length of the response. -/
example : setupLines 9 [1, 2, 3] = setupLines 11 [4, 5, 6] ∧ setupLines 9 [1, 2, 3] ≠ [] ∧
    setupLines 9 [1, 2, 3] ≠ setupLines 9 [1, 2, 3, 4] := by decide +kernel

end LogViewExample

end Goe2ee
