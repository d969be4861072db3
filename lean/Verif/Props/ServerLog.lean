import Verif.Proofs.ServerLog
import Verif.Props.Serve

/-!
# C156, C157: what the server's log says

The programs of `Verif.Model.ServerLog` are those of `Verif.Model.Server` with lines for the log (`C157_same_…`).  The theorems
hold for one round of a connection's loop with whatever results of its effects, hence also among other goroutines.
-/

set_option autoImplicit false

namespace Goe2ee

section
variable {C : Crypto}

/-! ## The programs without the lines -/

/-- **C157**, the model: without the lines, a round of the loop for a TCP connection is that of `Verif.Model.Server`. -/
theorem C157_same_conn (M : Manager C) (host : Except Err Bytes) : (connPassL M host).unlogged = connPass M host := by
  refine congrArg (Prog.op (S := SSig C) .quitClosed) (funext fun closed => ?_)
  dsimp only
  split
  · rfl
  · exact congrArg (Prog.op (S := SSig C) .setDeadlines) (funext fun _ => unlogged_serveRequest ..)

/-- **C157**, the model: the same for datagrams. -/
theorem C157_same_packet (M : Manager C) (host : Except Err Bytes) : (packetBodyL M host).unlogged = packetBody M host := by
  refine congrArg (Prog.op (S := SSig C) .setDeadlines) (funext fun _ => ?_)
  show Prog.unlogged (Prog.bind _ _) = _
  rw [unlogged_bind, unlogged_serveRequest]
  rfl

/-- **C157**, the model: the same for the loops that accept connections and datagrams, and for the deferred functions. -/
theorem C157_same_loops (panicked : Option String) :
    (acceptPassL (C := C)).unlogged = acceptPass ∧ (packetPassL (C := C)).unlogged = packetPass ∧
    (connDeferredL (C := C) panicked).unlogged = connDeferred ∧
    (packetDeferredL (C := C) panicked).unlogged = packetDeferred := by
  refine ⟨?_, ?_, ?_, ?_⟩
  · refine congrArg (Prog.op (S := SSig C) .quitClosed) (funext fun closed => ?_)
    dsimp only
    split
    · rfl
    · refine congrArg (Prog.op (S := SSig C) .accept) (funext fun p => ?_)
      cases p <;> rfl
  · refine congrArg (Prog.op (S := SSig C) .quitClosed) (funext fun closed => ?_)
    dsimp only
    split
    · rfl
    · refine congrArg (Prog.op (S := SSig C) .receive) (funext fun p => ?_)
      cases p <;> rfl
  · cases panicked <;> rfl
  · cases panicked <;> rfl

/-! ## C156 -/

/-- An effect that shows that the client has closed the connection, or that the connection is broken: a read found the end, or
a write failed for another reason than the server's own deadline. -/
def endedByClient : (o : LOp) × o.Ret C → Bool
  | ⟨.base (.read (.copyLimit _)), r⟩ =>
    (r : Bytes × Option Err).1.isEmpty && ((r : Bytes × Option Err).2 == none || (r : Bytes × Option Err).2 == some .eof)
  | ⟨.base (.read (.readFull _)), r⟩ =>
    match (r : Except Err Bytes) with
    | .error e => e == .eof || e == .unexpectedEOF
    | .ok _ => false
  | ⟨.base (.write _), r⟩ =>
    match (r : Nat × Option Err) with
    | (_, some e) => !e.isDeadline
    | (_, none) => false
  | _ => false

/-- **C156**: if the log says that a client closed its connection, then it did, or the connection broke. -/
def C156_claim : Prop :=
  ∀ (C : Crypto) (M : Manager C) (host : Except Err Bytes) (τ : Type) (I : Interp (LSig C) τ) (t : τ), M.Passive →
    closedByClient ∈ logLines ((connPassL M host).trace I t) → ∃ e ∈ (connPassL M host).trace I t, endedByClient e = true

/-- **C156** is false of the code: when the server's own write deadline has passed, nothing says so, and the log blames the
client.  Here a client that is still there says hello six seconds after it connected (compare C57). -/
theorem C156_refuted : ¬ C156_claim := by
  intro h
  have := h Toy.crypto (inMemory _) (.ok []) Seq
    (withLog (seqI Toy.crypto defaultWriteTimeout fun _ => { ServeExample.answer with tick := 6000000000 }))
    (ServeExample.start Wire.helloRequest) (inMemory_passive _) (by decide +kernel)
  revert this
  decide +kernel

/-- A write that did not take everything. -/
def WriteFailed (e : (o : LOp) × o.Ret C) : Prop :=
  match e with
  | ⟨.base (.write bs), r⟩ => (r : Nat × Option Err).2 ≠ none ∨ (r : Nat × Option Err).1 ≠ bs.length
  | _ => False

open Classical in
/-- Was there an effect such that `P`? -/
noncomputable def seenNext (P : (o : LOp) × o.Ret C → Prop) (o : LOp) (r : o.Ret C) (s : Bool) : Bool := s || decide (P ⟨o, r⟩)

theorem after_seen {P : (o : LOp) × o.Ret C → Prop} {tr : LTrace C} {s : Bool}
    (h : stateAfter (S := LSig C) (seenNext P) s tr = true) : s = true ∨ ∃ e ∈ tr, P e := by
  induction tr generalizing s with
  | nil => exact .inl h
  | cons e tr ih =>
    rcases ih (s := seenNext P e.1 e.2 s) h with h' | ⟨e', he', hP⟩
    · simp only [seenNext, Bool.or_eq_true, decide_eq_true_eq] at h'
      exact h'.imp id fun h => ⟨e, List.mem_cons_self .., h⟩
    · exact .inr ⟨e', List.mem_cons_of_mem _ he', hP⟩

theorem split_logLines {tr : LTrace C} {l : Line} (h : l ∈ logLines tr) :
    ∃ pre suf, tr = pre ++ ⟨.log l.1 l.2, ()⟩ :: suf := by
  induction tr with
  | nil => cases h
  | cons e tr ih =>
    obtain ⟨o, r⟩ := e
    cases o with
    | log f a =>
      rcases List.mem_cons.1 h with rfl | h
      · exact ⟨[], tr, rfl⟩
      · obtain ⟨pre, suf, rfl⟩ := ih h
        exact ⟨_ :: pre, suf, rfl⟩
    | base o =>
      obtain ⟨pre, suf, rfl⟩ := ih h
      exact ⟨_ :: pre, suf, rfl⟩
    | logIfFailed f =>
      obtain ⟨pre, suf, rfl⟩ := ih h
      exact ⟨_ :: pre, suf, rfl⟩

/-- The line is only written after such an effect. -/
def closedOk (o : LOp) (s : Bool) : Prop :=
  match o with
  | .log f _ => f = closedByClient.1 → s = true
  | _ => True

section
variable {P : (o : LOp) × o.Ret C → Prop}

theorem seen_of {o : LOp} {r : o.Ret C} {s : Bool} (h : P ⟨o, r⟩) : seenNext P o r s = true := by simp [seenNext, h]
theorem seen_mono {o : LOp} {r : o.Ret C} {s : Bool} (h : s = true) : seenNext P o r s = true := by simp [seenNext, h]

theorem closed_writeError (hP : ∀ e, WriteFailed e → P e) (bs : Bytes) (s : Bool) :
    Along (S := LSig C) (seenNext P) closedOk (fun ok s => ok = false → s = true) (writeErrorResponseL bs) s := by
  refine ⟨trivial, fun r => ?_⟩
  rcases r with ⟨n, _ | e⟩
  · dsimp only
    split
    · rename_i h
      exact ⟨fun h => absurd h (by decide +kernel), fun _ _ => seen_mono (seen_of (hP _ (.inr h)))⟩
    · exact fun h => by cases h
  · dsimp only
    split
    · exact fun _ => seen_of (hP _ (.inl (by simp)))
    · exact ⟨fun h => absurd h (by decide +kernel), fun _ _ => seen_mono (seen_of (hP _ (.inl (by simp))))⟩

theorem closed_refuse (hP : ∀ e, WriteFailed e → P e) (c : ErrorCode) (t : String) (s : Bool) :
    Along (S := LSig C) (seenNext P) closedOk (fun e s => e ≠ none → s = true) (refuse c t) s := by
  refine (closed_writeError hP _ s).bind fun ok s h => ?_
  cases ok
  · exact fun _ => h rfl
  · exact fun h => absurd rfl h

theorem closed_respond (hP : ∀ e, WriteFailed e → P e) (a : Byte) (bs : Bytes) (s : Bool) :
    Along (S := LSig C) (seenNext P) closedOk (fun e s => e ≠ none → s = true) (respondWithL a bs) s := by
  have : Along (S := LSig C) (seenNext P) closedOk (fun ok s => ok = false → s = true) (writeResponseL a bs) s := by
    refine ⟨trivial, fun r => ?_⟩
    rcases r with ⟨n, _ | e⟩
    · dsimp only
      split
      · rename_i h
        exact ⟨fun h => absurd h (by decide +kernel), fun _ _ => seen_mono (seen_of (hP _ (.inr h)))⟩
      · exact fun h => by cases h
    · dsimp only
      split
      · exact fun _ => seen_of (hP _ (.inl (by simp)))
      · refine ⟨fun h => absurd h (by decide +kernel), fun _ => ?_⟩
        dsimp only
        split
        · exact fun _ => seen_mono (seen_of (hP _ (.inl (by simp))))
        · exact closed_writeError hP _ _
  refine this.bind fun ok s h => ?_
  cases ok
  · exact fun _ => h rfl
  · exact fun h => absurd rfl h

theorem closed_handle {M : Manager C} (hM : M.Passive) (hP : ∀ e, WriteFailed e → P e) (host : Except Err Bytes)
    (common : RequestCommon) (s : Bool) :
    Along (S := LSig C) (seenNext P) closedOk (fun e s => e ≠ none → s = true) (handleL M host common) s := by
  refine along_handle hM host common (R := fun _ => True) (fun o _ s _ => ⟨trivial, fun _ => trivial⟩)
    (fun _ _ h => absurd rfl h) ?_ (fun s _ => closed_refuse hP _ _ s) (fun a bs s _ _ => closed_respond hP a bs s) trivial
  intro f a c t s hmem _ _
  refine ⟨fun h => ?_, fun _ => closed_refuse hP _ _ _⟩
  have : ∀ x ∈ reasons, x.2.2 ≠ closedByClient.1 := by decide +kernel
  exact absurd h (this _ hmem)

/-- `connection closed by client` is written at the end of a read, or after a write failed. -/
theorem closed_serve {M : Manager C} (hM : M.Passive) (hP : ∀ e, WriteFailed e → P e) (host : Except Err Bytes)
    {closed : Err} (addr : LogArg)
    (hclosed : closed = .eof ∨ closed = .unexpectedEOF ∧
      ∀ r : Bytes × Option Err, r = ([], none) ∨ r = ([], some .eof) → P ⟨.base (.read (.copyLimit 1)), r⟩) (s : Bool) :
    Along (S := LSig C) (seenNext P) closedOk (fun _ _ => True) (serveRequestL M host closed addr) s := by
  have hgo : ∀ (b : Byte) s, Along (S := LSig C) (seenNext P) closedOk (fun _ _ => True)
      (if ((b &&& 0xF0#8) >>> 4) ≠ version1 then
        .op (.log "unsupported version: %d" [.num ((b &&& 0xF0#8) >>> 4).toNat]) fun _ => .ret false
      else
        (handleL M host { version := (b &&& 0xF0#8) >>> 4, action := b &&& 0x0F#8 }).bind fun err =>
        match err with
        | some err =>
          if err = .eof ∨ err = .shortWrite ∨ err = .unexpectedEOF then
            .op (.log "connection closed by client (%s)" [addr]) fun _ => .ret false
          else .op (.log "failed to handle request: %v" [.err err]) fun _ => .ret false
        | none => .ret true) s := by
    intro b s
    split
    · exact ⟨fun h => absurd h (by decide +kernel), fun _ => trivial⟩
    · refine (closed_handle hM hP host _ s).bind fun e s h => ?_
      cases e with
      | none => trivial
      | some e =>
        dsimp only
        split
        · exact ⟨fun _ => h (by simp), fun _ => trivial⟩
        · exact ⟨fun h => absurd h (by decide +kernel), fun _ => trivial⟩
  have hother : ∀ e s, e ≠ closed → Along (S := LSig C) (seenNext P) closedOk (fun _ _ => True)
      (if e = closed then .op (.log "connection closed by client (%s)" [addr]) fun _ => .ret false
      else .op (.log "failed to parse request common: %v" [.err e]) fun _ => .ret false : LProg C Bool) s := by
    intro e s h
    rw [if_neg h]
    exact ⟨fun h => absurd h (by decide +kernel), fun _ => trivial⟩
  have hend : ∀ (r : Bytes × Option Err) s, r = ([], none) ∨ r = ([], some .eof) →
      Along (S := LSig C) (seenNext P) closedOk (fun _ _ => True)
      (if Err.unexpectedEOF = closed then .op (.log "connection closed by client (%s)" [addr]) fun _ => .ret false
      else .op (.log "failed to parse request common: %v" [.err .unexpectedEOF]) fun _ => .ret false : LProg C Bool)
      (seenNext P (.base (.read (.copyLimit 1))) r s) := by
    intro r s hr
    rcases hclosed with rfl | ⟨rfl, h⟩
    · exact hother _ _ (by decide)
    · rw [if_pos rfl]
      exact ⟨fun _ => seen_of (h r hr), fun _ => trivial⟩
  have hwrap : ∀ m e, Err.wrap m e ≠ closed := by
    rintro m e rfl
    rcases hclosed with h | ⟨h, _⟩ <;> cases h
  have hmsg : ∀ m, Err.other m ≠ closed := by
    rintro m rfl
    rcases hclosed with h | ⟨h, _⟩ <;> cases h
  refine ⟨trivial, fun r => ?_⟩
  rcases r with ⟨bs, _ | e⟩
  · match bs with
    | [] => exact hend _ _ (.inl rfl)
    | [b] => exact hgo b _
    | _ :: _ :: _ => exact hother _ _ (hmsg _)
  · by_cases he : e = .eof
    · subst he
      match bs with
      | [] => exact hend _ _ (.inr rfl)
      | [b] => exact hgo b _
      | _ :: _ :: _ => exact hother _ _ (hmsg _)
    · show Along _ _ _ (Prog.bind (emb (Prog.lift _ (if e ≠ .eof then _ else _))) _) _
      rw [if_pos he]
      exact hother _ _ (hwrap _ _)

end

/-- **C156**, what holds: the log says that the client closed its connection only after the end of the connection was read or
a write did not take everything. -/
theorem C156_after_failure_partial {M : Manager C} (hM : M.Passive) (host : Except Err Bytes) {τ : Type}
    (I : Interp (LSig C) τ) (t : τ) (h : closedByClient ∈ logLines ((connPassL M host).trace I t)) :
    ∃ e ∈ (connPassL M host).trace I t, endedByClient e = true ∨ WriteFailed e := by
  have hal : Along (S := LSig C) (seenNext fun e => endedByClient e = true ∨ WriteFailed e) closedOk (fun _ _ => True)
      (connPassL M host) false := by
    refine ⟨trivial, fun closed => ?_⟩
    dsimp only
    split
    · trivial
    · exact ⟨trivial, fun _ => ⟨trivial, fun _ => ⟨trivial, fun _ => closed_serve hM (fun _ => .inr) host _
        (.inr ⟨rfl, fun r h => .inl (by rcases h with rfl | rfl <;> rfl)⟩) _⟩⟩⟩
  obtain ⟨pre, suf, htr⟩ := split_logLines h
  rcases after_seen (hal.before I t htr rfl) with h | ⟨e, he, hP⟩
  · cases h
  · exact ⟨e, by rw [htr]; exact List.mem_append_left _ he, hP⟩

/-- **C156**, what holds: with a transport that explains every incomplete write, and if no deadline passes, the log is right. -/
theorem C156_no_deadline_partial {M : Manager C} (hM : M.Passive) (host : Except Err Bytes) {τ : Type}
    (I : Interp (LSig C) τ) (t : τ)
    (hI : ∀ bs s, ∀ r : Nat × Option Err, (I (.base (.write bs)) s).1 = r →
      (r.2 = none → r.1 = bs.length) ∧ ∀ e, r.2 = some e → e.isDeadline = false)
    (h : closedByClient ∈ logLines ((connPassL M host).trace I t)) :
    ∃ e ∈ (connPassL M host).trace I t, endedByClient e = true := by
  obtain ⟨e, he, hP | hP⟩ := C156_after_failure_partial hM host I t h
  · exact ⟨e, he, hP⟩
  · refine ⟨e, he, ?_⟩
    obtain ⟨s, hs⟩ : ∃ s, e.2 = (I e.1 s).1 := by
      clear h hP
      generalize connPassL M host = p at he
      induction p generalizing t with
      | ret a => cases he
      | panic m => cases he
      | op o k ih =>
        rcases List.mem_cons.1 he with rfl | he
        · exact ⟨t, rfl⟩
        · exact ih _ _ he
    obtain ⟨o, r⟩ := e
    match o, r, hP, hs with
    | .base (.write bs), r, hP, hs =>
      obtain ⟨h1, h2⟩ := hI bs s r hs.symm
      rcases hP with hP | hP
      · obtain ⟨n, err⟩ := r
        cases err with
        | none => exact absurd rfl hP
        | some err => simp only [endedByClient, h2 _ rfl, Bool.not_false]
      · obtain ⟨n, err⟩ := r
        cases err with
        | none => exact absurd (h1 rfl) hP
        | some err => simp only [endedByClient, h2 _ rfl, Bool.not_false]

/-- **C156**, the other direction: if the client has closed the connection, this is what the log says, once, and the goroutine
ends. -/
theorem C156_close_logged_partial (M : Manager C) (host : Except Err Bytes) (timeout : Nat) (ans : Nat → Answer C) (s : Seq)
    (hquit : s.world.quit = false) (hinput : s.conn.input = []) :
    logLines ((connPassL M host).trace (withLog (seqI C timeout ans)) s) = [closedByClient] ∧
    ((connPassL M host).run (withLog (seqI C timeout ans)) s).1 = .val false := by
  obtain ⟨⟨input⟩, ⟨heap, table, now, quit⟩, pos⟩ := s
  cases hquit
  cases hinput
  exact ⟨rfl, rfl⟩

/-- **C156**, datagrams: nothing there closes a connection, and the log says so only if a response could not be buffered. -/
theorem C156_datagram_partial {M : Manager C} (hM : M.Passive) (host : Except Err Bytes) {τ : Type}
    (I : Interp (LSig C) τ) (t : τ) (args : List LogArg)
    (h : (closedByClient.1, args) ∈ logLines ((packetBodyL M host).trace I t)) :
    ∃ e ∈ (packetBodyL M host).trace I t, WriteFailed e := by
  have hal : Along (S := LSig C) (seenNext WriteFailed) closedOk (fun _ _ => True) (packetBodyL M host) false :=
    ⟨trivial, fun _ => ⟨trivial, fun _ => (closed_serve hM (fun _ => id) host _ (.inl rfl) _).bind fun _ _ _ => trivial⟩⟩
  obtain ⟨pre, suf, htr⟩ := split_logLines h
  rcases after_seen (hal.before I t htr rfl) with h | ⟨e, he, hP⟩
  · cases h
  · exact ⟨e, by rw [htr]; exact List.mem_append_left _ he, hP⟩

/-! ## C157 -/

/-- Every error response comes right after a line with its reason. -/
def Explained (tr : LTrace C) : Prop :=
  ∀ pre suf bs r, tr = pre ++ ⟨.base (.write bs), r⟩ :: suf → bs.head? = some 0x00#8 →
    ∃ before code text format args, pre = before ++ [⟨.log format args, ()⟩] ∧
      bs = Wire.errorResponse code (str text) ∧ (code, text, format) ∈ reasons

/-- Was an error response written? -/
def refused : LTrace C → Bool
  | [] => false
  | ⟨.base (.write bs), _⟩ :: rest => bs.head? == some 0x00#8 || refused rest
  | _ :: rest => refused rest

/-- **C157**: every error response is explained by a line of the log; a request after which the connection goes on and which was
not refused leaves no line; and no request leaves more than three. -/
def C157_claim : Prop :=
  ∀ (C : Crypto) (M : Manager C) (host : Except Err Bytes) (τ : Type) (I : Interp (LSig C) τ) (t : τ), M.Passive →
    Explained ((connPassL M host).trace I t) ∧
    (((connPassL M host).run I t).1 = .val true → refused ((connPassL M host).trace I t) = false →
      logLines ((connPassL M host).trace I t) = []) ∧
    (logLines ((connPassL M host).trace I t)).length ≤ 3

/-- A message of a session that the server does not know. -/
def strayMessage : Bytes := [0x13, 0x80] ++ ServeExample.id.val ++ Wire.be64 1 ++ Wire.be64 0

/-- **C157** is false of the code: the refusal of a message whose session is unknown is not in the log. -/
theorem C157_refuted : ¬ C157_claim := by
  intro h
  have h1 := (h Toy.crypto (inMemory _) (.ok (str "10.0.0.1")) Seq
    (withLog (seqI Toy.crypto 5000 fun _ => ServeExample.answer)) (ServeExample.start strayMessage) (inMemory_passive _)).1
  have h2 : logLines ((connPassL (inMemory Toy.crypto) (.ok (str "10.0.0.1"))).trace
    (withLog (seqI Toy.crypto 5000 fun _ => ServeExample.answer)) (ServeExample.start strayMessage)) = [] := by decide +kernel
  have h3 : refused ((connPassL (inMemory Toy.crypto) (.ok (str "10.0.0.1"))).trace
    (withLog (seqI Toy.crypto 5000 fun _ => ServeExample.answer)) (ServeExample.start strayMessage)) = true := by decide +kernel
  generalize (connPassL (inMemory Toy.crypto) (.ok (str "10.0.0.1"))).trace
    (withLog (seqI Toy.crypto 5000 fun _ => ServeExample.answer)) (ServeExample.start strayMessage) = tr at h1 h2 h3
  have hsplit : ∀ tr : LTrace Toy.crypto, refused tr = true →
      ∃ pre suf bs r, tr = pre ++ ⟨.base (.write bs), r⟩ :: suf ∧ bs.head? = some 0x00#8 := by
    intro tr h
    induction tr with
    | nil => cases h
    | cons e tr ih =>
      have hrest : refused tr = true → ∃ pre suf bs r, e :: tr = pre ++ ⟨.base (.write bs), r⟩ :: suf ∧ bs.head? = some 0x00#8 :=
        fun h => by
          obtain ⟨pre, suf, bs, r, rfl, hb⟩ := ih h
          exact ⟨e :: pre, suf, bs, r, rfl, hb⟩
      obtain ⟨o, r⟩ := e
      cases o with
      | log f a => exact hrest h
      | logIfFailed f => exact hrest h
      | base o =>
        cases o with
        | write bs =>
          simp only [refused, Bool.or_eq_true, beq_iff_eq] at h
          rcases h with h | h
          · exact ⟨[], tr, bs, r, rfl, h⟩
          · exact hrest h
        | _ => exact hrest h
  obtain ⟨pre, suf, bs, r, rfl, hb⟩ := hsplit tr h3
  obtain ⟨before, code, text, format, args, rfl, -⟩ := h1 _ _ _ _ rfl hb
  have : ∀ a b : LTrace Toy.crypto, logLines (a ++ b) = logLines a ++ logLines b := by
    intro a b
    induction a with
    | nil => rfl
    | cons e a ih =>
      obtain ⟨o, r⟩ := e
      cases o <;> simp [logLines, ih]
  simp [this, logLines] at h2

/-- The line written last, if nothing happened since. -/
def lastNext (o : LOp) (_ : o.Ret C) (_ : Option Line) : Option Line :=
  match o with
  | .log f a => some (f, a)
  | _ => none

/-- An error response is that for unknown sessions, or explained by the last line. -/
def toldOk (o : LOp) (s : Option Line) : Prop :=
  match o with
  | .base (.write bs) => bs.head? = some 0x00#8 → bs = unknownSession ∨
    ∃ format args code text, s = some (format, args) ∧ bs = Wire.errorResponse code (str text) ∧ (code, text, format) ∈ reasons
  | _ => True

theorem errorBytes_asWire (code : ErrorCode) (text : String) :
    errorBytes code text = Wire.errorResponse code.toNat (str text) := by
  simp [errorBytes, ErrorResponse.bytes, newErrorResponse, ResponseCommon.bytes, Wire.errorResponse,
    beEnc_eight, beEnc_four]

theorem told_writeError {bs : Bytes} {s : Option Line} (h : toldOk (.base (.write bs)) s) :
    Along (S := LSig C) lastNext toldOk (fun _ _ => True) (writeErrorResponseL bs) s := by
  refine ⟨h, fun r => ?_⟩
  rcases r with ⟨n, _ | e⟩ <;> dsimp only <;> split
  · exact ⟨trivial, fun _ => trivial⟩
  · trivial
  · trivial
  · exact ⟨trivial, fun _ => trivial⟩

theorem told_refuse {c : ErrorCode} {t : String} {s : Option Line} (h : toldOk (.base (.write (errorBytes c t))) s) :
    Along (S := LSig C) lastNext toldOk (fun _ _ => True) (refuse c t) s := by
  refine (told_writeError h).bind fun ok _ _ => ?_
  cases ok <;> trivial

theorem told_respond (a : Byte) {bs : Bytes} (hbs : bs.head? = some 0x80#8) (s : Option Line) :
    Along (S := LSig C) lastNext toldOk (fun _ _ => True) (respondWithL a bs) s := by
  have : Along (S := LSig C) lastNext toldOk (fun _ _ => True) (writeResponseL a bs) s := by
    refine ⟨fun h => (by rw [hbs] at h; cases h), fun r => ?_⟩
    rcases r with ⟨n, _ | e⟩ <;> dsimp only <;> split
    · exact ⟨trivial, fun _ => trivial⟩
    · trivial
    · trivial
    · refine ⟨trivial, fun _ => ?_⟩
      dsimp only
      split
      · trivial
      · exact told_writeError fun _ => .inr ⟨_, _, 2, _, rfl, errorBytes_asWire .., by decide +kernel⟩
  refine this.bind fun ok _ _ => ?_
  cases ok <;> trivial

theorem told_handle {M : Manager C} (hM : M.Passive) (host : Except Err Bytes) (common : RequestCommon) (s : Option Line) :
    Along (S := LSig C) lastNext toldOk (fun _ _ => True) (handleL M host common) s := by
  refine along_handle hM host common (R := fun _ => True) ?_ (fun _ _ => trivial) ?_ ?_ (fun a bs s h _ => told_respond a h s) trivial
  · intro o ho s _
    refine ⟨?_, fun _ => trivial⟩
    cases o <;> first | trivial | exact ho.elim
  · intro f a c t s h _ _
    exact ⟨trivial, fun _ => told_refuse fun _ => .inr ⟨_, _, _, _, rfl, errorBytes_asWire .., h⟩⟩
  · exact fun s _ => told_refuse fun _ => .inl (errorBytes_asWire ..)

theorem told_serve {M : Manager C} (hM : M.Passive) (host : Except Err Bytes) (closed : Err) (addr : LogArg) (s : Option Line) :
    Along (S := LSig C) lastNext toldOk (fun _ _ => True) (serveRequestL M host closed addr) s := by
  refine (Along.emb_keeps (R := fun _ => True) (noWrite_onConn _) ?_ trivial).bind fun parsed s _ => ?_
  · intro o ho s _
    refine ⟨?_, fun _ => trivial⟩
    cases o <;> first | trivial | exact ho.elim
  cases parsed with
  | error e => dsimp only; split <;> exact ⟨trivial, fun _ => trivial⟩
  | ok common =>
    dsimp only
    split
    · exact ⟨trivial, fun _ => trivial⟩
    · refine (told_handle hM host common s).bind fun e s _ => ?_
      cases e with
      | none => trivial
      | some e => dsimp only; split <;> exact ⟨trivial, fun _ => trivial⟩

/-- **C157**, what holds: every other error response comes right after a line with its reason (also for datagrams). -/
theorem C157_explained_partial {M : Manager C} (hM : M.Passive) (host : Except Err Bytes) {τ : Type}
    (I : Interp (LSig C) τ) (t : τ) {p : LProg C Bool} (hp : p = connPassL M host ∨ p = packetBodyL M host)
    {pre suf : LTrace C} {bs : Bytes} {r : Nat × Option Err}
    (htr : p.trace I t = pre ++ ⟨.base (.write bs), r⟩ :: suf) (hbs : bs.head? = some 0x00#8) (hun : bs ≠ unknownSession) :
    ∃ before code text format args, pre = before ++ [⟨.log format args, ()⟩] ∧
      bs = Wire.errorResponse code (str text) ∧ (code, text, format) ∈ reasons := by
  have hal : Along (S := LSig C) lastNext toldOk (fun _ _ => True) p none := by
    rcases hp with rfl | rfl
    · refine ⟨trivial, fun closed => ?_⟩
      dsimp only
      split
      · trivial
      · exact ⟨trivial, fun _ => ⟨trivial, fun _ => ⟨trivial, fun _ => told_serve hM host _ _ _⟩⟩⟩
    · exact ⟨trivial, fun _ => ⟨trivial, fun _ => (told_serve hM host _ _ _).bind fun _ _ _ => trivial⟩⟩
  rcases hal.before I t htr hbs with h | ⟨format, args, code, text, h, h2, h3⟩
  · exact absurd h hun
  · have hlast : ∀ (tr : LTrace C) (s : Option Line), stateAfter (S := LSig C) lastNext s tr = some (format, args) →
        (tr = [] ∧ s = some (format, args)) ∨ ∃ before, tr = before ++ [⟨.log format args, ()⟩] := by
      intro tr
      induction tr with
      | nil => exact fun s h => .inl ⟨rfl, h⟩
      | cons e tr ih =>
        intro s h
        rcases ih (lastNext e.1 e.2 s) h with ⟨rfl, h⟩ | ⟨before, rfl⟩
        · obtain ⟨o, r⟩ := e
          cases o with
          | log f a => cases h; exact .inr ⟨[], rfl⟩
          | base o => cases h
          | logIfFailed f => cases h
        · exact .inr ⟨e :: before, rfl⟩
    rcases hlast _ _ h with ⟨-, h⟩ | ⟨before, hb⟩
    · cases h
    · exact ⟨before, code, text, format, args, hb, h2, h3⟩

/-- A counter was refused, and the arguments name it. -/
def Replayed (args : List LogArg) (e : (o : LOp) × o.Ret C) : Prop :=
  ∃ session n, e = ⟨.base (.check session n), false⟩ ∧ args = [.num n.toNat]

/-- The line about a replay with these arguments is only written after such an effect. -/
def replayOk (args : List LogArg) (o : LOp) (s : Bool) : Prop :=
  match o with
  | .log f a => f = "replay detected for counter %d" → a = args → s = true
  | _ => True

theorem replay_writeError (args : List LogArg) (bs : Bytes) (s : Bool) :
    Along (S := LSig C) (seenNext (Replayed args)) (replayOk args) (fun _ _ => True) (writeErrorResponseL bs) s := by
  refine ⟨trivial, fun r => ?_⟩
  rcases r with ⟨n, _ | e⟩ <;> dsimp only <;> split
  · exact ⟨fun h => absurd h (by decide +kernel), fun _ => trivial⟩
  · trivial
  · trivial
  · exact ⟨fun h => absurd h (by decide +kernel), fun _ => trivial⟩

theorem replay_refuse (args : List LogArg) (c : ErrorCode) (t : String) (s : Bool) :
    Along (S := LSig C) (seenNext (Replayed args)) (replayOk args) (fun _ _ => True) (refuse c t) s := by
  refine (replay_writeError args _ s).bind fun ok _ _ => ?_
  cases ok <;> trivial

theorem replay_respond (args : List LogArg) (a : Byte) (bs : Bytes) (s : Bool) :
    Along (S := LSig C) (seenNext (Replayed args)) (replayOk args) (fun _ _ => True) (respondWithL a bs) s := by
  have : Along (S := LSig C) (seenNext (Replayed args)) (replayOk args) (fun _ _ => True) (writeResponseL a bs) s := by
    refine ⟨trivial, fun r => ?_⟩
    rcases r with ⟨n, _ | e⟩ <;> dsimp only <;> split
    · exact ⟨fun h => absurd h (by decide +kernel), fun _ => trivial⟩
    · trivial
    · trivial
    · refine ⟨fun h => absurd h (by decide +kernel), fun _ => ?_⟩
      dsimp only
      split
      · trivial
      · exact replay_writeError args _ _
  refine this.bind fun ok _ _ => ?_
  cases ok <;> trivial

theorem replay_serve {M : Manager C} (hM : M.Passive) (args : List LogArg) (host : Except Err Bytes) (closed : Err)
    (addr : LogArg) (s : Bool) :
    Along (S := LSig C) (seenNext (Replayed args)) (replayOk args) (fun _ _ => True) (serveRequestL M host closed addr) s := by
  have hline : ∀ (f : String) (a : List LogArg) (s : Bool), f ≠ "replay detected for counter %d" →
      Along (S := LSig C) (seenNext (Replayed args)) (replayOk args) (fun _ _ => True)
        (.op (.log f a) fun _ => .ret false : LProg C Bool) s :=
    fun f a s hf => ⟨fun h => absurd h hf, fun _ => trivial⟩
  refine (Along.emb_keeps (R := fun _ => True) (noWrite_onConn _) (fun _ _ _ _ => ⟨trivial, fun _ => trivial⟩)
    trivial).bind fun parsed s _ => ?_
  cases parsed with
  | error e => dsimp only; split <;> exact hline _ _ _ (by decide +kernel)
  | ok common =>
    dsimp only
    split
    · exact hline _ _ _ (by decide +kernel)
    · refine Along.bind (mid := fun _ _ => True) ?_ fun e s _ => ?_
      · refine along_handle hM host common (R := fun _ => True) (fun o _ s _ => ⟨trivial, fun _ => trivial⟩)
          (fun _ _ => trivial) ?_ (fun s _ => replay_refuse args _ _ s) (fun a bs s _ _ => replay_respond args a bs s) trivial
        intro f a c t s _ _ hf
        refine ⟨fun h h' => ?_, fun _ => replay_refuse args _ _ _⟩
        obtain ⟨session, n, s', rfl, rfl⟩ := hf h
        exact seen_of ⟨session, n, rfl, h'.symm⟩
      · cases e with
        | none => trivial
        | some e => dsimp only; split <;> exact hline _ _ _ (by decide +kernel)

/-- **C157**, what holds: a line about a replay names the message counter that was refused. -/
theorem C157_replay_partial {M : Manager C} (hM : M.Passive) (host : Except Err Bytes) {τ : Type}
    (I : Interp (LSig C) τ) (t : τ) {p : LProg C Bool} (hp : p = connPassL M host ∨ p = packetBodyL M host)
    (args : List LogArg) (h : ("replay detected for counter %d", args) ∈ logLines (p.trace I t)) :
    ∃ session n, ⟨.base (.check session n), false⟩ ∈ p.trace I t ∧ args = [.num n.toNat] := by
  have hal : Along (S := LSig C) (seenNext (Replayed args)) (replayOk args) (fun _ _ => True) p false := by
    rcases hp with rfl | rfl
    · refine ⟨trivial, fun closed => ?_⟩
      dsimp only
      split
      · trivial
      · exact ⟨trivial, fun _ => ⟨trivial, fun _ => ⟨trivial, fun _ => replay_serve hM args host _ _ _⟩⟩⟩
    · exact ⟨trivial, fun _ => ⟨trivial, fun _ => (replay_serve hM args host _ _ _).bind fun _ _ _ => trivial⟩⟩
  obtain ⟨pre, suf, htr⟩ := split_logLines h
  rcases after_seen (hal.before I t htr rfl rfl) with h | ⟨e, he, session, n, rfl, ha⟩
  · cases h
  · exact ⟨session, n, by rw [htr]; exact List.mem_append_left _ he, ha⟩

/-- Number of lines, and whether a request was refused. -/
def tallyNext (o : LOp) (_ : o.Ret C) (s : Nat × Bool) : Nat × Bool :=
  match o with
  | .log _ _ => (s.1 + 1, s.2)
  | .base (.write bs) => (s.1, s.2 || bs.head? == some 0x00#8)
  | _ => s

theorem after_tally (tr : LTrace C) (s : Nat × Bool) :
    stateAfter (S := LSig C) tallyNext s tr = (s.1 + (logLines tr).length, s.2 || refused tr) := by
  induction tr generalizing s with
  | nil => simp [stateAfter, logLines, refused]
  | cons e tr ih =>
    obtain ⟨o, r⟩ := e
    show stateAfter (S := LSig C) tallyNext (tallyNext o r s) tr = _
    rw [ih]
    cases o with
    | log f a => simp only [tallyNext, logLines, refused, List.length_cons]; congr 1; omega
    | logIfFailed f => rfl
    | base o => cases o <;> simp [tallyNext, logLines, refused, Bool.or_assoc]

/-- At most three lines. -/
def tallyOk (o : LOp) (s : Nat × Bool) : Prop :=
  match o with
  | .log _ _ => s.1 ≤ 2
  | _ => True

theorem head_errorBytes (c : ErrorCode) (t : String) : (errorBytes c t).head? = some 0x00#8 := by
  rw [errorBytes_asWire]; rfl

/-- After the handler: at most two lines, and if the request was served without a refusal, none. -/
def Tallied (e : Option Err) (s : Nat × Bool) : Prop := s.1 ≤ 2 ∧ (e = none → s.2 = false → s.1 = 0)

theorem tally_writeError {bs : Bytes} (hbs : bs.head? = some 0x00#8) {s : Nat × Bool} (h : s.1 ≤ 1) :
    Along (S := LSig C) tallyNext tallyOk (fun _ s => s.1 ≤ 2 ∧ s.2 = true) (writeErrorResponseL bs) s := by
  refine ⟨trivial, fun r => ?_⟩
  have h1 : (tallyNext (C := C) (.base (.write bs)) r s).2 = true := by simp [tallyNext, hbs]
  have h2 : (tallyNext (C := C) (.base (.write bs)) r s).1 ≤ 1 := h
  rcases r with ⟨n, _ | e⟩ <;> dsimp only <;> split
  · exact ⟨Nat.le_succ_of_le h2, fun _ => ⟨Nat.succ_le_succ h2, h1⟩⟩
  · exact ⟨Nat.le_succ_of_le h2, h1⟩
  · exact ⟨Nat.le_succ_of_le h2, h1⟩
  · exact ⟨Nat.le_succ_of_le h2, fun _ => ⟨Nat.succ_le_succ h2, h1⟩⟩

theorem tally_refuse (c : ErrorCode) (t : String) {s : Nat × Bool} (h : s.1 ≤ 1) :
    Along (S := LSig C) tallyNext tallyOk Tallied (refuse c t) s := by
  refine (tally_writeError (head_errorBytes c t) h).bind fun ok s hs => ?_
  cases ok
  · exact ⟨hs.1, fun h => by cases h⟩
  · exact ⟨hs.1, fun _ h => by rw [hs.2] at h; cases h⟩

theorem tally_respond (a : Byte) {bs : Bytes} (hbs : bs.head? = some 0x80#8) {s : Nat × Bool} (h : s.1 = 0) :
    Along (S := LSig C) tallyNext tallyOk Tallied (respondWithL a bs) s := by
  have : Along (S := LSig C) tallyNext tallyOk (fun ok s => s.1 ≤ 2 ∧ (ok = true → s.2 = false → s.1 = 0))
      (writeResponseL a bs) s := by
    refine ⟨trivial, fun r => ?_⟩
    have h2 : (tallyNext (C := C) (.base (.write bs)) r s).1 = 0 := h
    rcases r with ⟨n, _ | e⟩ <;> dsimp only <;> split
    · exact ⟨Nat.le_trans (Nat.le_of_eq h2) (Nat.zero_le 2), fun _ => ⟨Nat.succ_le_succ (h2 ▸ Nat.zero_le 1), fun h => by cases h⟩⟩
    · exact ⟨Nat.le_trans (Nat.le_of_eq h2) (Nat.zero_le 2), fun _ _ => h2⟩
    · exact ⟨Nat.le_trans (Nat.le_of_eq h2) (Nat.zero_le 2), fun h => by cases h⟩
    · refine ⟨Nat.le_trans (Nat.le_of_eq h2) (Nat.zero_le 2), fun _ => ?_⟩
      dsimp only
      split
      · exact ⟨Nat.succ_le_succ (h2 ▸ Nat.zero_le 1), fun h => by cases h⟩
      · refine (tally_writeError (head_errorBytes ..) (Nat.succ_le_succ (Nat.le_of_eq h2))).mono fun ok s hs => ⟨hs.1, ?_⟩
        exact fun _ h => by rw [hs.2] at h; cases h
  refine this.bind fun ok s hs => ?_
  cases ok
  · exact ⟨hs.1, fun h => by cases h⟩
  · exact ⟨hs.1, fun _ => hs.2 rfl⟩

theorem tally_handle {M : Manager C} (hM : M.Passive) (host : Except Err Bytes) (common : RequestCommon) {s : Nat × Bool}
    (hs : s.1 = 0) : Along (S := LSig C) tallyNext tallyOk Tallied (handleL M host common) s := by
  refine along_handle hM host common (R := fun s => s.1 = 0) ?_ (fun s h => ⟨h ▸ Nat.zero_le 2, fun _ _ => h⟩) ?_
    (fun s h => tally_refuse _ _ (h ▸ Nat.zero_le 1)) (fun a bs s h hs => tally_respond a h hs) hs
  · intro o ho s h
    refine ⟨trivial, fun _ => ?_⟩
    cases o <;> first | exact h | exact ho.elim
  · intro f a c t s _ h _
    exact ⟨Nat.le_trans (Nat.le_of_eq h) (Nat.zero_le 2), fun _ => tally_refuse _ _ (Nat.succ_le_succ (Nat.le_of_eq h))⟩

theorem tally_serve {M : Manager C} (hM : M.Passive) (host : Except Err Bytes) (closed : Err) (addr : LogArg) {s : Nat × Bool}
    (hs : s.1 = 0) :
    Along (S := LSig C) tallyNext tallyOk (fun b s => b = true → s.2 = false → s.1 = 0)
      (serveRequestL M host closed addr) s := by
  refine (Along.emb_keeps (R := fun s => s.1 = 0) (noWrite_onConn _) ?_ hs).bind fun parsed s hs => ?_
  · intro o ho s h
    refine ⟨trivial, fun _ => ?_⟩
    cases o <;> first | exact h | exact ho.elim
  have hline : ∀ (f : String) (a : List LogArg) (s : Nat × Bool), s.1 ≤ 2 → Along (S := LSig C) tallyNext tallyOk
      (fun b s => b = true → s.2 = false → s.1 = 0) (.op (.log f a) fun _ => .ret false) s :=
    fun f a s h => ⟨h, fun _ h => by cases h⟩
  cases parsed with
  | error e => dsimp only; split <;> exact hline _ _ _ (hs ▸ Nat.zero_le 2)
  | ok common =>
    dsimp only
    split
    · exact hline _ _ _ (hs ▸ Nat.zero_le 2)
    · refine (tally_handle hM host common hs).bind fun e s h => ?_
      cases e with
      | none => exact fun _ => h.2 rfl
      | some e => dsimp only; split <;> exact hline _ _ _ h.1

theorem tally_conn {M : Manager C} (hM : M.Passive) (host : Except Err Bytes) :
    Along (S := LSig C) tallyNext tallyOk (fun b s => b = true → s.2 = false → s.1 = 0) (connPassL M host) (0, false) := by
  refine ⟨trivial, fun closed => ?_⟩
  dsimp only
  split
  · exact fun h => by cases h
  · exact ⟨trivial, fun _ => ⟨trivial, fun _ => ⟨trivial, fun _ => tally_serve hM host _ _ rfl⟩⟩⟩

/-- **C157**, what holds: a request that was not refused and after which the connection goes on leaves no line. -/
theorem C157_silent_partial {M : Manager C} (hM : M.Passive) (host : Except Err Bytes) {τ : Type} (I : Interp (LSig C) τ)
    (t : τ) (hgo : ((connPassL M host).run I t).1 = .val true) (href : refused ((connPassL M host).trace I t) = false) :
    logLines ((connPassL M host).trace I t) = [] := by
  have h := (tally_conn hM host).finally I t hgo rfl
  rw [after_tally] at h
  simpa using h (by simpa using href)

/-- **C157**, what holds: nothing that a client sends leaves more than three lines per request, on a connection or in a
datagram. -/
theorem C157_few_lines_partial {M : Manager C} (hM : M.Passive) (host : Except Err Bytes) {τ : Type} (I : Interp (LSig C) τ)
    (t : τ) {p : LProg C Bool} (hp : p = connPassL M host ∨ p = packetBodyL M host) :
    (logLines (p.trace I t)).length ≤ 3 := by
  have hal : Along (S := LSig C) tallyNext tallyOk (fun _ _ => True) p (0, false) := by
    rcases hp with rfl | rfl
    · exact (tally_conn hM host).mono fun _ _ _ => trivial
    · exact ⟨trivial, fun _ => ⟨trivial, fun _ => (tally_serve hM host _ _ rfl).bind fun _ _ _ => trivial⟩⟩
  have h := hal.keeps (J := fun s => s.1 ≤ 3) (fun o r s ho hs => ?_) (Nat.zero_le 3) I t
  · rw [after_tally] at h
    simpa using h
  · cases o with
    | log f a => exact Nat.succ_le_succ ho
    | logIfFailed f => exact hs
    | base o => cases o <;> exact hs

/-- After the first octet of a request. -/
def afterOctet (M : Manager C) (host : Except Err Bytes) (b : Byte) : LProg C Bool :=
  if ((b &&& 0xF0#8) >>> 4) ≠ version1 then
    .op (.log "unsupported version: %d" [.num ((b &&& 0xF0#8) >>> 4).toNat]) fun _ => .ret false
  else
    (handleL M host { version := (b &&& 0xF0#8) >>> 4, action := b &&& 0x0F#8 }).bind fun err =>
    match err with
    | some err =>
      if err = .eof ∨ err = .shortWrite ∨ err = .unexpectedEOF then
        .op (.log "connection closed by client (%s)" [.remoteAddr]) fun _ => .ret false
      else .op (.log "failed to handle request: %v" [.err err]) fun _ => .ret false
    | none => .ret true

theorem pass_octet (M : Manager C) (host : Except Err Bytes) {τ : Type} (I : Interp (LSig C) τ) (t : τ) (b : Byte)
    (hquit : ∀ s, (I (.base .quitClosed) s).1 = false)
    (hread : ∀ s, (I (.base (.read (.copyLimit 1))) s).1 = (([b], none) : Bytes × Option Err)) :
    ∃ t', logLines ((connPassL M host).trace I t) = logLines ((afterOctet M host b).trace I t') ∧
      refused ((connPassL M host).trace I t) = refused ((afterOctet M host b).trace I t') ∧
      ((connPassL M host).run I t).1 = ((afterOctet M host b).run I t').1 := by
  obtain ⟨k, hk, hkb⟩ : ∃ k : Bytes × Option Err → LProg C Bool,
      serveRequestL M host .unexpectedEOF .remoteAddr = .op (.base (.read (.copyLimit 1))) k ∧
      k ([b], none) = afterOctet M host b := ⟨_, rfl, rfl⟩
  have hserve : ∀ u, ∃ t', (serveRequestL M host .unexpectedEOF .remoteAddr).trace I u =
        ⟨.base (.read (.copyLimit 1)), (I (.base (.read (.copyLimit 1))) u).1⟩ :: (afterOctet M host b).trace I t' ∧
      (serveRequestL M host .unexpectedEOF .remoteAddr).run I u = (afterOctet M host b).run I t' := by
    intro u
    refine ⟨(I (.base (.read (.copyLimit 1))) u).2, ?_, ?_⟩
    · rw [hk]
      show _ :: Prog.trace I (k (I (.base (.read (.copyLimit 1))) u).1) _ = _
      rw [hread, hkb]
    · rw [hk]
      show Prog.run I (k (I (.base (.read (.copyLimit 1))) u).1) _ = _
      rw [hread, hkb]
  obtain ⟨t', h1, h2⟩ := hserve (I (.logIfFailed "failed to set connection write deadline: %v")
    (I (.logIfFailed "failed to set connection read deadline: %v")
      (I (.base .setDeadlines) (I (.base .quitClosed) t).2).2).2).2
  obtain ⟨q, hq, hqf⟩ : ∃ q : Bool → LProg C Bool, connPassL M host = .op (.base .quitClosed) q ∧
      q false = .op (.base .setDeadlines) fun _ => .op (.logIfFailed "failed to set connection read deadline: %v") fun _ =>
        .op (.logIfFailed "failed to set connection write deadline: %v") fun _ =>
        serveRequestL M host .unexpectedEOF .remoteAddr := ⟨_, rfl, rfl⟩
  rw [hq]
  refine ⟨t', ?_, ?_, ?_⟩
  · show logLines (Prog.trace I (q (I (.base .quitClosed) t).1) _) = _
    rw [hquit, hqf]
    show logLines (Prog.trace I (serveRequestL M host .unexpectedEOF .remoteAddr) _) = _
    rw [h1]
    rfl
  · show refused (Prog.trace I (q (I (.base .quitClosed) t).1) _) = _
    rw [hquit, hqf]
    show refused (Prog.trace I (serveRequestL M host .unexpectedEOF .remoteAddr) _) = _
    rw [h1]
    rfl
  · show (Prog.run I (q (I (.base .quitClosed) t).1) _).1 = _
    rw [hquit, hqf]
    exact congrArg Prod.fst h2

/-- **C157**, the version: a request of another version leaves exactly one line, which names the version, and the connection
ends. -/
theorem C157_version_partial (M : Manager C) (host : Except Err Bytes) {τ : Type} (I : Interp (LSig C) τ) (t : τ) (b : Byte)
    (hquit : ∀ s, (I (.base .quitClosed) s).1 = false)
    (hread : ∀ s, (I (.base (.read (.copyLimit 1))) s).1 = (([b], none) : Bytes × Option Err))
    (hb : b.toNat / 16 ≠ 1) :
    logLines ((connPassL M host).trace I t) = [("unsupported version: %d", [.num (b.toNat / 16)])] ∧
    ((connPassL M host).run I t).1 = .val false := by
  obtain ⟨t', h1, -, h3⟩ := pass_octet M host I t b hquit hread
  have hv : ∀ b : Byte, ((b &&& 0xF0#8) >>> 4).toNat = b.toNat / 16 := by decide +kernel
  rw [h1, h3, afterOctet, if_pos (fun h => hb (by rw [← hv, h]; rfl)), hv]
  exact ⟨rfl, rfl⟩

/-- **C157**, panics: when a connection or a datagram is done, what a panic was called with is logged, and nothing if there was
none. -/
theorem C157_panic_partial (panicked : Option String) {τ : Type} (I : Interp (LSig C) τ) (t : τ) :
    logLines ((connDeferredL panicked).trace I t) = panicked.toList.map (fun m => ("", [.panicked m])) ∧
    logLines ((packetDeferredL panicked).trace I t) = panicked.toList.map (fun m => ("", [.panicked m])) := by
  cases panicked <;> exact ⟨rfl, rfl⟩

/-- **C157**, the loops: a connection that could not be accepted and a datagram that could not be read leave exactly one line,
with the error; a round that accepts, reads or ends leaves none. -/
theorem C157_loops_partial {τ : Type} (I : Interp (LSig C) τ) (t : τ) :
    logLines ((acceptPassL (C := C)).trace I t) = (((acceptPassL (C := C)).trace I t).filterMap fun
      | ⟨.base .accept, (r : Except Err Peer)⟩ => match r with
        | .error err => some ("failed to accept connection: %v", [.err err])
        | .ok _ => none
      | _ => none) ∧
    logLines ((packetPassL (C := C)).trace I t) = (((packetPassL (C := C)).trace I t).filterMap fun
      | ⟨.base .receive, (r : Except Err Peer)⟩ => match r with
        | .error err => some ("failed to read from connection: %v", [.err err])
        | .ok _ => none
      | _ => none) := by
  constructor
  · simp only [acceptPassL, Prog.trace]
    generalize (I (.base .quitClosed) t) = r
    obtain ⟨closed, t⟩ := r
    cases (closed : Bool) with
    | true => rfl
    | false =>
      simp only [Bool.false_eq_true, if_false, Prog.trace]
      generalize (I (.base .accept) t) = r
      obtain ⟨accepted, t⟩ := r
      cases (accepted : Except Err Peer) <;> rfl
  · simp only [packetPassL, Prog.trace]
    generalize (I (.base .quitClosed) t) = r
    obtain ⟨closed, t⟩ := r
    cases (closed : Bool) with
    | true => rfl
    | false =>
      simp only [Bool.false_eq_true, if_false, Prog.trace]
      generalize (I (.base .receive) _) = r
      obtain ⟨received, t⟩ := r
      cases (received : Except Err Peer) <;> rfl

/-- **C157**, what is missing too: a request for an action that does not exist is ignored: no line, no error response, and the
connection goes on. -/
theorem C157_unknown_action (M : Manager C) (host : Except Err Bytes) {τ : Type} (I : Interp (LSig C) τ) (t : τ) (b : Byte)
    (hquit : ∀ s, (I (.base .quitClosed) s).1 = false)
    (hread : ∀ s, (I (.base (.read (.copyLimit 1))) s).1 = (([b], none) : Bytes × Option Err))
    (hb : b.toNat = 16 ∨ 20 < b.toNat ∧ b.toNat < 32) :
    logLines ((connPassL M host).trace I t) = [] ∧ refused ((connPassL M host).trace I t) = false ∧
    ((connPassL M host).run I t).1 = .val true := by
  obtain ⟨t', h1, h2, h3⟩ := pass_octet M host I t b hquit hread
  have hv : ∀ b : Byte, b.toNat = 16 ∨ 20 < b.toNat ∧ b.toNat < 32 → (b &&& 0xF0#8) >>> 4 = version1 ∧
      b &&& 0x0F#8 ≠ actionHello ∧ b &&& 0x0F#8 ≠ actionSetup ∧ b &&& 0x0F#8 ≠ actionProcess ∧
      b &&& 0x0F#8 ≠ actionFetchKey := by decide +kernel
  obtain ⟨v1, v2, v3, v4, v5⟩ := hv b hb
  rw [h1, h2, h3, afterOctet, if_neg (not_not_intro v1), handleL, if_neg v2, if_neg v3, if_neg v4, if_neg v5]
  exact ⟨rfl, rfl, rfl⟩

/-- A replayed message is refused, the log says why, and the connection goes on; the messages before it leave no lines. -/
example :
    let run (p : LProg Toy.crypto Bool) (s : Seq) := p.run (withLog (seqI Toy.crypto 5000 fun _ => ServeExample.answer)) s
    let pass := connPassL (inMemory Toy.crypto) (.ok (str "10.0.0.1"))
    let input := (ServeExample.requests.take 3 ++ (ServeExample.requests.drop 2).take 1).flatMap Req.wire
    let s1 := (run pass (ServeExample.start input)).2
    let s2 := (run pass s1).2
    let s3 := (run pass s2).2
    (run pass s3).1 = .val true ∧
    logLines (pass.trace (withLog (seqI Toy.crypto 5000 fun _ => ServeExample.answer)) s2) = [] ∧
    logLines (pass.trace (withLog (seqI Toy.crypto 5000 fun _ => ServeExample.answer)) s3) =
      [("replay detected for counter %d", [.num 1])] := by decide +kernel

/-- A client that connects and hangs up. -/
example : logLines ((connPassL (inMemory Toy.crypto) (.ok (str "10.0.0.1"))).trace
    (withLog (seqI Toy.crypto 5000 fun _ => ServeExample.answer)) (ServeExample.start [])) =
    [("connection closed by client (%s)", [.remoteAddr])] := by decide +kernel

end

end Goe2ee
