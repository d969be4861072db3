import Verif.Proofs.Handler
import Verif.Props.Conversation

/-!
# C139: what the application handler sees, and what the client sees of it
-/

set_option autoImplicit false

namespace Goe2ee

/-- **C139**, the reader: the first octet that a call of `Read` returns is the one after the last octet returned
before, a call returns as much as there is and fits, and `io.EOF` is returned exactly when the message was read
completely (and there is space for more).  So a handler that reads until `io.EOF` has exactly the message that
was sent. -/
theorem C139_reads (expectReply : Bool) (h : HProg) (message : Bytes) (n : Nat) (result : Bytes × Option Err)
    (calls calls' : List ((o : HSig.Op) × HSig.Ret o))
    (ht : h.trace (handlerExec expectReply) { reader := message, writer := [] } =
      calls ++ ⟨.read n, result⟩ :: calls') :
    dataRead calls = message.take (dataRead calls).length ∧
    result = ((message.drop (dataRead calls).length).take n,
      if dataRead calls = message ∧ 0 < n then some .eof else none) := by
  suffices hs : ∀ (h : HProg) (s : HBuffers),
      h.trace (handlerExec expectReply) s = calls ++ ⟨.read n, result⟩ :: calls' →
      ∃ rest, s.reader = dataRead calls ++ rest ∧
        result = (rest.take n, if rest = [] ∧ 0 < n then some .eof else none) by
    obtain ⟨rest, h1, h2⟩ := hs h _ ht
    dsimp only at h1
    subst h1
    refine ⟨by simp, ?_⟩
    rw [h2]
    simp [eq_comm]
  clear ht h message
  induction calls with
  | nil =>
    intro h s ht
    cases h with
    | ret a => cases ht
    | panic m => cases ht
    | op o k =>
      rw [Prog.trace, List.nil_append] at ht
      injection ht with h1 h2
      cases o with
      | write bs => cases h1
      | read m =>
        cases h1
        refine ⟨s.reader, rfl, ?_⟩
        simp only [handlerExec]
        by_cases he : s.reader = []
        · by_cases hn : n = 0
          · simp [he, hn]
          · simp [he, hn, Nat.pos_of_ne_zero hn]
        · simp [he]
  | cons call calls ih =>
    intro h s ht
    cases h with
    | ret a => cases ht
    | panic m => cases ht
    | op o k =>
      rw [Prog.trace, List.cons_append] at ht
      injection ht with h1 h2
      obtain ⟨rest, h3, h4⟩ := ih _ _ h2
      refine ⟨rest, ?_, h4⟩
      subst h1
      cases o with
      | read m =>
        simp only [dataRead]
        rw [List.append_assoc, ← h3]
        simp only [handlerExec]
        split <;> simp_all
      | write bs =>
        simp only [dataRead]
        rw [← h3]
        cases expectReply <;> rfl

/-- **C139**, the writer: every call of `Write` takes everything and returns no error. -/
theorem C139_writes (expectReply : Bool) (h : HProg) (message bs : Bytes) (result : Nat × Option Err)
    (ht : (⟨.write bs, result⟩ : (o : HSig.Op) × HSig.Ret o) ∈
      h.trace (handlerExec expectReply) { reader := message, writer := [] }) :
    result = (bs.length, none) := by
  generalize ({ reader := message, writer := [] } : HBuffers) = s at ht
  induction h generalizing s with
  | ret a => cases ht
  | panic m => cases ht
  | op o k ih =>
    rw [Prog.trace, List.mem_cons] at ht
    rcases ht with ht | ht
    · cases o with
      | read m => cases ht
      | write bs' => cases ht; rfl
    · exact ih _ _ ht

/-- **C139**, the reply: if the handler returns no error, the reply is what it has written, in order. -/
theorem C139_reply (h : HProg) (message written : Bytes) (ho : outcomeOf true h message = .reply written) :
    written = dataWritten (h.trace (handlerExec true) { reader := message, writer := [] }) := by
  have hw := handler_writes h { reader := message, writer := [] }
  rw [List.nil_append] at hw
  unfold outcomeOf at ho
  split at ho
  · rename_i s heq
    cases ho
    rw [← hw, heq]
  · cases ho
  · cases ho

section
variable {C : Crypto}

/-- **C139**, the client: from any reachable state of the server and any client that shares a session with it, as
long as the server has accepted no counter that the client has not used yet.  The handler may return errors and
write nothing, as it likes: every message of a conversation is handed to it once and in order, and the `Read`s
after each `Write` tell what it did (`seenFor`).  In particular a message for which the handler fails does not
disturb the messages after it.  Over TCP (one connection) and over UDP. -/
theorem C139_conversation (hC : C.Lawful) (env : CEnv C) (udp : Bool) (timeout : Nat)
    (ans : Nat → Answer C) (host : Bytes) (e : Ends) (hs : Reachable C e.server.world)
    (session : ClientSession) (r : Ref) (t : Nat) (window : ReplayWindow) (v : BitVec 64)
    (rounds : List Round)
    -- the client
    (hwd : env.writeDeadline = none) (hrd : env.readDeadline = none) (hwr : env.write = (0, none))
    (hsession : e.client.session = some session) (hbuf : e.client.buffer = [])
    (hexpect : e.client.expectReply = true)
    (hcounter : e.shared.counters[session.sendCounter]? = some v)
    (hv : v.toNat + rounds.length < 2 ^ 64)
    (hf : ∀ round ∈ rounds, round.faithful ∧ round.message.length + 16 ≤ 2 ^ 30 ∧
      ∃ n ns, round.sizes = n :: ns ∧ 0 < n)
    -- the server
    (ht : e.server.world.table (sessionKey C host session.id) = some (r, t))
    (hh : e.server.world.heap[r]? = some (session.secret, window))
    (hacc : ∀ c ∈ acceptedOf r e.server.world.log, c ≤ v.toNat)
    (hopen : udp = false → e.server.world.quit = false)
    (hdl : udp = false → timeout = 0 → e.server.conn.deadline = none)
    (hpdl : timeout = 0 → e.server.world.packetBy = none)
    (hans : ∀ round ∈ rounds, ∀ p, (ans p).write = (0, none) ∧ Answerable round.sizes (ans p).handle)
    (htime : 0 < timeout → ∀ i j, (ans i).tick + (ans j).tick ≤ timeout) :
    ∃ (outcomes : List HRes) (e' : Ends),
      converse env udp timeout ans host rounds e = some (outcomes.map seenFor, e') ∧
      outcomes.length = rounds.length ∧ (∀ res ∈ outcomes, ∃ p, (ans p).handle = res) ∧
      handledFor r e'.server.world.log = handledFor r e.server.world.log ++
        (rounds.map (·.message)).zip outcomes := by
  refine converse_handled (session := session) hC hwd hrd hwr htime rounds v e ?_ hf hans hv
  refine ⟨hsession, hbuf, hexpect, hcounter, ⟨t, ht⟩, ⟨window, _, hh, hs.windows.1 r _ hh, ?_⟩, hopen, hdl, hpdl⟩
  rcases Nat.eq_zero_or_pos (largest (acceptedOf r e.server.world.log)) with h | h
  · omega
  · exact hacc _ (largest_mem (by omega))

/-- **C139** for a handler that is a program without a memory: the client sees, for each message, what the
program does with it. -/
theorem C139_program (hC : C.Lawful) (env : CEnv C) (udp : Bool) (timeout : Nat)
    (ans : Nat → Answer C) (host : Bytes) (e : Ends) (hs : Reachable C e.server.world)
    (session : ClientSession) (r : Ref) (t : Nat) (window : ReplayWindow) (v : BitVec 64)
    (rounds : List Round)
    -- the client
    (hwd : env.writeDeadline = none) (hrd : env.readDeadline = none) (hwr : env.write = (0, none))
    (hsession : e.client.session = some session) (hbuf : e.client.buffer = [])
    (hexpect : e.client.expectReply = true)
    (hcounter : e.shared.counters[session.sendCounter]? = some v)
    (hv : v.toNat + rounds.length < 2 ^ 64)
    (hf : ∀ round ∈ rounds, round.faithful ∧ round.message.length + 16 ≤ 2 ^ 30 ∧
      ∃ n ns, round.sizes = n :: ns ∧ 0 < n)
    -- the server
    (ht : e.server.world.table (sessionKey C host session.id) = some (r, t))
    (hh : e.server.world.heap[r]? = some (session.secret, window))
    (hacc : ∀ c ∈ acceptedOf r e.server.world.log, c ≤ v.toNat)
    (hopen : udp = false → e.server.world.quit = false)
    (hdl : udp = false → timeout = 0 → e.server.conn.deadline = none)
    (hpdl : timeout = 0 → e.server.world.packetBy = none)
    (hans : ∀ round ∈ rounds, ∀ p, (ans p).write = (0, none) ∧ Answerable round.sizes (ans p).handle)
    (htime : 0 < timeout → ∀ i j, (ans i).tick + (ans j).tick ≤ timeout)
    -- the conversation, with calls of the handler that do what the program does
    (h : HProg) (seen : List (Bytes × Option Err)) (e' : Ends)
    (hrun : converse env udp timeout ans host rounds e = some (seen, e'))
    (hprog : ∀ call ∈ (handledFor r e'.server.world.log).drop (handledFor r e.server.world.log).length,
      call.2 = outcomeOf true h call.1) :
    seen = rounds.map fun round => seenFor (outcomeOf true h round.message) := by
  obtain ⟨outcomes, e'', h1, h2, -, h3⟩ := C139_conversation hC env udp timeout ans host e hs session r t window v
    rounds hwd hrd hwr hsession hbuf hexpect hcounter hv hf ht hh hacc hopen hdl hpdl hans htime
  rw [hrun] at h1
  have heq := Option.some.inj h1
  have hseen : seen = outcomes.map seenFor := congrArg Prod.fst heq
  have he : e' = e'' := congrArg Prod.snd heq
  subst he
  rw [h3, List.drop_left] at hprog
  rw [hseen]
  clear hans htime hv hf hrun h1 heq hseen h3
  induction rounds generalizing outcomes with
  | nil =>
    rw [List.length_nil, List.length_eq_zero_iff] at h2
    subst h2
    rfl
  | cons round rounds ih =>
    cases outcomes with
    | nil => cases h2
    | cons res outcomes =>
      rw [List.map_cons, List.zip_cons_cons] at hprog
      rw [List.map_cons, List.map_cons, ih outcomes
        (fun call hc => hprog call (List.mem_cons_of_mem _ hc)) (by simpa using h2), ← hprog _ List.mem_cons_self]

end

namespace HandlerExample

/-- `io.Copy(w, r)` with a buffer of `n` octets, for messages that need less than `fuel` calls of `Read`. -/
def echo (n : Nat) : Nat → HProg
  | 0 => .panic "out of fuel"
  | fuel + 1 => .op (.read n) fun (got : Bytes × Option Err) =>
    match got with
    | (bs, some e) => if bs = [] ∧ e = .eof then .ret none else .ret (some e)
    | (bs, none) => .op (.write bs) fun (_ : Nat × Option Err) => echo n fuel

/-- Refuses what starts with an exclamation mark, answers nothing to what starts with a blank, and repeats
everything else. -/
def picky : HProg :=
  .op (.read 1) fun (got : Bytes × Option Err) =>
  if got.1 = str "!" then .ret (some (.other "no"))
  else if got.1 = str " " then .ret none
  else .op (.write got.1) fun (_ : Nat × Option Err) => echo 3 100

example : outcomeOf true picky (str "hello world") = .reply (str "hello world") := by decide +kernel
example : outcomeOf true picky (str " hello") = .reply [] := by decide +kernel
example : outcomeOf true picky (str "!hello") = .error (.other "no") := by decide +kernel
example : outcomeOf false picky (str "hello world") = .reply [] := by decide +kernel

/-- Echo returns the message, whatever the message and the size of the buffer. -/
theorem echo_reply (n : Nat) (hn : 0 < n) (message : Bytes) (fuel : Nat) (hf : message.length < fuel) :
    outcomeOf true (echo n fuel) message = .reply message := by
  suffices h : ∀ (fuel : Nat) (s : HBuffers), s.reader.length < fuel →
      (echo n fuel).run (handlerExec true) s = (.val none, ⟨[], s.writer ++ s.reader⟩) by
    rw [outcomeOf, h fuel _ hf]
    rfl
  clear hf fuel message
  intro fuel
  induction fuel with
  | zero => intro s h; exact absurd h (Nat.not_lt_zero _)
  | succ fuel ih =>
    intro s h
    obtain ⟨reader, writer⟩ := s
    rw [echo]
    simp only [Prog.run]
    by_cases he : reader = []
    · subst he
      simp only [handlerExec, if_true, if_neg (Nat.ne_of_gt hn)]
      simp [Prog.run]
    · simp only [handlerExec, if_neg he, Prog.run, if_true]
      rw [ih _ (by
        have := List.length_pos_iff.mpr he
        dsimp only at h ⊢
        rw [List.length_drop]
        omega)]
      simp

open HandshakeExample

/-- Three rounds. -/
def rounds (udp : Bool) : List Round :=
  [str "!one", str " two", str "three"].map fun message =>
    { message, up := fun bs => bs.map fun b => .data [b],
      down := fun bs => if udp then .udp false [] [.ok bs] else .tcp [.data bs], sizes := [1, 2, 3] }

/-- An honest server and the client of `HandshakeExample`: handshake and three rounds. -/
def talk (udp : Bool) : Option (List (Bytes × Option Err) × List (Bytes × HRes)) :=
  let ans : Nat → Answer Toy.crypto := fun p => { OnceExample.answer (.error .eof) with
      handle := outcomeOf true picky (str (if p < 15 then "!one" else if p < 23 then " two" else "three"))
      sign := fun hash content => signServer (C := Toy.crypto) (.ed25519 (77 : BitVec 256)) 3 hash content }
  let s := serveOne 5000 ans (str "10.0.0.1")
    (SessionExample.start SessionExample.world (Wire.setupRequest (uuidOf ⟨List.replicate 16 1, rfl⟩).val
      (Toy.crypto.marshalEPub (5 : BitVec 256))))
  match runClient env (dial udp (.ok (str "example.com")) {})
      (start (if udp then .udp false [] [.ok s.conn.output] else .tcp [.data s.conn.output])) with
  | (.val (.ok c), cs) =>
    (converse env udp 5000 ans (str "10.0.0.1") (rounds udp)
      { client := c, conn := cs.1, shared := cs.2, server := s }).map fun q =>
        (q.1, handledFor 1 q.2.server.world.log)
  | _ => none

/-- The client sees a refusal, then nothing, then its message repeated. -/
example : ∀ udp ∈ [false, true], talk udp = some
    ([([], some (.remote "failed to read data" 2 (str "failed to handle message"))),
      ([], some (.wrap "failed to read data from buffer" .eof)), (str "three", some .eof)],
     [(str "!one", .error (.other "no")), (str " two", .reply []), (str "three", .reply (str "three"))]) := by
  decide +kernel

end HandlerExample

end Goe2ee
