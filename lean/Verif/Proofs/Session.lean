import Verif.Proofs.Seq
import Verif.Proofs.Once
import Verif.Proofs.Isolation
import Verif.Props.Keys

/-!
# What the handlers do with sessions, one request at a time
-/

set_option autoImplicit false

namespace Goe2ee

section
variable {C : Crypto}

/-- Nothing changed but the clock. -/
structure OnlyTime (w w' : World) : Prop where
  heap : w'.heap = w.heap
  table : w'.table = w.table
  log : w'.log = w.log

theorem OnlyTime.refl (w : World) : OnlyTime w w := ⟨rfl, rfl, rfl⟩

theorem OnlyTime.trans {a b c : World} (h : OnlyTime a b) (h' : OnlyTime b c) : OnlyTime a c :=
  ⟨h'.heap.trans h.heap, h'.table.trans h.table, h'.log.trans h.log⟩

theorem execWrite_onlyTime (a : Answer C) (bs : Bytes) (c : Conn) (w : World) :
    OnlyTime w (execWrite C a bs c w).2.2 := by
  refine ⟨?_, ?_, ?_⟩ <;>
  · simp only [execWrite]
    split
    · rfl
    · split
      · split <;> rfl
      · rfl

/-- Writing changes nothing but the connection and the clock. -/
theorem run_writes {α : Type} {p : SProg C α} (hp : Uses (S := SSig C) SOp.isWrite p) (timeout : Nat)
    (ans : Nat → Answer C) (s : Seq) :
    OnlyTime s.world (p.run (seqI C timeout ans) s).2.world := by
  refine hp.run (seqI C timeout ans) (fun s' => OnlyTime s.world s'.world) (fun o s' ho h => ?_) s
    (.refl _)
  cases o with
  | write bs => exact h.trans (execWrite_onlyTime _ _ _ _)
  | _ => exact ho.elim

theorem run_failWith_world (code : ErrorCode) (text : String) (timeout : Nat) (ans : Nat → Answer C)
    (s : Seq) : OnlyTime s.world ((failWith code text).run (seqI C timeout ans) s).2.world :=
  run_writes (uses_failWith code text) timeout ans s

theorem run_respondWith_world (bs : Bytes) (timeout : Nat) (ans : Nat → Answer C)
    (s : Seq) : OnlyTime s.world ((respondWith bs).run (seqI C timeout ans) s).2.world :=
  run_writes (uses_respondWith bs) timeout ans s

/-- `failWith` writes the error response and nothing else. -/
theorem run_failWith_writes (code : ErrorCode) (text : String) (timeout : Nat) (ans : Nat → Answer C)
    (s : Seq) : ∃ n e, ((failWith code text).run (seqI C timeout ans) s).2.conn.writes =
      s.conn.writes ++ [(errorBytes code text, n, e)] := by
  simp only [failWith, writeErrorResponse, Prog.bind, Prog.run]
  rw [seqI_other _ _ _ id]
  simp only [exec]
  rcases hr : execWrite C (ans s.pos) (errorBytes code text) s.conn s.world with ⟨⟨n, e⟩, c, w⟩
  have hw : c.writes = s.conn.writes ++ [(errorBytes code text, n, e)] := by
    have := congrArg (fun x => x.2.1.writes) hr
    have h2 := congrArg Prod.fst hr
    rw [← show c.writes = c.writes from rfl]
    simp only [execWrite] at this h2
    rw [← this, h2]
  refine ⟨n, e, ?_⟩
  rcases e with _ | e
  · dsimp only
    split <;> exact hw
  · exact hw

/-- `respondWith` writes the response first. -/
theorem run_respondWith_writes (bs : Bytes) (timeout : Nat) (ans : Nat → Answer C) (s : Seq) :
    ∃ n e ws, ((respondWith bs).run (seqI C timeout ans) s).2.conn.writes =
      s.conn.writes ++ (bs, n, e) :: ws := by
  simp only [respondWith, writeResponse, Prog.bind, Prog.run]
  rw [seqI_other _ _ _ id]
  simp only [exec]
  rcases hr : execWrite C (ans s.pos) bs s.conn s.world with ⟨⟨n, e⟩, c, w⟩
  have hw : c.writes = s.conn.writes ++ [(bs, n, e)] := by
    have := congrArg (fun x => x.2.1.writes) hr
    have h2 := congrArg Prod.fst hr
    rw [← show c.writes = c.writes from rfl]
    simp only [execWrite] at this h2
    rw [← this, h2]
  rcases e with _ | e
  · refine ⟨n, none, [], ?_⟩
    dsimp only
    split <;> exact hw
  · dsimp only
    split
    · exact ⟨n, some e, [], hw⟩
    · split
      · exact ⟨n, some e, [], hw⟩
      · have := run_failWith_writes codeServerError "failed to send back action response" timeout ans
          { conn := c, world := w, pos := s.pos + 1 }
        obtain ⟨n', e', h⟩ := this
        refine ⟨n, some e, [(errorBytes codeServerError "failed to send back action response", n', e')], ?_⟩
        rw [show s.conn.writes ++ [(bs, n, some e),
            (errorBytes codeServerError "failed to send back action response", n', e')] =
          (s.conn.writes ++ [(bs, n, some e)]) ++
            [(errorBytes codeServerError "failed to send back action response", n', e')] by simp, ← hw]
        exact h

/-! ## Process requests -/

/-- The shared state after the session was looked up and the counter accepted. -/
def World.acceptedBy (w : World) (k : Bytes) (r : Ref) (now : Nat) (secret : Bytes)
    (window : ReplayWindow) (c : BitVec 64) : World :=
  { w with
    now
    table := fun k' => if k' = k then some (r, now) else w.table k'
    heap := w.heap.set r (secret, (window.checkAndUpdate c).2)
    log := w.log ++ [.accepted r c] }

/-- An unknown client is told so, and nothing changes. -/
theorem run_process_unknown (timeout : Nat) (ans : Nat → Answer C) (host : Bytes)
    (request : ProcessRequest) (s : Seq)
    (ht : s.world.table (sessionKey C host request.id) = none) :
    (processParsed (inMemory C) (.ok host) request).run (seqI C timeout ans) s =
      (failWith codeUnknownClient "could not find a shared secret matching the given ID").run
        (seqI C timeout ans) { s with pos := s.pos + 1 } := by
  simp only [processParsed, inMemory, inMemoryLoad, Prog.bind, Prog.run, seqI, exec, ht]

/-- A counter that is not fresh is refused. -/
theorem run_process_replay (timeout : Nat) (ans : Nat → Answer C) (host : Bytes)
    (request : ProcessRequest) (s : Seq) (r : Ref) (t : Nat) (secret : Bytes) (window : ReplayWindow)
    (ht : s.world.table (sessionKey C host request.id) = some (r, t))
    (hh : s.world.heap[r]? = some (secret, window))
    (hc : (window.checkAndUpdate request.counter).1 = false) :
    ∃ now pos, (processParsed (inMemory C) (.ok host) request).run (seqI C timeout ans) s =
      (failWith codeReplayDetected "message counter was already seen or is too old").run
        (seqI C timeout ans)
        { conn := s.conn, pos, world := { s.world with
            now, table := fun k' => if k' = sessionKey C host request.id then some (r, now)
              else s.world.table k' } } := by
  refine ⟨s.world.now + (ans (s.pos + 1)).tick, s.pos + 4, ?_⟩
  simp only [processParsed, inMemory, inMemoryLoad, Prog.bind, Prog.run, seqI, exec, ht, hh, hc,
    checkAndUpdate_rejected _ _ hc, set_same hh]
  rfl

/-- A fresh counter is accepted, then the message is decrypted. -/
theorem run_process_known (hC : C.Lawful) (timeout : Nat) (ans : Nat → Answer C) (host : Bytes)
    (request : ProcessRequest) (s : Seq) (r : Ref) (t : Nat) (secret key : Bytes)
    (window : ReplayWindow)
    (ht : s.world.table (sessionKey C host request.id) = some (r, t))
    (hh : s.world.heap[r]? = some (secret, window))
    (hc : (window.checkAndUpdate request.counter).1 = true)
    (hk : deriveKey C secret kdfInfo aesKeySize = .ok key) :
    ∃ now, now = s.world.now + (ans (s.pos + 1)).tick ∧
      (processParsed (inMemory C) (.ok host) request).run (seqI C timeout ans) s =
      (match C.aeadOpen key (Wire.nonce12 0 request.counter.toNat) request.message with
        | none => failWith codeServerError "failed to decrypt message"
        | some message => runHandler r host request key message).run (seqI C timeout ans)
        { conn := s.conn, pos := s.pos + 5,
          world := s.world.acceptedBy (sessionKey C host request.id) r now secret window
            request.counter } := by
  obtain ⟨key', h1, -, h3, h4⟩ := C55_aead_key C hC secret
  rw [hk] at h1
  cases h1
  have hlt := (List.getElem?_eq_some_iff.mp hh).1
  have hget : ((s.world.heap.set r (secret, (window.checkAndUpdate request.counter).2)).getD r
      ([], .fresh)).1 = secret := by
    rw [List.getD_eq_getElem?_getD, List.getElem?_set_self hlt]; rfl
  refine ⟨s.world.now + (ans (s.pos + 1)).tick, rfl, ?_⟩
  simp only [processParsed, inMemory, inMemoryLoad, Prog.bind, Prog.run, seqI, exec, ht, hh, hc,
    if_true, hget, hk, h3, h4]
  rw [show gcmNonceSize = 12 from rfl, C12_nonce_layout]
  rfl

/-- More events. -/
def World.logged (w : World) (es : List Event) : World := { w with log := w.log ++ es }

theorem World.logged_logged (w : World) (a b : List Event) : (w.logged a).logged b = w.logged (a ++ b) := by
  simp [World.logged]

/-- The encryption the handler's result leads to. -/
def replyEvents (r : Ref) (key : Bytes) (c : BitVec 64) (expectReply : Bool) : HRes → List Event
  | .reply written => if expectReply then [.sealed r key (Wire.nonce12 1 c.toNat) written] else []
  | _ => []

/-- The events of a call of the application. -/
def callEvents (r : Ref) (host : Bytes) (request : ProcessRequest) (key message : Bytes) (res : HRes) :
    List Event :=
  [.invoked r request.counter host request.id.val message res] ++
    replyEvents r key request.counter request.expectReply res

/-- Calling the application. -/
theorem run_runHandler (timeout : Nat) (ans : Nat → Answer C) (r : Ref) (host : Bytes)
    (request : ProcessRequest) (key message : Bytes) (s : Seq) :
    OnlyTime (s.world.logged (callEvents r host request key message (ans s.pos).handle))
      ((runHandler r host request key message).run (seqI C timeout ans) s).2.world ∧
    (∀ written, (ans s.pos).handle = .reply written → request.expectReply = true →
      ∃ n e ws, ((runHandler r host request key message).run (seqI C timeout ans) s).2.conn.writes =
        s.conn.writes ++ (Wire.processResponse request.counter.toNat
          (C.aeadSeal key (Wire.nonce12 1 request.counter.toNat) written), n, e) :: ws) := by
  constructor
  · simp only [runHandler, Prog.run, seqI, exec]
    cases hh : (ans s.pos).handle with
    | panic m => exact ⟨rfl, rfl, rfl⟩
    | error e =>
      exact run_failWith_world (C := C) _ _ timeout ans ⟨s.conn, s.world.logged
        [.invoked r request.counter host request.id.val message (.error e)], s.pos + 1⟩
    | reply written =>
      dsimp only
      cases her : request.expectReply with
      | false =>
        refine ⟨rfl, rfl, ?_⟩
        simp [World.logged, callEvents, replyEvents, her]
        rfl
      | true =>
        simp only [if_true]
        rw [show gcmNonceSize = 12 from rfl, C12_nonce_layout]
        have := run_respondWith_world (C := C) (newProcessResponse request.counter
            (C.aeadSeal key (Wire.nonce12 directionServerToClient request.counter.toNat) written)).bytes
          timeout ans ⟨s.conn, (s.world.logged
              [.invoked r request.counter host request.id.val message (.reply written)]).logged
              [.sealed r key (Wire.nonce12 directionServerToClient request.counter.toNat) written],
            s.pos + 1 + 1⟩
        refine ⟨this.heap, this.table, this.log.trans ?_⟩
        simp [World.logged, callEvents, replyEvents, her, directionServerToClient]
  · intro written hw her
    simp only [runHandler, Prog.run, seqI, exec, hw, her, if_true]
    rw [show gcmNonceSize = 12 from rfl, C12_nonce_layout]
    obtain ⟨n, e, ws, h⟩ := run_respondWith_writes (C := C) (newProcessResponse request.counter
        (C.aeadSeal key (Wire.nonce12 directionServerToClient request.counter.toNat) written)).bytes
      timeout ans ⟨s.conn, (s.world.logged
          [.invoked r request.counter host request.id.val message (.reply written)]).logged
          [.sealed r key (Wire.nonce12 directionServerToClient request.counter.toNat) written],
        s.pos + 1 + 1⟩
    refine ⟨n, e, ws, ?_⟩
    rw [← processResponse_bytes]
    exact h

/-! ## Setup requests -/

/-- The shared state after a session was stored. -/
def World.stored (w : World) (k : Bytes) (secret host id : Bytes) (now : Nat) : World :=
  { w with
    now
    heap := w.heap ++ [(secret, .fresh)]
    table := fun k' => if k' = k then some (w.heap.length, now) else w.table k'
    log := w.log ++ [.established w.heap.length host id] }

/-- A setup request that fails before a session is stored. -/
theorem run_setup_refused (M : Manager C) (timeout : Nat) (ans : Nat → Answer C) (host : Except Err Bytes)
    (request : SetupRequest C) (s : Seq)
    (h : (∃ e, (ans s.pos).genKey = .error e) ∨
      (∃ k e, (ans s.pos).genKey = .ok k ∧ C.ecdh k request.publicKey = .error e) ∨
      ∃ e, host = .error e) :
    ∃ code text, (setupParsed M host request).run (seqI C timeout ans) s =
      (failWith code text).run (seqI C timeout ans) { s with pos := s.pos + 1 } := by
  simp only [setupParsed, Prog.run, seqI, exec]
  cases hg : (ans s.pos).genKey with
  | error e => exact ⟨_, _, rfl⟩
  | ok k =>
    dsimp only
    cases he : C.ecdh k request.publicKey with
    | error e => exact ⟨_, _, rfl⟩
    | ok secret =>
      rcases h with ⟨e, h⟩ | ⟨k', e, h1, h2⟩ | ⟨e, rfl⟩
      · rw [hg] at h; cases h
      · rw [hg] at h1; cases h1; rw [he] at h2; cases h2
      · exact ⟨_, _, rfl⟩

/-- A setup request that gets as far as storing its session. -/
theorem run_setup_stored (timeout : Nat) (ans : Nat → Answer C) (host : Bytes)
    (request : SetupRequest C) (s : Seq) (k : C.EPriv) (secret : Bytes)
    (hg : (ans s.pos).genKey = .ok k) (he : C.ecdh k request.publicKey = .ok secret) :
    ∃ now, now = s.world.now + (ans (s.pos + 2)).tick ∧
      (setupParsed (inMemory C) (.ok host) request).run (seqI C timeout ans) s =
      (match (ans (s.pos + 4)).sign 7 (setupTranscript C request.publicKey (C.epub k) request.id) with
        | .error _ => failWith codeServerError "failed to sign response"
        | .ok signature => respondWith ((newSetupResponse C (C.epub k)).setSignature 4 signature).bytes
        ).run (seqI C timeout ans)
        { conn := s.conn, pos := s.pos + 5,
          world := s.world.stored (sessionKey C host request.id) secret host request.id.val now } := by
  refine ⟨s.world.now + (ans (s.pos + 2)).tick, rfl, ?_⟩
  simp only [setupParsed, inMemory, inMemoryStore, Prog.bind, Prog.run, seqI, exec, hg, he]
  rfl

end

end Goe2ee
