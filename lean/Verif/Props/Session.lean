import Verif.Props.Nonce
import Verif.Proofs.Session
import Verif.Props.Once

/-!
# C19, C20, C31, C32, C33: sessions

`Reachable C w` says that `w` is the shared state of a server (with the in-memory session manager)
after an arbitrary schedule and arbitrary traffic; `serveOne` serves one more request.
-/

set_option autoImplicit false

namespace Goe2ee

variable {C : Crypto}

/-- The replay windows of a reachable state represent the accepted counters. -/
theorem Reachable.windows {w : World} (h : Reachable C w) :
    (∀ (r : Nat) x, w.heap[r]? = some x → Represents x.2 (acceptedOf r w.log)) ∧
    (∀ r c, .accepted r c ∈ w.log → r < w.heap.length) := by
  obtain ⟨timeout, ttl, closers, acts, rfl⟩ := h
  obtain ⟨gs, h⟩ := run_inv (inMemory_passive C) timeout acts _ _ (start_inv (C := C) ttl closers)
  exact ⟨h.world.win, h.world.ref⟩

theorem Reachable.files {w : World} (h : Reachable C w) : ∃ gs, FileInv C w gs := by
  obtain ⟨timeout, ttl, closers, acts, rfl⟩ := h
  exact file_run timeout ttl closers acts

theorem serveOne_process (hC : C.Lawful) (timeout : Nat) (ans : Nat → Answer C) (host : Bytes)
    (s : Seq) (expectReply : Bool) (id : ID) (counter : BitVec 64) (ciphertext : Bytes)
    (rest : List (Byte ⊕ Err)) (hl : ciphertext.length ≤ 2 ^ 30)
    (h : Delivers s.conn.input (Req.wire (C := C) (.process expectReply id counter ciphertext)) rest) :
    ∃ evs, serveOne timeout ans host s =
      ((processParsed (inMemory C) (.ok host) (parsedProcess expectReply id counter ciphertext)).run
        (seqI C timeout ans) { s with conn := { s.conn with input := evs } }).2 := by
  obtain ⟨evs, -, h2⟩ := run_serveRequest hC timeout ans (inMemory C) (.ok host)
    (.process expectReply id counter ciphertext) hl s rest h
  refine ⟨evs, ?_⟩
  rw [serveOne, h2, Prog.run_bind]
  dsimp only [afterParse]
  split
  · rename_i err s' hr
    rw [hr]
    cases err <;> rfl
  · rename_i hr
    rw [hr]

theorem serveOne_setup (hC : C.Lawful) (timeout : Nat) (ans : Nat → Answer C) (host : Bytes)
    (s : Seq) (id : ID) (clientKey : C.EPub) (rest : List (Byte ⊕ Err))
    (h : Delivers s.conn.input (Req.wire (C := C) (.setup id clientKey)) rest) :
    ∃ evs, serveOne timeout ans host s =
      ((setupParsed (inMemory C) (.ok host) (parsedSetup C id clientKey)).run
        (seqI C timeout ans) { s with conn := { s.conn with input := evs } }).2 := by
  obtain ⟨evs, -, h2⟩ := run_serveRequest hC timeout ans (inMemory C) (.ok host)
    (.setup id clientKey) trivial s rest h
  refine ⟨evs, ?_⟩
  rw [serveOne, h2, Prog.run_bind]
  dsimp only [afterParse]
  split
  · rename_i err s' hr
    rw [hr]
    cases err <;> rfl
  · rename_i hr
    rw [hr]

/-! ## C19 -/

/-- Delivery, from a window that represents the accepted counters. -/
theorem delivered (hC : C.Lawful) (timeout : Nat) (ans : Nat → Answer C) (host : Bytes)
    (s : Seq) (expectReply : Bool) (id : ID) (counter : BitVec 64) (ciphertext : Bytes)
    (rest : List (Byte ⊕ Err)) (hl : ciphertext.length ≤ 2 ^ 30)
    (h : Delivers s.conn.input (Req.wire (C := C) (.process expectReply id counter ciphertext)) rest)
    (r : Ref) (t : Nat) (secret key message : Bytes) (window : ReplayWindow) (acc : List Nat)
    (ht : s.world.table (sessionKey C host id) = some (r, t))
    (hh : s.world.heap[r]? = some (secret, window)) (hwin : Represents window acc)
    (hfresh : Fresh acc counter.toNat)
    (hk : deriveKey C secret kdfInfo aesKeySize = .ok key)
    (hopen : C.aeadOpen key (Wire.nonce12 0 counter.toNat) ciphertext = some message) :
    ∃ result, (serveOne timeout ans host s).world.log =
        s.world.log ++ [.accepted r counter, .invoked r counter host id.val message result] ++
          replyEvents r key counter expectReply result ∧
      ∀ written, result = .reply written → expectReply = true →
        ∃ n e ws, (serveOne timeout ans host s).conn.writes = s.conn.writes ++
          (Wire.processResponse counter.toNat
            (C.aeadSeal key (Wire.nonce12 1 counter.toNat) written), n, e) :: ws := by
  obtain ⟨evs, h1⟩ := serveOne_process hC timeout ans host s expectReply id counter ciphertext rest hl h
  have hc : (window.checkAndUpdate counter).1 = true :=
    (checkAndUpdate_spec window acc hwin counter).1.mpr hfresh
  obtain ⟨now, -, h2⟩ := run_process_known hC timeout ans host
    (parsedProcess expectReply id counter ciphertext)
    { s with conn := { s.conn with input := evs } } r t secret key window ht hh hc hk
  rw [show (parsedProcess expectReply id counter ciphertext).message = ciphertext from rfl,
    show (parsedProcess expectReply id counter ciphertext).counter = counter from rfl, hopen] at h2
  rw [h1, h2]
  obtain ⟨h3, h4⟩ := run_runHandler timeout ans r host (parsedProcess expectReply id counter ciphertext)
    key message ⟨{ s.conn with input := evs },
      s.world.acceptedBy (sessionKey C host id) r now secret window counter, s.pos + 5⟩
  refine ⟨(ans (s.pos + 5)).handle, h3.log.trans ?_, h4⟩
  simp [World.logged, World.acceptedBy, callEvents, parsedProcess]

/-- **C19.** In every reachable state: if a session is stored for (host, id), a process message from
there that decrypts under the session's key, with a counter that is fresh — not zero, not accepted
before, less than 64 behind the largest accepted one — is handed to the application handler, whatever
arrived before and in whatever order.  A reply is encrypted and sent. -/
theorem C19_fresh_messages_are_delivered (hC : C.Lawful) (timeout : Nat) (ans : Nat → Answer C)
    (host : Bytes) (s : Seq) (hs : Reachable C s.world) (expectReply : Bool) (id : ID)
    (counter : BitVec 64) (ciphertext : Bytes) (rest : List (Byte ⊕ Err))
    (hl : ciphertext.length ≤ 2 ^ 30)
    (h : Delivers s.conn.input (Wire.processRequest expectReply id.val counter.toNat ciphertext) rest)
    (r : Ref) (t : Nat) (secret key message : Bytes) (window : ReplayWindow)
    (ht : s.world.table (sessionKey C host id) = some (r, t))
    (hh : s.world.heap[r]? = some (secret, window))
    (hfresh : Fresh (acceptedOf r s.world.log) counter.toNat)
    (hk : deriveKey C secret kdfInfo aesKeySize = .ok key)
    (hopen : C.aeadOpen key (Wire.nonce12 0 counter.toNat) ciphertext = some message) :
    ∃ result, (serveOne timeout ans host s).world.log =
        s.world.log ++ [.accepted r counter, .invoked r counter host id.val message result] ++
          replyEvents r key counter expectReply result ∧
      ∀ written, result = .reply written → expectReply = true →
        ∃ n e ws, (serveOne timeout ans host s).conn.writes = s.conn.writes ++
          (Wire.processResponse counter.toNat
            (C.aeadSeal key (Wire.nonce12 1 counter.toNat) written), n, e) :: ws :=
  delivered hC timeout ans host s expectReply id counter ciphertext rest hl h r t secret key message
    window _ ht hh (hs.windows.1 r _ hh) hfresh hk hopen

/-- The session that (host, id) is served with exists: the hypothesis `hh` above is no restriction. -/
theorem stored_session_exists (s : Seq) (hs : Reachable C s.world) (k : Bytes) (r : Ref) (t : Nat)
    (ht : s.world.table k = some (r, t)) :
    ∃ secret window, s.world.heap[r]? = some (secret, window) := by
  obtain ⟨gs, hf⟩ := hs.files
  obtain ⟨host, id, he, -⟩ := hf.table k r t ht
  exact ⟨_, _, List.getElem?_eq_getElem (hf.born r host id he).1⟩

/-! ## C20 -/

/-- The claim: a process request that does not decrypt leaves the session able to accept every
genuine message that it could have accepted before. -/
def C20_claim : Prop :=
  ∀ (C : Crypto) (timeout : Nat) (ans : Nat → Answer C) (host host' : Bytes) (s s₂ : Seq)
    (reply reply' : Bool) (id : ID) (counter counter' : BitVec 64) (ciphertext ciphertext' : Bytes)
    (rest rest' : List (Byte ⊕ Err)) (r : Ref) (t : Nat) (secret key message : Bytes)
    (window : ReplayWindow),
    C.Lawful → Reachable C s.world → ciphertext.length ≤ 2 ^ 30 → ciphertext'.length ≤ 2 ^ 30 →
    s.world.table (sessionKey C host id) = some (r, t) →
    s.world.heap[r]? = some (secret, window) →
    deriveKey C secret kdfInfo aesKeySize = .ok key →
    -- the forged request, from any host
    Delivers s.conn.input (Wire.processRequest reply' id.val counter'.toNat ciphertext') rest' →
    C.aeadOpen key (Wire.nonce12 0 counter'.toNat) ciphertext' = none →
    -- then the genuine one
    s₂.world = (serveOne timeout ans host' s).world →
    Delivers s₂.conn.input (Wire.processRequest reply id.val counter.toNat ciphertext) rest →
    C.aeadOpen key (Wire.nonce12 0 counter.toNat) ciphertext = some message →
    Fresh (acceptedOf r s.world.log) counter.toNat →
    ∃ result, .invoked r counter host id.val message result ∈ (serveOne timeout ans host s₂).world.log

/-- What a request that does not decrypt does to the server. -/
theorem forged (hC : C.Lawful) (timeout : Nat) (ans : Nat → Answer C) (host : Bytes)
    (s : Seq) (expectReply : Bool) (id : ID) (counter : BitVec 64) (ciphertext : Bytes)
    (rest : List (Byte ⊕ Err)) (hl : ciphertext.length ≤ 2 ^ 30)
    (h : Delivers s.conn.input (Req.wire (C := C) (.process expectReply id counter ciphertext)) rest)
    (r : Ref) (t : Nat) (secret key : Bytes) (window : ReplayWindow) (acc : List Nat)
    (ht : s.world.table (sessionKey C host id) = some (r, t))
    (hh : s.world.heap[r]? = some (secret, window)) (hwin : Represents window acc)
    (hk : deriveKey C secret kdfInfo aesKeySize = .ok key)
    (hopen : C.aeadOpen key (Wire.nonce12 0 counter.toNat) ciphertext = none) :
    ∃ window' now, (serveOne timeout ans host s).world.heap[r]? = some (secret, window') ∧
      (serveOne timeout ans host s).world.table (sessionKey C host id) = some (r, now) ∧
      ((Fresh acc counter.toNat ∧ Represents window' (counter.toNat :: acc)) ∨
        (¬ Fresh acc counter.toNat ∧ window' = window)) ∧
      (serveOne timeout ans host s).world.log = s.world.log ++
        (if Fresh acc counter.toNat then [.accepted r counter] else []) := by
  obtain ⟨evs, h1⟩ := serveOne_process hC timeout ans host s expectReply id counter ciphertext rest hl h
  have hspec := checkAndUpdate_spec window acc hwin counter
  rw [h1]
  by_cases hf : Fresh acc counter.toNat
  · have hc := hspec.1.mpr hf
    obtain ⟨now, -, h2⟩ := run_process_known hC timeout ans host
      (parsedProcess expectReply id counter ciphertext)
      { s with conn := { s.conn with input := evs } } r t secret key window ht hh hc hk
    rw [show (parsedProcess expectReply id counter ciphertext).message = ciphertext from rfl,
      show (parsedProcess expectReply id counter ciphertext).counter = counter from rfl, hopen] at h2
    rw [h2]
    obtain ⟨e1, e2, e3⟩ := run_failWith_world (C := C) codeServerError "failed to decrypt message" timeout
      ans ⟨{ s.conn with input := evs },
        s.world.acceptedBy (sessionKey C host id) r now secret window counter, s.pos + 5⟩
    refine ⟨(window.checkAndUpdate counter).2, now, ?_, ?_, .inl ⟨hf, hspec.2.1 hc⟩, ?_⟩
    · refine (congrArg (fun l : List (Bytes × ReplayWindow) => l[r]?) e1).trans ?_
      exact List.getElem?_set_self (List.getElem?_eq_some_iff.mp hh).1
    · refine (congrFun e2 _).trans ?_
      simp [World.acceptedBy]
    · rw [if_pos hf]; exact e3
  · have hc : (window.checkAndUpdate counter).1 = false := by
      rcases hb : (window.checkAndUpdate counter).1 with _ | _
      · rfl
      · exact absurd (hspec.1.mp hb) hf
    obtain ⟨now, pos, h2⟩ := run_process_replay timeout ans host
      (parsedProcess expectReply id counter ciphertext)
      { s with conn := { s.conn with input := evs } } r t secret window ht hh hc
    rw [h2]
    obtain ⟨e1, e2, e3⟩ := run_failWith_world (C := C) codeReplayDetected
      "message counter was already seen or is too old" timeout ans
      ⟨{ s.conn with input := evs }, { s.world with
        now := now, table := fun k' => if k' = sessionKey C host id then some (r, now)
          else s.world.table k' }, pos⟩
    refine ⟨window, now, ?_, ?_, .inr ⟨hf, rfl⟩, ?_⟩
    · exact (congrArg (fun l : List (Bytes × ReplayWindow) => l[r]?) e1).trans hh
    · refine (congrFun e2 _).trans ?_
      simp
    · rw [if_neg hf, List.append_nil]; exact e3

/-- **C20** as far as it is true of the code: a request that does not decrypt never reaches the
application; it only marks its own counter as seen.  A genuine message whose counter is fresh even so
— in particular one with a larger counter, or with a smaller one if the forged counter is less than
64 ahead — is still delivered.  Missing: the counter is checked before decryption, so a forged
request with the same counter, or one that is 64 or more ahead, makes the server refuse the genuine
message (`C20_forged_counter_blocks`). -/
theorem C20_forged_request_partial (hC : C.Lawful) (timeout : Nat) (ans : Nat → Answer C)
    (host : Bytes) (s s₂ : Seq) (hs : Reachable C s.world) (reply reply' : Bool) (id : ID)
    (counter counter' : BitVec 64) (ciphertext ciphertext' : Bytes) (rest rest' : List (Byte ⊕ Err))
    (hl : ciphertext.length ≤ 2 ^ 30) (hl' : ciphertext'.length ≤ 2 ^ 30)
    (r : Ref) (t : Nat) (secret key message : Bytes) (window : ReplayWindow)
    (ht : s.world.table (sessionKey C host id) = some (r, t))
    (hh : s.world.heap[r]? = some (secret, window))
    (hk : deriveKey C secret kdfInfo aesKeySize = .ok key)
    (hin' : Delivers s.conn.input (Wire.processRequest reply' id.val counter'.toNat ciphertext') rest')
    (hopen' : C.aeadOpen key (Wire.nonce12 0 counter'.toNat) ciphertext' = none)
    (hw : s₂.world = (serveOne timeout ans host s).world)
    (hin : Delivers s₂.conn.input (Wire.processRequest reply id.val counter.toNat ciphertext) rest)
    (hopen : C.aeadOpen key (Wire.nonce12 0 counter.toNat) ciphertext = some message)
    (hfresh : Fresh (acceptedOf r s.world.log) counter.toNat)
    (hfresh' : Fresh (acceptedOf r s.world.log) counter'.toNat →
      Fresh (counter'.toNat :: acceptedOf r s.world.log) counter.toNat) :
    (handled s₂.world.log = handled s.world.log) ∧
    ∃ result, .invoked r counter host id.val message result ∈ (serveOne timeout ans host s₂).world.log := by
  obtain ⟨window', now, e1, e2, e3, e4⟩ := forged hC timeout ans host s reply' id counter' ciphertext'
    rest' hl' hin' r t secret key window _ ht hh (hs.windows.1 r _ hh) hk hopen'
  rw [← hw] at e1 e2 e4
  refine ⟨?_, ?_⟩
  · rw [e4, handled, List.filterMap_append]
    split <;> simp [handled]
  · rcases e3 with ⟨hf, hrep⟩ | ⟨hf, rfl⟩
    · obtain ⟨result, hlog, -⟩ := delivered hC timeout ans host s₂ reply id counter ciphertext rest hl hin
        r now secret key message window' _ e2 e1 hrep (hfresh' hf) hk hopen
      exact ⟨result, by rw [hlog]; simp⟩
    · obtain ⟨result, hlog, -⟩ := delivered hC timeout ans host s₂ reply id counter ciphertext rest hl hin
        r now secret key message window' _ e2 e1 (hs.windows.1 r _ hh) hfresh hk hopen
      exact ⟨result, by rw [hlog]; simp⟩

/-! ## A concrete server -/

namespace SessionExample
open OnceExample

/-- One client has set up a session. -/
def world : World :=
  (Sys.run (inMemory Toy.crypto) 5000 (Sys.start 0 0)
    (List.replicate 4 (0, answer (.ok (.tcp (.ok (str "10.0.0.1")) [.data setup]))) ++
     List.replicate 20 (2, answer (.error .eof)))).world

theorem key_ok : deriveKey Toy.crypto (beEnc 32 14) kdfInfo aesKeySize = .ok key := by
  have h : (deriveKey Toy.crypto (beEnc 32 14) kdfInfo aesKeySize).toOption.isSome = true := by
    decide +kernel
  unfold key
  cases hk : deriveKey Toy.crypto (beEnc 32 14) kdfInfo aesKeySize with
  | ok k => rfl
  | error e => rw [hk] at h; simp [Except.toOption] at h

theorem reachable : Reachable Toy.crypto world := ⟨_, _, _, _, rfl⟩

/-- A connection that delivers these octets. -/
def start (w : World) (bs : Bytes) : Seq :=
  { conn := { Conn.none with input := [.data bs] }, world := w, pos := 0 }

theorem start_world (w : World) (bs : Bytes) : (start w bs).world = w := rfl

def env : Nat → Answer Toy.crypto := fun _ => answer (.error .eof)

/-- A request with the largest counter and garbage instead of a ciphertext. -/
def forgery : Bytes := Wire.processRequest true id.val (2 ^ 64 - 1) [1, 2, 3]

/-- The client's first message. -/
def genuine : Bytes :=
  Wire.processRequest true id.val 1 (Toy.crypto.aeadSeal key (Wire.nonce12 0 1) (str "ping"))

end SessionExample

/-- The state is not trivial: the hypotheses of C19 hold of it. -/
example :
    let s := SessionExample.start SessionExample.world SessionExample.genuine
    s.world.table (sessionKey Toy.crypto (str "10.0.0.1") OnceExample.id) = some (0, 2) ∧
    s.world.heap[0]? = some (beEnc 32 14, .fresh) ∧ Fresh (acceptedOf 0 s.world.log) 1 ∧
    (serveOne 5000 SessionExample.env (str "10.0.0.1") s).world.log =
      [.established 0 (str "10.0.0.1") OnceExample.id.val, .accepted 0 1,
       .invoked 0 1 (str "10.0.0.1") OnceExample.id.val (str "ping") (.reply (str "pong")),
       .sealed 0 OnceExample.key (Wire.nonce12 1 1) (str "pong")] := by decide +kernel

/-- **C20** is false of the code: a forged request with the largest counter makes the server refuse
the client's genuine message (and all later ones). -/
theorem C20_forged_counter_blocks : ¬ C20_claim := by
  intro h
  obtain ⟨result, hr⟩ := h Toy.crypto 5000 SessionExample.env (str "10.0.0.1") (str "10.0.0.1")
    (SessionExample.start SessionExample.world SessionExample.forgery)
    (SessionExample.start
      (serveOne 5000 SessionExample.env (str "10.0.0.1")
        (SessionExample.start SessionExample.world SessionExample.forgery)).world
      SessionExample.genuine)
    true true OnceExample.id 1 (-1) (Toy.crypto.aeadSeal OnceExample.key (Wire.nonce12 0 1) (str "ping"))
    [1, 2, 3] [] [] 0 2 (beEnc 32 14) OnceExample.key (str "ping") .fresh
    Toy.lawful SessionExample.reachable (by decide +kernel) (by decide +kernel) (by decide +kernel)
    (by decide +kernel) SessionExample.key_ok
    (by unfold Delivers SessionExample.start; decide +kernel) (by decide +kernel)
    (SessionExample.start_world _ _) (by unfold Delivers SessionExample.start; decide +kernel) (by decide +kernel) (by decide +kernel)
  have hlog : (serveOne 5000 SessionExample.env (str "10.0.0.1") (SessionExample.start
      (serveOne 5000 SessionExample.env (str "10.0.0.1")
        (SessionExample.start SessionExample.world SessionExample.forgery)).world
      SessionExample.genuine)).world.log =
      [.established 0 (str "10.0.0.1") OnceExample.id.val, .accepted 0 (-1)] := by decide +kernel
  rw [hlog] at hr
  simp at hr

/-- A forged counter that is only a little ahead does no harm: `C20_forged_request_partial` applies. -/
example : Fresh [] 1 ∧ (Fresh [] 60 → Fresh (60 :: []) 1) := by decide

/-! ## C31 -/

theorem append_id_inj {a b c d : Bytes} (h : a ++ b = c ++ d) (hb : b.length = 16) (hd : d.length = 16) :
    a = c ∧ b = d := by
  have hl : a.length = c.length := by
    have := congrArg List.length h
    simp only [List.length_append] at this
    omega
  exact List.append_inj h hl

/-- Two clients filed under the same name are the same, or SHA-256 collides. -/
theorem fileName_inj {host id host' id' : Bytes} (hi : id.length = 16) (hi' : id'.length = 16)
    (h : fileName C host id = fileName C host' id') :
    (host = host' ∧ id = id') ∨ Collides C.sha256 (host ++ id) (host' ++ id') := by
  by_cases he : host ++ id = host' ++ id'
  · exact .inl (append_id_inj he hi hi')
  · exact .inr ⟨he, b64Encode_inj _ _ h⟩

/-- **C31.** Whatever the schedule and the traffic: when the application handler is called for a
process request from (host, id), the session used was created by a setup request from the same host
with the same id — unless two inputs of SHA-256 collide. -/
theorem C31_own_session {w : World} (hw : Reachable C w) (r : Ref) (c : BitVec 64)
    (host id message : Bytes) (res : HRes) (h : .invoked r c host id message res ∈ w.log) :
    ∃ host' id', .established r host' id' ∈ w.log ∧
      ((host' = host ∧ id' = id) ∨ Collides C.sha256 (host' ++ id') (host ++ id)) := by
  obtain ⟨gs, hf⟩ := hw.files
  obtain ⟨hid, host', id', he, hk⟩ := hf.calls r c host id message res h
  exact ⟨host', id', he, fileName_inj (hf.born r host' id' he).2 hid hk.symm⟩

/-- **C31.** Two clients are never served with the same session, unless two inputs of SHA-256
collide. -/
theorem C31_no_shared_session {w : World} (hw : Reachable C w) (r : Ref) (c c' : BitVec 64)
    (host id host' id' message message' : Bytes) (res res' : HRes)
    (h : .invoked r c host id message res ∈ w.log) (h' : .invoked r c' host' id' message' res' ∈ w.log) :
    (host = host' ∧ id = id') ∨ ∃ a b, Collides C.sha256 a b := by
  obtain ⟨gs, hf⟩ := hw.files
  obtain ⟨h1, i1, e1, k1⟩ := C31_own_session hw r c host id message res h
  obtain ⟨h2, i2, e2, k2⟩ := C31_own_session hw r c' host' id' message' res' h'
  obtain ⟨rfl, rfl⟩ := hf.once r h1 i1 h2 i2 e1 e2
  rcases k1 with ⟨rfl, rfl⟩ | hc
  · rcases k2 with ⟨rfl, rfl⟩ | hc
    · exact .inl ⟨rfl, rfl⟩
    · exact .inr ⟨_, _, hc⟩
  · exact .inr ⟨_, _, hc⟩

/-- **C31.** A process request from (host, id) for which no setup request ever succeeded is answered
with an Unknown-client error (code 3), and changes no session, no counter, and calls no handler. -/
theorem C31_unknown_client (hC : C.Lawful) (timeout : Nat) (ans : Nat → Answer C) (host : Bytes)
    (s : Seq) (hs : Reachable C s.world) (expectReply : Bool) (id : ID) (counter : BitVec 64)
    (ciphertext : Bytes) (rest : List (Byte ⊕ Err)) (hl : ciphertext.length ≤ 2 ^ 30)
    (h : Delivers s.conn.input (Wire.processRequest expectReply id.val counter.toNat ciphertext) rest)
    (hnone : ∀ r host' id', .established r host' id' ∈ s.world.log →
      C.sha256 (host' ++ id') ≠ C.sha256 (host ++ id.val)) :
    (serveOne timeout ans host s).world.heap = s.world.heap ∧
    (serveOne timeout ans host s).world.table = s.world.table ∧
    (serveOne timeout ans host s).world.log = s.world.log ∧
    ∃ text n e, (serveOne timeout ans host s).conn.writes =
      s.conn.writes ++ [(Wire.errorResponse 3 text, n, e)] := by
  obtain ⟨gs, hf⟩ := hs.files
  have ht : s.world.table (sessionKey C host id) = none := by
    cases ht : s.world.table (sessionKey C host id) with
    | none => rfl
    | some x =>
      obtain ⟨r, t⟩ := x
      obtain ⟨host', id', he, hk⟩ := hf.table _ r t ht
      exact absurd (b64Encode_inj _ _ hk).symm (hnone r host' id' he)
  obtain ⟨evs, h1⟩ := serveOne_process hC timeout ans host s expectReply id counter ciphertext rest hl h
  rw [h1, run_process_unknown timeout ans host (parsedProcess expectReply id counter ciphertext)
    { s with conn := { s.conn with input := evs } } ht]
  obtain ⟨e1, e2, e3⟩ := run_failWith_world (C := C) codeUnknownClient
    "could not find a shared secret matching the given ID" timeout ans
    ⟨{ s.conn with input := evs }, s.world, s.pos + 1⟩
  obtain ⟨n, e, hw⟩ := run_failWith_writes (C := C) codeUnknownClient
    "could not find a shared secret matching the given ID" timeout ans
    ⟨{ s.conn with input := evs }, s.world, s.pos + 1⟩
  refine ⟨e1, e2, e3, str "could not find a shared secret matching the given ID", n, e, ?_⟩
  refine hw.trans ?_
  rw [show errorBytes codeUnknownClient "could not find a shared secret matching the given ID" =
    Wire.errorResponse 3 (str "could not find a shared secret matching the given ID") by decide +kernel]

/-- The same id from another host: unknown. -/
example :
    let s := SessionExample.start SessionExample.world SessionExample.genuine
    (∀ r host' id', .established r host' id' ∈ s.world.log →
      Toy.crypto.sha256 (host' ++ id') ≠ Toy.crypto.sha256 (str "10.0.0.2" ++ OnceExample.id.val)) ∧
    (serveOne 5000 SessionExample.env (str "10.0.0.2") s).conn.output =
      Wire.errorResponse 3 (str "could not find a shared secret matching the given ID") := by
  refine ⟨?_, by decide +kernel⟩
  intro r host' id' hm
  have hlog : (SessionExample.start SessionExample.world SessionExample.genuine).world.log =
    [.established 0 (str "10.0.0.1") OnceExample.id.val] := by decide +kernel
  rw [hlog] at hm
  cases List.mem_singleton.mp hm
  decide +kernel

/-! ## C33 -/

/-- **C33.** After a setup request from (host, id) succeeds, (host, id) has a new session with the
shared secret of this setup and an empty replay history; every other stored session, and every
session in memory, is as before. -/
theorem C33_setup_installs (hC : C.Lawful) (timeout : Nat) (ans : Nat → Answer C) (host : Bytes)
    (s : Seq) (hs : Reachable C s.world) (id : ID) (clientKey : C.EPub) (rest : List (Byte ⊕ Err))
    (h : Delivers s.conn.input (Wire.setupRequest id.val (C.marshalEPub clientKey)) rest)
    (serverKey : C.EPriv) (secret signature : Bytes) (hg : (ans s.pos).genKey = .ok serverKey)
    (he : C.ecdh serverKey clientKey = .ok secret) (hsig : (ans (s.pos + 4)).sign 7 (Wire.transcript (C.marshalEPub clientKey)
      (C.marshalEPub (C.epub serverKey)) id.val) = .ok signature) :
    ∃ r t, (serveOne timeout ans host s).world.table (sessionKey C host id) = some (r, t) ∧
      (serveOne timeout ans host s).world.heap[r]? = some (secret, .fresh) ∧
      acceptedOf r (serveOne timeout ans host s).world.log = [] ∧
      (∀ host' id', ¬ (host' = host ∧ id' = id) →
        (serveOne timeout ans host s).world.table (sessionKey C host' id') =
          s.world.table (sessionKey C host' id') ∨
        Collides C.sha256 (host' ++ id'.val) (host ++ id.val)) ∧
      (∀ (r' : Nat) x, s.world.heap[r']? = some x →
        (serveOne timeout ans host s).world.heap[r']? = some x) := by
  obtain ⟨evs, h1⟩ := serveOne_setup hC timeout ans host s id clientKey rest h
  obtain ⟨now, -, h2⟩ := run_setup_stored timeout ans host (parsedSetup C id clientKey)
    { s with conn := { s.conn with input := evs } } serverKey secret hg he
  dsimp only at h2
  have hsig' : (ans (s.pos + 4)).sign 7 (setupTranscript C (parsedSetup C id clientKey).publicKey
      (C.epub serverKey) (parsedSetup C id clientKey).id) = .ok signature := by
    rw [C13_transcript_layout]; exact hsig
  rw [hsig'] at h2
  obtain ⟨e1, e2, e3⟩ := run_respondWith_world (C := C)
    ((newSetupResponse C (C.epub serverKey)).setSignature 4 signature).bytes timeout ans
    ⟨{ s.conn with input := evs }, s.world.stored (sessionKey C host id) secret host id.val now, s.pos + 5⟩
  have hw : OnlyTime (s.world.stored (sessionKey C host id) secret host id.val now)
      (serveOne timeout ans host s).world := by
    rw [h1, h2]
    exact ⟨e1, e2, e3⟩
  refine ⟨s.world.heap.length, now, ?_, ?_, ?_, ?_, ?_⟩
  · rw [hw.table]; simp [World.stored]
  · rw [hw.heap]; simp [World.stored]
  · rw [hw.log]
    simp only [World.stored, acceptedOf, List.filterMap_append, List.reverse_append]
    simp only [List.filterMap_cons, List.filterMap_nil, List.reverse_nil, List.nil_append,
      List.reverse_eq_nil_iff, List.filterMap_eq_nil_iff]
    intro e hm
    cases e with
    | accepted r c =>
      have := hs.windows.2 r c hm
      have hne : r ≠ s.world.heap.length := by
        intro h
        rw [h] at this
        exact Nat.lt_irrefl _ this
      simp [hne]
    | _ => rfl
  · intro host' id' hne
    rw [hw.table]
    by_cases hk : sessionKey C host' id' = sessionKey C host id
    · rcases fileName_inj id'.property id.property hk with ⟨h1, h2⟩ | hc
      · exact absurd ⟨h1, Subtype.ext h2⟩ hne
      · exact .inr hc
    · left
      simp [World.stored, hk]
  · intro r' x hx
    rw [hw.heap]
    have hlt := (List.getElem?_eq_some_iff.mp hx).1
    show (s.world.heap ++ [(secret, ReplayWindow.fresh)])[r']? = some x
    rw [List.getElem?_append_left hlt]
    exact hx

/-- **C33**, in terms of later requests: after the setup, a process message from (host, id) encrypted
with the key derived from the new secret is delivered, whatever its (non-zero) counter. -/
theorem C33_new_session_works (hC : C.Lawful) (timeout : Nat) (ans : Nat → Answer C) (host : Bytes)
    (s s₂ : Seq) (hs : Reachable C s.world) (id : ID) (clientKey : C.EPub)
    (rest rest' : List (Byte ⊕ Err))
    (h : Delivers s.conn.input (Wire.setupRequest id.val (C.marshalEPub clientKey)) rest)
    (serverKey : C.EPriv) (secret signature : Bytes) (hg : (ans s.pos).genKey = .ok serverKey)
    (he : C.ecdh serverKey clientKey = .ok secret) (hsig : (ans (s.pos + 4)).sign 7 (Wire.transcript (C.marshalEPub clientKey)
      (C.marshalEPub (C.epub serverKey)) id.val) = .ok signature)
    (hw : s₂.world = (serveOne timeout ans host s).world)
    (expectReply : Bool) (counter : BitVec 64) (ciphertext key message : Bytes)
    (hl : ciphertext.length ≤ 2 ^ 30) (hc : counter ≠ 0)
    (h' : Delivers s₂.conn.input (Wire.processRequest expectReply id.val counter.toNat ciphertext) rest')
    (hk : deriveKey C secret kdfInfo aesKeySize = .ok key)
    (hopen : C.aeadOpen key (Wire.nonce12 0 counter.toNat) ciphertext = some message) :
    ∃ r result, (serveOne timeout ans host s₂).world.log =
      s₂.world.log ++ [.accepted r counter, .invoked r counter host id.val message result] ++
        replyEvents r key counter expectReply result := by
  obtain ⟨r, t, h1, h2, h3, -, -⟩ := C33_setup_installs hC timeout ans host s hs id clientKey rest h
    serverKey secret signature hg he hsig
  rw [← hw] at h1 h2
  obtain ⟨result, hlog, -⟩ := delivered hC timeout ans host s₂ expectReply id counter ciphertext rest' hl h'
    r t secret key message .fresh [] h1 h2 represents_fresh
    ⟨fun h0 => hc (BitVec.eq_of_toNat_eq h0), by simp, by simp [largest]⟩ hk hopen
  exact ⟨r, result, hlog⟩

/-- A second setup from the same client replaces its session. -/
example :
    let s := SessionExample.start SessionExample.world OnceExample.setup
    let s' := serveOne 5000 SessionExample.env (str "10.0.0.1") s
    s'.world.table (sessionKey Toy.crypto (str "10.0.0.1") OnceExample.id) = some (1, 5) ∧
    s'.world.heap = [(beEnc 32 14, .fresh), (beEnc 32 14, .fresh)] := by decide +kernel

/-! ## C32 -/

/-- The claim: if a setup request is answered with an error, every session stored before is still
stored, with the same secret and replay history. -/
def C32_claim : Prop :=
  ∀ (C : Crypto) (timeout : Nat) (ans : Nat → Answer C) (host : Bytes) (s : Seq) (id : ID)
    (clientKey : C.EPub) (rest : List (Byte ⊕ Err)),
    C.Lawful → Reachable C s.world →
    Delivers s.conn.input (Wire.setupRequest id.val (C.marshalEPub clientKey)) rest →
    (∃ r n e, IsError r ∧
      (serveOne timeout ans host s).conn.writes = s.conn.writes ++ [(r, n, e)]) →
    ∀ k r t, s.world.table k = some (r, t) →
      (∃ t', (serveOne timeout ans host s).world.table k = some (r, t')) ∧
      (serveOne timeout ans host s).world.heap[r]? = s.world.heap[r]?

/-- **C32** is false of the code: the session is stored before the response is signed.  If signing
fails, the client is told that the setup failed, but its old session is gone. -/
theorem C32_session_stored_before_signing : ¬ C32_claim := by
  intro h
  obtain ⟨⟨t', h1⟩, -⟩ := h Toy.crypto 5000
    (fun _ => { OnceExample.answer (.error .eof) with sign := fun _ _ => .error .eof }) (str "10.0.0.1")
    (SessionExample.start SessionExample.world OnceExample.setup) OnceExample.id (5 : BitVec 256) []
    Toy.lawful SessionExample.reachable (by unfold Delivers SessionExample.start; decide +kernel)
    ⟨errorBytes codeServerError "failed to sign response",
      (errorBytes codeServerError "failed to sign response").length, none,
      isError_errorBytes _ _, by decide +kernel⟩
    (sessionKey Toy.crypto (str "10.0.0.1") OnceExample.id) 0 2 (by decide +kernel)
  have h2 : ((serveOne 5000 (fun _ => { OnceExample.answer (.error .eof) with sign := fun _ _ => .error .eof })
      (str "10.0.0.1") (SessionExample.start SessionExample.world OnceExample.setup)).world.table
      (sessionKey Toy.crypto (str "10.0.0.1") OnceExample.id)).map Prod.fst = some 1 := by decide +kernel
  rw [h1] at h2
  simp at h2

/-- **C32** for the failures before the session is stored: the key generation or the Diffie–Hellman
exchange fails.  Then nothing at all changes, and an error response is written.  Missing: failures
after the session is stored (`C32_session_stored_before_signing`). -/
theorem C32_refused_setup_partial (hC : C.Lawful) (timeout : Nat) (ans : Nat → Answer C) (host : Bytes)
    (s : Seq) (id : ID) (clientKey : C.EPub) (rest : List (Byte ⊕ Err))
    (h : Delivers s.conn.input (Wire.setupRequest id.val (C.marshalEPub clientKey)) rest)
    (hfail : (∃ e, (ans s.pos).genKey = .error e) ∨
      ∃ k e, (ans s.pos).genKey = .ok k ∧ C.ecdh k clientKey = .error e) :
    (serveOne timeout ans host s).world.heap = s.world.heap ∧
    (serveOne timeout ans host s).world.table = s.world.table ∧
    (serveOne timeout ans host s).world.log = s.world.log ∧
    ∃ r n e, IsError r ∧ (serveOne timeout ans host s).conn.writes = s.conn.writes ++ [(r, n, e)] := by
  obtain ⟨evs, h1⟩ := serveOne_setup hC timeout ans host s id clientKey rest h
  obtain ⟨code, text, h2⟩ := run_setup_refused (inMemory C) timeout ans (.ok host)
    (parsedSetup C id clientKey) { s with conn := { s.conn with input := evs } }
    (hfail.imp (fun h => h) .inl)
  rw [h1, h2]
  obtain ⟨e1, e2, e3⟩ := run_failWith_world (C := C) code text timeout ans
    ⟨{ s.conn with input := evs }, s.world, s.pos + 1⟩
  obtain ⟨n, e, hw⟩ := run_failWith_writes (C := C) code text timeout ans
    ⟨{ s.conn with input := evs }, s.world, s.pos + 1⟩
  exact ⟨e1, e2, e3, _, n, e, isError_errorBytes _ _, hw⟩

/-- **C32** for malformed setup requests: if what follows the header cannot be parsed, nothing at all
changes. -/
theorem C32_malformed_setup_partial (timeout : Nat) (ans : Nat → Answer C) (host : Bytes)
    (s : Seq) (tail rest : List (Byte ⊕ Err)) (e : Err)
    (h : flatten s.conn.input = .inl 0x12 :: tail)
    (hbad : runI (parseSetupRequest C { version := 1, action := 2 }) tail = (.val (.error e), rest)) :
    (serveOne timeout ans host s).world.heap = s.world.heap ∧
    (serveOne timeout ans host s).world.table = s.world.table ∧
    (serveOne timeout ans host s).world.log = s.world.log := by
  obtain ⟨evs1, h1, h2⟩ := run_onConn_of_runI (C := C) timeout ans (s := s) (rest := tail)
    (p := parseRequestCommon) (by rw [h]; exact runI_parseRequestCommon 0x12 _)
  obtain ⟨evs2, h3, h4⟩ := run_onConn_of_runI (C := C) timeout ans
    (s := { s with conn := { s.conn with input := evs1 } }) (rest := rest)
    (p := parseSetupRequest C { version := 1, action := 2 })
    (by rw [← hbad]; exact congrArg _ h1)
  have hrun : (serveRequest (inMemory C) (.ok host)).run (seqI C timeout ans) s =
      ((failWith codeMalformedRequest "failed to parse data of the request").bind goOn).run
        (seqI C timeout ans) { s with conn := { s.conn with input := evs2 } } := by
    rw [serveRequest_eq, Prog.run_bind, h2]
    show ((setupHandler (inMemory C) (.ok host) { version := 1, action := 2 }).bind goOn).run _ _ = _
    rw [setupHandler_eq, Prog.bind_assoc, Prog.run_bind, h4]
  obtain ⟨e1, e2, e3⟩ := run_failWith_world (C := C) codeMalformedRequest
    "failed to parse data of the request" timeout ans ⟨{ s.conn with input := evs2 }, s.world, s.pos⟩
  have hsnd : (serveOne timeout ans host s).world =
      ((failWith codeMalformedRequest "failed to parse data of the request").run
        (seqI C timeout ans) ⟨{ s.conn with input := evs2 }, s.world, s.pos⟩).2.world := by
    rw [serveOne, hrun, Prog.run_bind]
    split
    · rename_i err s' hr
      rw [hr]
      cases err <;> rfl
    · rename_i hr
      rw [hr]
  rw [hsnd]
  exact ⟨e1, e2, e3⟩

/-- **C32** for other clients: however a setup request from (host, id) ends, sessions stored under
other names, and all sessions in memory, are untouched. -/
theorem C32_other_sessions_partial (hC : C.Lawful) (timeout : Nat) (ans : Nat → Answer C) (host : Bytes)
    (s : Seq) (id : ID) (clientKey : C.EPub) (rest : List (Byte ⊕ Err))
    (h : Delivers s.conn.input (Wire.setupRequest id.val (C.marshalEPub clientKey)) rest) :
    (∀ host' id', ¬ (host' = host ∧ id' = id) →
      (serveOne timeout ans host s).world.table (sessionKey C host' id') =
        s.world.table (sessionKey C host' id') ∨
      Collides C.sha256 (host' ++ id'.val) (host ++ id.val)) ∧
    (∀ (r' : Nat) x, s.world.heap[r']? = some x →
      (serveOne timeout ans host s).world.heap[r']? = some x) := by
  have key : ∀ w' : World, w'.table = s.world.table → w'.heap = s.world.heap →
      (∀ host' id', ¬ (host' = host ∧ id' = id) →
        w'.table (sessionKey C host' id') = s.world.table (sessionKey C host' id') ∨
        Collides C.sha256 (host' ++ id'.val) (host ++ id.val)) ∧
      (∀ (r' : Nat) x, s.world.heap[r']? = some x → w'.heap[r']? = some x) := by
    intro w' ht hh
    exact ⟨fun _ _ _ => .inl (by rw [ht]), fun _ _ hx => by rw [hh]; exact hx⟩
  by_cases hfail : (∃ e, (ans s.pos).genKey = .error e) ∨
      ∃ k e, (ans s.pos).genKey = .ok k ∧ C.ecdh k clientKey = .error e
  · obtain ⟨h1, h2, -⟩ := C32_refused_setup_partial hC timeout ans host s id clientKey rest h hfail
    exact key _ h2 h1
  · obtain ⟨serverKey, hg⟩ : ∃ k, (ans s.pos).genKey = .ok k := by
      cases hg : (ans s.pos).genKey with
      | ok k => exact ⟨k, rfl⟩
      | error e => exact absurd (.inl ⟨e, hg⟩) hfail
    obtain ⟨secret, he⟩ : ∃ x, C.ecdh serverKey clientKey = .ok x := by
      cases he : C.ecdh serverKey clientKey with
      | ok x => exact ⟨x, rfl⟩
      | error e => exact absurd (.inr ⟨serverKey, e, hg, he⟩) hfail
    obtain ⟨evs, h1⟩ := serveOne_setup hC timeout ans host s id clientKey rest h
    obtain ⟨now, -, h2⟩ := run_setup_stored timeout ans host (parsedSetup C id clientKey)
      { s with conn := { s.conn with input := evs } } serverKey secret hg he
    have hw : OnlyTime (s.world.stored (sessionKey C host id) secret host id.val now)
        (serveOne timeout ans host s).world := by
      rw [h1, h2]
      split
      · exact run_failWith_world (C := C) _ _ timeout ans ⟨_, _, _⟩
      · exact run_respondWith_world (C := C) _ timeout ans ⟨_, _, _⟩
    refine ⟨fun host' id' hne => ?_, fun r' x hx => ?_⟩
    · rw [hw.table]
      by_cases hk : sessionKey C host' id' = sessionKey C host id
      · rcases fileName_inj id'.property id.property hk with ⟨h1, h2⟩ | hc
        · exact absurd ⟨h1, Subtype.ext h2⟩ hne
        · exact .inr hc
      · left
        simp [World.stored, hk]
    · rw [hw.heap]
      have hlt := (List.getElem?_eq_some_iff.mp hx).1
      show (s.world.heap ++ [(secret, ReplayWindow.fresh)])[r']? = some x
      rw [List.getElem?_append_left hlt]
      exact hx

/-- A setup request that is cut off: nothing changes. -/
example : ∃ e rest, runI (parseSetupRequest Toy.crypto { version := 1, action := 2 }) [.inl 1, .inl 2] =
    (.val (.error e), rest) := ⟨_, _, rfl⟩

end Goe2ee
