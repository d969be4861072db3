import Verif.Proofs.Seq
import Verif.Spec.Toy
import Verif.Spec.Transport

/-!
# C28, C52: what one connection's goroutine reads and writes

`serveConn M timeout ans host fuel s` is `handleConnection` for at most `fuel` requests, from any
state `s` of the connection and the server, with any answers `ans` of its environment (transport,
clock, random keys, key manager, application handler).
-/

set_option autoImplicit false

namespace Goe2ee

variable {C : Crypto}

theorem deferred_run (timeout : Nat) (ans : Nat → Answer C) (s : Seq) :
    (connDeferred.run (seqI C timeout ans) s).2.conn = { s.conn with closed := true } := rfl

/-- Writes that fail without being accepted at all contribute nothing. -/
theorem accepted_outcome {silent : Prop} {P : Bytes → Prop} {ws : List WRec}
    (h : Outcome silent P none ws) : (silent ∧ accepted ws = []) ∨ P (accepted ws) := by
  rcases h with ⟨hs, rfl⟩ | ⟨fails, r, rfl, hr, hf⟩
  · exact .inl ⟨hs, rfl⟩
  · right
    have : accepted fails = [] := by
      simp only [accepted, List.flatten_eq_nil_iff, List.mem_map]
      rintro l ⟨w, hw, rfl⟩
      rw [(hf w hw).1]; rfl
    rw [accepted_append, this]
    simpa [accepted] using hr

/-- **C28.** Send any sequence of well-formed requests, in whatever segmentation, to a connection
that is not being shut down.  What the server writes is one complete response for each, in order;
nothing only for a process request that wants no reply.  It reads exactly the requests.  If it does
not get to the end, the connection was closed after a beginning of some response, because the
transport did not take a write, or because the application handler's panic ended it. -/
theorem C28_one_response_per_request (hC : C.Lawful) {M : Manager C} (hM : M.Passive) (timeout : Nat)
    (ans : Nat → Answer C) (host : Except Err Bytes) (reqs : List (Req C)) (hfit : ∀ q ∈ reqs, q.fits)
    (s : Seq) (hquit : s.world.quit = false) (rest : List (Byte ⊕ Err))
    (h : Delivers s.conn.input (reqs.flatMap Req.wire) rest) :
    ∃ out complete ended s' ws, serveConn C M timeout ans host reqs.length s = (ended, s') ∧
      s'.conn.output = s.conn.output ++ out ∧ s'.conn.writes = s.conn.writes ++ ws ∧
      Served reqs out complete ∧
      (complete = true → ended = .running ∧ flatten s'.conn.input = rest) ∧
      (complete = false → ended ≠ .running ∧ s'.conn.closed = true ∧
        ((∃ w ∈ ws, ¬ WRec.Complete w) ∨ ∃ m, ended = .panicked m)) := by
  induction reqs generalizing s with
  | nil =>
    exact ⟨[], true, .running, s, [], rfl, by simp, by simp, .nil, fun _ => ⟨rfl, by simpa [Delivers] using h⟩,
      by simp⟩
  | cons q qs ih =>
    obtain ⟨s1, ws, res, h1, h2, h3, h4, h5, h6⟩ := pass_wellformed hC hM timeout ans host q
      (hfit q (List.mem_cons_self ..)) s hquit ((qs.flatMap Req.wire).map Sum.inl ++ rest)
      (by rw [h]; simp)
    simp only [List.length_cons, serveConn, h1]
    match res, h6 with
    | .val true, h6 =>
      obtain ⟨out, complete, ended, s', ws', i1, i2, i3, i4, i5, i6⟩ :=
        ih (fun q' hq' => hfit q' (List.mem_cons_of_mem _ hq')) s1 h3 h2
      refine ⟨accepted ws ++ out, complete, ended, s', ws ++ ws', i1, by rw [i2, h5, List.append_assoc],
        by rw [i3, h4, List.append_assoc], ?_, i5, fun hc => ?_⟩
      · rcases accepted_outcome h6 with ⟨hs, hw⟩ | hr
        · rw [hw]; exact .silent hs i4
        · exact .response hr i4
      · obtain ⟨j1, j2, j3⟩ := i6 hc
        exact ⟨j1, j2, j3.imp (fun ⟨w, hw, hn⟩ => ⟨w, List.mem_append_right _ hw, hn⟩) id⟩
    | .val false, h6 =>
      obtain ⟨⟨r, hr, hp⟩, hw⟩ := h6
      exact ⟨accepted ws, false, .returned, _, ws, rfl, h5, h4, .broken hr hp, by simp,
        fun _ => ⟨by simp, rfl, .inl hw⟩⟩
    | .panic m, h6 =>
      exact ⟨accepted ws, false, .panicked m, _, ws, rfl, h5, h4,
        .broken (r := Wire.errorResponse 0 []) (.inr ⟨0, [], rfl⟩) (by rw [h6]; exact List.nil_prefix),
        by simp, fun _ => ⟨by simp, rfl, .inr ⟨m, rfl⟩⟩⟩

/-- One pass on any input: the writes recorded are the output; only the last can be partial or timed
out, and then the loop ends. -/
theorem pass_writes {M : Manager C} (hM : M.Passive) (timeout : Nat) (ans : Nat → Answer C)
    (host : Except Err Bytes) (s : Seq) :
    ∃ ws, ((connPass M host).run (seqI C timeout ans) s).2.conn.writes = s.conn.writes ++ ws ∧
      ((connPass M host).run (seqI C timeout ans) s).2.conn.output = s.conn.output ++ accepted ws ∧
      (∀ w ∈ ws.dropLast, ¬ WRec.Part w ∧ ¬ WRec.TimedOut w) ∧
      match ((connPass M host).run (seqI C timeout ans) s).1 with
      | .val b => PassOutcome C b ws
      | .panic _ => ws = [] := by
  obtain ⟨ws, ⟨h1, h2, h3⟩, h4⟩ := (outcome_connPass hM host).run (seqI C timeout ans)
    (fun g s' => s'.conn.writes = s.conn.writes ++ g ∧ s'.conn.output = s.conn.output ++ accepted g ∧
      ∀ w ∈ g.dropLast, ¬ WRec.Part w ∧ ¬ WRec.TimedOut w)
    (by
      intro o g s' hpre ⟨h1, h2, h3⟩
      obtain ⟨i1, i2⟩ := writes_follow timeout ans _ _ o g s' hpre ⟨h1, h2⟩
      refine ⟨i1, i2, ?_⟩
      cases o with
      | write bs =>
        intro w hw
        have hw' : w ∈ (g ++ [(bs, (seqI C timeout ans (.write bs) s').1.1,
          (seqI C timeout ans (.write bs) s').1.2)]).dropLast := hw
        rw [List.dropLast_concat] at hw'
        exact hpre w hw'
      | _ => exact h3) s ⟨by simp, by simp [accepted], by simp⟩
  refine ⟨ws, h1, h2, h3, ?_⟩
  split at h4 <;> rename_i hr <;> rw [hr]
  · exact h4
  · exact h4

/-- **C52.** Whatever arrives and whatever the transport does with the writes: a write that was
accepted in part, or whose deadline expired, is the last one on the connection, which is then closed;
and the server waits for another request only if the last thing it wrote is a response the transport
accepted completely. -/
theorem C52_no_continuation_after_partial_write {M : Manager C} (hM : M.Passive) (timeout : Nat)
    (ans : Nat → Answer C) (host : Except Err Bytes) (fuel : Nat) (s : Seq) :
    ∃ ended s' ws, serveConn C M timeout ans host fuel s = (ended, s') ∧
      s'.conn.writes = s.conn.writes ++ ws ∧ s'.conn.output = s.conn.output ++ accepted ws ∧
      (∀ before w after, ws = before ++ w :: after → WRec.Part w ∨ WRec.TimedOut w →
        after = [] ∧ ended ≠ .running ∧ s'.conn.closed = true) ∧
      (ended = .running → ws = [] ∨
        ∃ before w, ws = before ++ [w] ∧ WRec.Complete w ∧ ∃ q : Req C, IsResponse q w.1) := by
  induction fuel generalizing s with
  | zero =>
    refine ⟨.running, s, [], rfl, by simp, by simp [accepted], ?_, fun _ => .inl rfl⟩
    intro before w after hw
    simp at hw
  | succ fuel ih =>
    obtain ⟨ws, h1, h2, h3, h4⟩ := pass_writes hM timeout ans host s
    simp only [serveConn]
    rcases hr : (connPass M host).run (seqI C timeout ans) s with ⟨res, s1⟩
    rw [hr] at h1 h2 h4
    dsimp only at h1 h2 h4
    have hlast : ∀ before w after, ws = before ++ w :: after → WRec.Part w ∨ WRec.TimedOut w →
        after = [] := by
      intro before w after hw hbad
      rcases List.eq_nil_or_concat after with h | ⟨l, a, rfl⟩
      · exact h
      rw [List.concat_eq_append] at hw
      have := h3 w (by
        rw [hw, ← List.cons_append, ← List.append_assoc, List.dropLast_concat]
        simp)
      rcases hbad with h | h
      · exact absurd h this.1
      · exact absurd h this.2
    match res, h4 with
    | .val true, h4 =>
      obtain ⟨ended, s', ws', i1, i2, i3, i4, i5⟩ := ih s1
      have hgood : ∀ w ∈ ws, ¬ WRec.Part w ∧ ¬ WRec.TimedOut w := by
        rcases h4 with ⟨-, rfl⟩ | ⟨fails, r, rfl, hr', hf⟩
        · simp
        · intro w hw
          rcases List.mem_append.mp hw with hw | hw
          · exact ⟨fun hp => by have := hp.1; have := (hf w hw).1; omega, (hf w hw).2⟩
          · rw [List.mem_singleton] at hw
            subst hw
            refine ⟨fun hp => absurd hp.2 (Nat.lt_irrefl _), ?_⟩
            rintro ⟨e, he, -⟩
            cases he
      refine ⟨ended, s', ws ++ ws', i1, by rw [i2, h1, List.append_assoc],
        by rw [i3, h2, accepted_append, List.append_assoc], ?_, ?_⟩
      · intro before w after hw hbad
        rcases List.append_eq_append_iff.mp hw with ⟨c, hb, hws'⟩ | ⟨c, hws, ha⟩
        · exact i4 c w after hws' hbad
        · cases c with
          | nil =>
            simp only [List.nil_append] at ha
            exact i4 [] w after ha.symm hbad
          | cons x c =>
            simp only [List.cons_append, List.cons.injEq] at ha
            obtain ⟨rfl, rfl⟩ := ha
            have := hgood w (by rw [hws]; simp)
            rcases hbad with h | h
            · exact absurd h this.1
            · exact absurd h this.2
      · intro he
        rcases i5 he with rfl | ⟨before, w, rfl, hw⟩
        · rw [List.append_nil]
          rcases h4 with ⟨-, rfl⟩ | ⟨fails, r, rfl, hr', hf⟩
          · exact .inl rfl
          · exact .inr ⟨fails, _, rfl, rfl, hr'⟩
        · exact .inr ⟨ws ++ before, w, by rw [List.append_assoc], hw⟩
    | .val false, h4 =>
      exact ⟨.returned, _, ws, rfl, h1, h2,
        fun b w a hw hbad => ⟨hlast b w a hw hbad, by simp, rfl⟩, by simp⟩
    | .panic m, h4 =>
      exact ⟨.panicked m, _, ws, rfl, h1, h2,
        fun b w a hw hbad => ⟨hlast b w a hw hbad, by simp, rfl⟩, by simp⟩

/-! ## Concrete connections -/

namespace ServeExample

def conn (bs : Bytes) : Conn := { Conn.none with input := bs.map fun b => .data [b] }

def world : World :=
  { heap := [], table := fun _ => none, now := 0, quit := false, wg := 1, spawned := [], log := [] }

def start (bs : Bytes) : Seq := { conn := conn bs, world, pos := 0 }

def answer : Answer Toy.crypto :=
  { genKey := .ok (9 : BitVec 256), sign := fun _ _ => .ok [1, 2, 3], fetchKey := .error .eof,
    handle := .reply (str "pong"), write := (0, none), tick := 1, key := [], choose := 0,
    peer := .error .eof }

def id : ID := ⟨List.replicate 16 7, rfl⟩

def key : Bytes :=
  match deriveKey Toy.crypto (beEnc 32 14) kdfInfo aesKeySize with
  | .ok k => k
  | .error _ => []

/-- Hello, setup, a message that wants a reply, one that does not, and a second hello. -/
def requests : List (Req Toy.crypto) :=
  [.hello, .setup id (5 : BitVec 256),
   .process true id 1 (Toy.crypto.aeadSeal key (Wire.nonce12 0 1) (str "ping")),
   .process false id 2 (Toy.crypto.aeadSeal key (Wire.nonce12 0 2) (str "ping")), .hello]

def served : Ended × Seq :=
  serveConn Toy.crypto (inMemory _) 5000 (fun _ => answer) (.ok (str "10.0.0.1")) 5
    (start (requests.flatMap Req.wire))

/-- The second write (the setup response) is accepted only in part. -/
def flaky (n : Nat) : Answer Toy.crypto := if n = 10 then { answer with write := (30, none) } else answer

end ServeExample

/-- The server answers the four requests that want an answer and waits for more. -/
example : ServeExample.served.1 = .running ∧ ServeExample.served.2.conn.input = [] ∧
    ServeExample.served.2.conn.output =
      Wire.helloResponse ++ Wire.setupResponse (Toy.crypto.marshalEPub (9 : BitVec 256)) 4 [1, 2, 3] ++
      Wire.processResponse 1
        (Toy.crypto.aeadSeal ServeExample.key (Wire.nonce12 1 1) (str "pong")) ++
      Wire.helloResponse := by decide +kernel

example : ∀ q ∈ ServeExample.requests, q.fits := by
  intro q hq
  simp only [ServeExample.requests, List.mem_cons, List.not_mem_nil, or_false] at hq
  rcases hq with rfl | rfl | rfl | rfl | rfl
  · trivial
  · trivial
  · show List.length _ ≤ _; decide +kernel
  · show List.length _ ≤ _; decide +kernel
  · trivial

/-- A setup response written in part ends the connection; the later requests are not answered. -/
example :
    let r := serveConn Toy.crypto (inMemory _) 5000 ServeExample.flaky (.ok (str "10.0.0.1")) 5
      (ServeExample.start (ServeExample.requests.flatMap Req.wire))
    r.1 = .returned ∧ r.2.conn.closed = true ∧ r.2.conn.writes.map (fun w => (w.1.length, w.2)) =
      [(1, 1, none), (57, 27, none)] := by decide +kernel

end Goe2ee
