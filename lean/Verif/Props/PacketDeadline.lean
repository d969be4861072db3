import Verif.Proofs.Conversation
import Verif.Proofs.UDP
import Verif.Props.Once
import Verif.Props.Robust

/-!
# C82: the write deadline of the UDP socket

Every goroutine for a datagram sets the write deadline of the one socket they share when it starts; the
response is sent when it ends (`UDPConn.Close`).
-/

set_option autoImplicit false

namespace Goe2ee

section
variable {C : Crypto}

/-- The goroutine for one datagram from beginning to end, nothing else running: the datagrams sent, what
was written, and the clock at the end. -/
def serveDatagram (M : Manager C) (timeout : Nat) (ans : Nat → Answer C) (host : Except Err Bytes)
    (datagram : Bytes) (s : Seq) : Seq :=
  (packetDeferred.run (seqI C timeout ans)
    ((packetBody M host).run (seqI C timeout ans)
      { s with conn := .ofPeer (.udp host datagram) }).2).2

/-- All that was written to the connection goes out as one datagram (none if nothing was written). -/
def Answered (c : Conn) : Prop :=
  c.sent = if (c.writes.map (·.1)).flatten = [] then [] else [(c.writes.map (·.1)).flatten]

end

/-- The claim: with the default timeouts, the response to a datagram is sent if the socket accepts it. -/
def C82_claim : Prop :=
  ∀ (C : Crypto) (M : Manager C) (_ : M.Passive) (ans : Nat → Answer C) (host : Except Err Bytes)
    (datagram : Bytes) (s : Seq), s.world.packetBy = none → (∀ n, (ans n).write = (0, none)) →
    Answered (serveDatagram M defaultWriteTimeout ans host datagram s).conn

/-- **C82** is false of the code: when more than the write timeout passes between the start of the
goroutine and its end (the application handler may take that long), the response is lost. -/
theorem C82_slow_response_lost : ¬ C82_claim := by
  intro h
  have := h Toy.crypto (inMemory _) (inMemory_passive _)
    (fun _ => { ServeExample.answer with tick := 6000000000 }) (.ok [])
    Wire.helloRequest (ServeExample.start []) rfl (fun _ => rfl)
  revert this
  unfold Answered
  decide +kernel

section
variable {C : Crypto}

/-- What serving a request over UDP leaves alone. -/
theorem serving_packet {α : Type} {p : SProg C α} (hp : Uses (S := SSig C) SOp.serving p) (timeout : Nat)
    (ans : Nat → Answer C) (s : Seq) (hb : s.conn.buffered = true) (hs : s.conn.sent = [])
    (ho : s.conn.output = s.conn.written) :
    let s' := (p.run (seqI C timeout ans) s).2
    s'.conn.buffered = true ∧ s'.conn.sent = [] ∧ s'.conn.output = s'.conn.written ∧
      s'.world.packetBy = s.world.packetBy := by
  refine hp.run (seqI C timeout ans) (fun s' => s'.conn.buffered = true ∧ s'.conn.sent = [] ∧
    s'.conn.output = s'.conn.written ∧ s'.world.packetBy = s.world.packetBy) (fun o s' hop h => ?_) s
    ⟨hb, hs, ho, rfl⟩
  obtain ⟨h1, h2, h3, h4⟩ := h
  cases o with
  | read o => exact ⟨h1, h2, h3, h4⟩
  | write bs =>
    rw [seqI_other _ _ _ id]
    simp only [exec, execWrite, h1, if_true, Conn.written, List.map_append, List.flatten_append,
      List.take_length]
    refine ⟨trivial, h2, ?_, h4⟩
    rw [h3]; simp [Conn.written]
  | check r n =>
    rw [seqI_other _ _ _ id]
    simp only [exec]
    split <;> exact ⟨h1, h2, h3, h4⟩
  | _ =>
    first
    | (rcases hop with (h | h | h | h) | h <;> exact h.elim)
    | exact ⟨h1, h2, h3, h4⟩

/-- **C82**, one goroutine alone: when it ends no later than the write timeout after its start, whatever
it has written goes out as one datagram, if the socket accepts that. -/
theorem C82_prompt_response_partial {M : Manager C} (hM : M.Passive) (timeout : Nat) (ht : 0 < timeout)
    (ans : Nat → Answer C) (host : Except Err Bytes) (datagram : Bytes) (s : Seq)
    (hw : ∀ n, (ans n).write = (0, none))
    (htime : (serveDatagram M timeout ans host datagram s).world.now ≤
      s.world.now + (ans s.pos).tick + timeout) :
    Answered (serveDatagram M timeout ans host datagram s).conn := by
  rw [serveDatagram, run_packetBody] at htime ⊢
  obtain ⟨-, h2, h3, h4⟩ := serving_packet (serving_serveRequest hM host) timeout ans
    (s.packetReady timeout ans host datagram) rfl rfl rfl
  generalize (serveRequest M host).run (seqI C timeout ans) (s.packetReady timeout ans host datagram) = q
    at htime h2 h3 h4 ⊢
  obtain ⟨res, conn, world, pos⟩ := q
  dsimp only at h2 h3 h4
  have h4 : world.packetBy = some (s.world.now + (ans s.pos).tick + timeout) := h4.trans (if_pos ht)
  have hrun : (packetDeferred.run (seqI C timeout ans) ⟨conn, world, pos⟩).2 =
      { conn := (exec C timeout (ans pos) .flush (conn, world)).2.1,
        world := (exec C timeout (ans pos) .flush (conn, world)).2.2, pos := pos + 1 } := rfl
  rw [hrun] at htime ⊢
  have hnow : (exec C timeout (ans pos) .flush (conn, world)).2.2.now = world.now + (ans pos).tick := by
    simp only [exec]; split <;> rfl
  rw [show (exec C timeout (ans pos) .flush (conn, world)).2.2.now = _ from hnow] at htime
  simp only [exec, Answered]
  by_cases ho : conn.output = []
  · rw [if_pos (.inl ho), h2, if_pos (by rw [← ho, h3]; rfl)]
  · rw [if_neg (by
      rw [h4, expired]
      rintro (h | h | h)
      · exact ho h
      · exact absurd (of_decide_eq_true h) (by omega)
      · rw [hw] at h; cases h)]
    show conn.sent ++ [conn.output] = _
    rw [h2, if_neg (by intro h; exact ho (h3.trans h)), h3]
    rfl

/-! ## All goroutines -/

/-- No goroutine's own deadline is later than the one in force, and that is at most the timeout away. -/
structure ByInv (timeout : Nat) (s : Sys C) : Prop where
  own : ∀ t ∈ s.threads, t.conn.buffered = true → ∀ d, t.conn.deadline = some d →
    ∃ d', s.world.packetBy = some d' ∧ d ≤ d'
  near : ∀ d, s.world.packetBy = some d → 0 < timeout ∧ d ≤ s.world.now + timeout

theorem exec_by (timeout : Nat) (a : Answer C) (o : SOp) (c : Conn) (w : World)
    (hn : ∀ d, w.packetBy = some d → 0 < timeout ∧ d ≤ w.now + timeout)
    (ho : c.buffered = true → ∀ d, c.deadline = some d → ∃ d', w.packetBy = some d' ∧ d ≤ d') :
    let r := (exec C timeout a o (c, w)).2
    (∀ d, r.2.packetBy = some d → 0 < timeout ∧ d ≤ r.2.now + timeout) ∧
    (r.1.buffered = true → ∀ d, r.1.deadline = some d → ∃ d', r.2.packetBy = some d' ∧ d ≤ d') ∧
    (∀ d, w.packetBy = some d → ∃ d', r.2.packetBy = some d' ∧ d ≤ d') := by
  have hlater : ∀ n, ∀ d, w.packetBy = some d → 0 < timeout ∧ d ≤ w.now + n + timeout := by
    intro n d hd
    have := hn d hd
    exact ⟨this.1, by omega⟩
  have hrefl : ∀ d, w.packetBy = some d → ∃ d', w.packetBy = some d' ∧ d ≤ d' :=
    fun d hd => ⟨d, hd, Nat.le_refl _⟩
  cases o with
  | write bs =>
    simp only [exec, execWrite]
    split
    · exact ⟨hn, ho, hrefl⟩
    · split
      · split <;> exact ⟨hlater _, ho, hrefl⟩
      · exact ⟨hlater _, ho, hrefl⟩
  | flush =>
    simp only [exec]
    split <;> exact ⟨hlater _, ho, hrefl⟩
  | check r n =>
    simp only [exec]
    split <;> exact ⟨hn, ho, hrefl⟩
  | now => exact ⟨hlater _, ho, hrefl⟩
  | setDeadlines =>
    simp only [exec]
    by_cases ht : 0 < timeout
    · cases hb : c.buffered with
      | true =>
        simp only [ht, true_and, if_true, Option.some.injEq]
        refine ⟨?_, ?_, ?_⟩
        · rintro d rfl; exact Nat.le_refl _
        · rintro - d rfl; exact ⟨_, rfl, Nat.le_refl _⟩
        · intro d hd
          have := hn d hd
          exact ⟨_, rfl, by omega⟩
      | false =>
        simp only [Bool.false_eq_true, and_false, if_false]
        exact ⟨hlater _, (fun h => by cases h), hrefl⟩
    · simp only [ht, false_and, if_false]
      exact ⟨fun d hd => absurd (hn d hd).1 ht, ho, hrefl⟩
  | _ => exact ⟨hn, ho, hrefl⟩

theorem ByInv.step {M : Manager C} {timeout : Nat} {s : Sys C} (h : ByInv timeout s)
    (act : Nat × Answer C) : ByInv timeout (s.step M timeout act) := by
  unfold Sys.step
  split
  · exact h
  rename_i t ht
  have hmem := List.mem_of_getElem? ht
  have hstep : (∀ d, (t.step timeout act.2 s.world).2.packetBy = some d →
        0 < timeout ∧ d ≤ (t.step timeout act.2 s.world).2.now + timeout) ∧
      ((t.step timeout act.2 s.world).1.conn.buffered = true →
        ∀ d, (t.step timeout act.2 s.world).1.conn.deadline = some d →
        ∃ d', (t.step timeout act.2 s.world).2.packetBy = some d' ∧ d ≤ d') ∧
      (∀ d, s.world.packetBy = some d →
        ∃ d', (t.step timeout act.2 s.world).2.packetBy = some d' ∧ d ≤ d') := by
    have hsame := And.intro h.near (And.intro (h.own t hmem)
      (show ∀ d, s.world.packetBy = some d → ∃ d', s.world.packetBy = some d' ∧ d ≤ d' from
        fun d hd => ⟨d, hd, Nat.le_refl d⟩))
    unfold Thread.step
    split
    · exact hsame
    · exact hsame
    · exact hsame
    · split
      · exact exec_by timeout act.2 _ t.conn s.world h.near (h.own t hmem)
      · exact hsame
  refine ⟨?_, hstep.1⟩
  intro t' ht' hb d hd
  rcases List.mem_append.mp ht' with ht' | ht'
  · rcases List.mem_or_eq_of_mem_set ht' with ht' | rfl
    · obtain ⟨d', h1, h2⟩ := h.own t' ht' hb d hd
      obtain ⟨d'', h3, h4⟩ := hstep.2.2 d' h1
      exact ⟨d'', h3, Nat.le_trans h2 h4⟩
    · exact hstep.2.1 hb d hd
  · obtain ⟨p, -, rfl⟩ := List.mem_map.mp ht'
    rw [ofPeer_conn] at hd
    cases p <;> cases hd

theorem ByInv.run {M : Manager C} {timeout : Nat} (acts : List (Nat × Answer C)) {s : Sys C}
    (h : ByInv timeout s) : ByInv timeout (s.run M timeout acts) := by
  induction acts generalizing s with
  | nil => exact h
  | cons act acts ih => exact ih (h.step act)

theorem byInv_start (timeout ttl closers : Nat) : ByInv timeout (Sys.start (C := C) ttl closers) := by
  refine ⟨?_, fun d hd => (by cases hd)⟩
  exact start_threads (P := fun t : Thread C => t.conn.buffered = true → ∀ d, t.conn.deadline = some d →
    ∃ d', (none : Option Nat) = some d' ∧ d ≤ d')
    (fun h => by cases h) (fun h => by cases h) (fun h => by cases h) (fun h => by cases h)

/-- **C82**, with any other goroutines at work: the goroutines that serve other datagrams at the same
time never make one lose its response.  In every schedule, a goroutine that comes to send its response
(at `.flush`) no later than the deadline it has set itself, does send everything it has written, as one
datagram, if the socket accepts that. -/
theorem C82_others_do_not_harm_partial {M : Manager C} (hM : M.Passive) (timeout ttl closers : Nat)
    (acts : List (Nat × Answer C)) (i : Nat) (a : Answer C) (t : Thread C)
    (k : SOp.Ret C .flush → SProg C Bool)
    (ht : (Sys.run M timeout (Sys.start ttl closers) acts).threads[i]? = some t)
    (hudp : t.conn.buffered = true) (hprog : t.prog = .op .flush k)
    (hw : a.write = (0, none))
    (htime : 0 < timeout → ∃ d, t.conn.deadline = some d ∧
      (Sys.run M timeout (Sys.start ttl closers) acts).world.now + a.tick ≤ d) :
    ∃ t', (Sys.run M timeout (Sys.start ttl closers) (acts ++ [(i, a)])).threads[i]? = some t' ∧
      t'.conn.writes = t.conn.writes ∧ Answered t'.conn := by
  have hinv := (byInv_start timeout ttl closers).run (M := M) acts
  have hmem := List.mem_of_getElem? ht
  obtain ⟨g, ⟨L, D, hsafe, -, -⟩, -, hR⟩ := (udp_keeps hM (fun p => ∃ act ∈ acts, act.2.peer = .ok p)
    timeout).run acts (fun act hact p hp => ⟨act, hact, hp⟩) (Sys.start ttl closers) rfl
    (udp_start _ ttl closers) t hmem
  rw [hprog] at hsafe
  have hg : g.flushed = false := hsafe.1
  obtain ⟨h2, h3⟩ : t.conn.sent = [] ∧ t.conn.output = t.conn.written := by
    obtain ⟨-, -, -, -, h | ⟨h, -⟩⟩ := hR hudp
    · exact h
    · rw [hg] at h; cases h
  rw [Sys.run, List.foldl_append]
  change ∃ t', ((Sys.run M timeout (Sys.start ttl closers) acts).step M timeout (i, a)).threads[i]? = _ ∧ _
  revert ht htime hinv hmem
  generalize Sys.run M timeout (Sys.start ttl closers) acts = s
  intro ht htime hinv hmem
  have hlt : i < s.threads.length := (List.getElem?_eq_some_iff.mp ht).1
  have hby : expired s.world.packetBy (s.world.now + a.tick) = false := by
    cases hp : s.world.packetBy with
    | none => rfl
    | some d' =>
      obtain ⟨d, h5, h6⟩ := htime (hinv.near d' hp).1
      obtain ⟨d'', h7, h8⟩ := hinv.own t hmem hudp d h5
      rw [hp] at h7
      cases h7
      exact decide_eq_false (by omega)
  have hstep : (t.step timeout a s.world).1.conn = (exec C timeout a .flush (t.conn, s.world)).2.1 := by
    unfold Thread.step
    rw [hprog]
    rfl
  refine ⟨(t.step timeout a s.world).1, ?_, ?_, ?_⟩
  · unfold Sys.step
    rw [ht]
    dsimp only
    rw [List.getElem?_append_left (by simpa using hlt), List.getElem?_set_self hlt]
  · rw [hstep]
    simp only [exec]
    split <;> rfl
  · rw [hstep]
    simp only [exec, Answered]
    by_cases ho : t.conn.output = []
    · rw [if_pos (.inl ho), h2, if_pos (by rw [← ho, h3]; rfl)]
    · rw [if_neg (by
        rintro (h | h | h)
        · exact ho h
        · exact Bool.false_ne_true (hby.symm.trans h)
        · rw [hw] at h; cases h)]
      show t.conn.sent ++ [t.conn.output] = _
      rw [h2, if_neg (by intro h; exact ho (h3.trans h)), h3]
      rfl

end

/-- A response after four seconds is sent. -/
example : (serveDatagram (inMemory Toy.crypto) defaultWriteTimeout
    (fun n => { ServeExample.answer with tick := if n = 2 then 4000000000 else 0 }) (.ok [])
    Wire.helloRequest (ServeExample.start [])).conn.sent = [Wire.helloResponse] := by decide +kernel

namespace PacketExample

def answer (tick : Nat) (datagram : Bytes) : Answer Toy.crypto :=
  { ServeExample.answer with tick, peer := .ok (.udp (.ok (str "10.0.0.1")) datagram) }

/-- Receive a datagram with a hello request, and serve it up to the point where the response is sent. -/
def served : List (Nat × Answer Toy.crypto) :=
  List.replicate 4 (1, answer 0 Wire.helloRequest) ++ List.replicate 4 (2, answer 0 [])

/-- Receive another one four seconds later; its goroutine sets the deadline. -/
def another : List (Nat × Answer Toy.crypto) :=
  List.replicate 4 (1, answer 0 Wire.helloRequest) ++ [(3, answer 4000000000 [])]

/-- What the goroutine for the first datagram sent, when it ends `tick` later. -/
def sentBy (acts : List (Nat × Answer Toy.crypto)) (tick : Nat) : List Bytes :=
  ((Sys.run (inMemory Toy.crypto) defaultWriteTimeout (Sys.start 0 0)
    (acts ++ [(2, answer tick [])])).threads.map fun t => t.conn.sent).flatten

/-- After six seconds the response is lost; if another datagram has come in between, it is not. -/
example : sentBy served 0 = [Wire.helloResponse] ∧ sentBy served 6000000000 = [] ∧
    sentBy (served ++ another) 2000000000 = [Wire.helloResponse] := by decide +kernel

/-- In that state the goroutine is about to send, and its own deadline is five seconds. -/
example : ((Sys.run (inMemory Toy.crypto) defaultWriteTimeout (Sys.start 0 0) served).threads[2]?.map
    fun t => (t.conn.buffered, t.conn.deadline, match t.prog with | .op .flush _ => true | _ => false)) =
    some (true, some 5000000000, true) := by decide +kernel

end PacketExample

end Goe2ee
