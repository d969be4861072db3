import Verif.Model.IdleLog
import Verif.Spec.ServerLog
import Verif.Spec.Toy

/-!
# C160: the log of a server to which nobody connects
-/

set_option autoImplicit false

namespace Goe2ee

/-- **C160**: a server to which nobody connects, and whose sockets work, leaves no lines in its log. -/
def C160_claim : Prop :=
  ∀ (C : Crypto) (readTimeout : Nat) (loop : ListenLoop) (acts : List ListenEnv), (∀ e ∈ acts, e.broken = none) →
    (listening C readTimeout loop acts).world.lines = []

/-- **C160 is refuted**: whenever the read timeout passes without a datagram, this is logged as a failure. -/
theorem C160_refuted : ¬ C160_claim := by
  intro h
  have := h Toy.crypto 5 .udp [{}, {}, {}, { tick := 5 }, {}] (by simp)
  revert this
  decide +kernel

section
variable {C : Crypto}

/-- Invariants of a server whose sockets work. -/
theorem listening_inv (readTimeout : Nat) (loop : ListenLoop) (I : Loops (LSig C) ListenLoop ListenWorld → Prop)
    (h0 : I ⟨{}, [.ret loop]⟩)
    (hstep : ∀ s e, e.broken = none → I s → I (Loops.step (listenBody C) (listenExec C readTimeout) s (0, e)))
    (acts : List ListenEnv) (h : ∀ e ∈ acts, e.broken = none) : I (listening C readTimeout loop acts) := by
  unfold listening
  generalize (⟨{}, [.ret loop]⟩ : Loops (LSig C) ListenLoop ListenWorld) = s at h0
  induction acts generalizing s with
  | nil => exact h0
  | cons e acts ih =>
    exact ih (fun e he => h e (List.mem_cons_of_mem _ he)) _ (hstep s e (h e List.mem_cons_self) h0)

/-- The only goroutine performs an effect. -/
theorem step_one {readTimeout : Nat} {w : ListenWorld} {o : LOp} {k : o.Ret C → Prog (LSig C) ListenLoop}
    {e : ListenEnv} (I : Loops (LSig C) ListenLoop ListenWorld → Prop) (w' : ListenWorld) (r : o.Ret C)
    (h : listenExec C readTimeout e 0 o w = some (r, w')) (hI : I ⟨w', [k r]⟩) :
    I (Loops.step (listenBody C) (listenExec C readTimeout) ⟨w, [.op o k]⟩ (0, e)) := by
  unfold Loops.step
  simp only [List.getElem?_cons_zero, h, List.set_cons_zero]
  exact hI

/-- The only goroutine waits. -/
theorem step_blocked {readTimeout : Nat} {w : ListenWorld} {o : LOp} {k : o.Ret C → Prog (LSig C) ListenLoop}
    {e : ListenEnv} (I : Loops (LSig C) ListenLoop ListenWorld → Prop)
    (h : listenExec C readTimeout e 0 o w = none) (hI : I ⟨w, [.op o k]⟩) :
    I (Loops.step (listenBody C) (listenExec C readTimeout) ⟨w, [.op o k]⟩ (0, e)) := by
  unfold Loops.step
  simp only [List.getElem?_cons_zero, h]
  exact hI

/-- What is left of a round of the TCP loop before `Accept` returns. -/
inductive TcpIdle : Prog (LSig C) ListenLoop → Prop
  | ret : TcpIdle (.ret .tcp)
  | stop : TcpIdle (.ret .ended)
  | round : TcpIdle (listenBody C .tcp)
  | accept (k : (LOp.base .accept).Ret C → Prog (LSig C) ListenLoop) : TcpIdle (.op (.base .accept) k)

/-- The invariant over TCP. -/
def TcpQuiet (s : Loops (LSig C) ListenLoop ListenWorld) : Prop := s.world.lines = [] ∧ ∃ p, s.threads = [p] ∧ TcpIdle p

/-- **C160**, over TCP it holds: no lines. -/
theorem C160_tcp_partial (readTimeout : Nat) (acts : List ListenEnv) (h : ∀ e ∈ acts, e.broken = none) :
    (listening C readTimeout .tcp acts).world.lines = [] := by
  refine (listening_inv readTimeout .tcp TcpQuiet ⟨rfl, _, rfl, .ret⟩ ?_ acts h).1
  · intro s e he ⟨hl, p, hp, ht⟩
    obtain ⟨w, ts⟩ := s
    dsimp only at hl hp
    subst hp
    cases ht with
    | ret => exact ⟨hl, _, rfl, .round⟩
    | stop => exact ⟨hl, _, rfl, .stop⟩
    | round =>
      refine step_one (o := .base .quitClosed) _ { w with now := w.now + e.tick } e.quit rfl ?_
      cases e.quit with
      | true => exact ⟨hl, _, rfl, .stop⟩
      | false => exact ⟨hl, _, rfl, .accept _⟩
    | accept k =>
      refine step_blocked (o := .base .accept) (w := w) (e := e) _ (by simp only [listenExec, he, Option.map_none]) ?_
      exact ⟨hl, _, rfl, .accept k⟩

/-- The line about a read that timed out. -/
def timedOutLine : Line := ("failed to read from connection: %v", [.err .timeout])

/-- Where the UDP loop is, and what the clock says then: `n` lines were written, the read timeout is `rt`. -/
inductive UdpIdle (rt n : Nat) : Prog (LSig C) ListenLoop → ListenWorld → Prop
  | ret (w : ListenWorld) (h : n * rt ≤ w.now) : UdpIdle rt n (.ret .udp) w
  | stop (w : ListenWorld) (h : n * rt ≤ w.now) : UdpIdle rt n (.ret .ended) w
  | round (w : ListenWorld) (h : n * rt ≤ w.now) : UdpIdle rt n (listenBody C .udp) w
  | set (w : ListenWorld) (format : String) (k : Unit → Prog (LSig C) ListenLoop)
      (k' : Except Err Peer → Prog (LSig C) ListenLoop) (hk : k () = .op (.base .receive) k')
      (hk' : k' (.error .timeout) = .op (.log "failed to read from connection: %v" [.err .timeout]) fun _ => .ret .udp)
      (h : n * rt ≤ w.now) : UdpIdle rt n (.op (.logIfFailed format) k) w
  | receive (w : ListenWorld) (k : Except Err Peer → Prog (LSig C) ListenLoop)
      (hk : k (.error .timeout) = .op (.log "failed to read from connection: %v" [.err .timeout]) fun _ => .ret .udp)
      (hn : n * rt ≤ w.now) (h : ∀ d, w.deadline = some d → 0 < rt ∧ (n + 1) * rt ≤ d) :
      UdpIdle rt n (.op (.base .receive) k) w
  | log (w : ListenWorld) (hrt : 0 < rt) (h : (n + 1) * rt ≤ w.now) :
      UdpIdle rt n (.op (.log "failed to read from connection: %v" [.err .timeout]) fun _ => .ret .udp) w

/-- The invariant over UDP. -/
def UdpQuiet (rt : Nat) (s : Loops (LSig C) ListenLoop ListenWorld) : Prop :=
  (rt = 0 → s.world.deadline = none ∧ s.world.lines = []) ∧ s.world.lines = List.replicate s.world.lines.length timedOutLine ∧
    ∃ p, s.threads = [p] ∧ UdpIdle rt s.world.lines.length p s.world

theorem udp_quiet (readTimeout : Nat) (acts : List ListenEnv) (h : ∀ e ∈ acts, e.broken = none) :
    UdpQuiet readTimeout (listening C readTimeout .udp acts) := by
  refine listening_inv readTimeout .udp _ ⟨fun _ => ⟨rfl, rfl⟩, rfl, _, rfl, .ret _ (by simp)⟩ ?_ acts h
  · intro s e he ⟨hd, hl, p, hp, ht⟩
    obtain ⟨w, ts⟩ := s
    dsimp only at hd hl hp ht
    subst hp
    cases ht with
    | ret _ hn => exact ⟨hd, hl, _, rfl, .round _ hn⟩
    | stop _ hn => exact ⟨hd, hl, _, rfl, .stop _ hn⟩
    | round _ hn =>
      have hn' : w.lines.length * readTimeout ≤ w.now + e.tick := Nat.le_trans hn (Nat.le_add_right _ _)
      refine step_one (o := .base .quitClosed) _ { w with now := w.now + e.tick } e.quit rfl ?_
      cases e.quit with
      | true => exact ⟨hd, hl, _, rfl, .stop _ hn'⟩
      | false => exact ⟨hd, hl, _, rfl, .set _ _ _ _ rfl rfl hn'⟩
    | set _ _ _ k' hk hk' hn =>
      refine step_one (o := .logIfFailed _) _ _ () rfl ?_
      by_cases hrt : 0 < readTimeout
      · refine ⟨fun h => by omega, hl, _, rfl, ?_⟩
        rw [hk]
        refine .receive _ _ hk' (Nat.le_trans hn (Nat.le_add_right _ _)) ?_
        intro d hd'
        dsimp only at hd'
        rw [if_pos hrt] at hd'
        cases hd'
        refine ⟨hrt, ?_⟩
        dsimp only
        rw [Nat.succ_mul]
        omega
      · have hn' : (if readTimeout > 0 then some (w.now + e.tick + readTimeout) else w.deadline) = none := by
          rw [if_neg hrt]; exact (hd (by omega)).1
        refine ⟨fun h => ⟨hn', (hd h).2⟩, hl, _, rfl, ?_⟩
        rw [hk]
        refine .receive _ _ hk' (Nat.le_trans hn (Nat.le_add_right _ _)) ?_
        intro d hd'
        exact absurd (hn'.symm.trans hd') (by simp)
    | receive _ k hk hn0 hr =>
      cases hw : w.deadline with
      | none =>
        refine step_blocked (o := .base .receive) _ (by simp only [listenExec, he, hw]) ?_
        exact ⟨hd, hl, _, rfl, .receive w k hk hn0 hr⟩
      | some d =>
        obtain ⟨hrt, hn⟩ := hr d hw
        by_cases hlate : d ≤ w.now + e.tick
        · refine step_one (o := .base .receive) _ { w with now := w.now + e.tick } (.error .timeout)
            (by simp only [listenExec, he, hw, if_pos hlate]) ?_
          exact ⟨hd, hl, _, rfl, hk ▸ .log _ hrt (Nat.le_trans hn hlate)⟩
        · refine step_blocked (o := .base .receive) _ (by simp only [listenExec, he, hw, if_neg hlate]) ?_
          exact ⟨hd, hl, _, rfl, .receive w k hk hn0 hr⟩
    | log _ hrt hn =>
      refine step_one (o := .log _ _) _ { w with now := w.now + e.tick, lines := w.lines ++ [timedOutLine] } () rfl ?_
      refine ⟨fun h => by omega, ?_, _, rfl, .ret _ ?_⟩
      · dsimp only
        rw [List.length_append, List.length_singleton, List.replicate_succ', ← hl]
      · dsimp only
        rw [List.length_append, List.length_singleton]
        exact Nat.le_trans hn (Nat.le_add_right _ _)

/-- **C160**, over UDP: the lines are all the same, and there is at most one for each read timeout that has passed. -/
theorem C160_udp_partial (readTimeout : Nat) (acts : List ListenEnv) (h : ∀ e ∈ acts, e.broken = none) :
    let w := (listening C readTimeout .udp acts).world
    w.lines = List.replicate w.lines.length timedOutLine ∧ w.lines.length * readTimeout ≤ w.now := by
  obtain ⟨-, hl, p, -, ht⟩ := udp_quiet (C := C) readTimeout acts h
  refine ⟨hl, ?_⟩
  cases ht with
  | ret _ h => exact h
  | stop _ h => exact h
  | round _ h => exact h
  | set _ _ _ _ _ _ h => exact h
  | receive _ _ _ h => exact h
  | log _ _ h => exact Nat.le_trans (Nat.mul_le_mul_right _ (Nat.le_succ _)) h

/-- **C160**, without a read timeout it holds over UDP, too. -/
theorem C160_no_timeout_partial (acts : List ListenEnv) (h : ∀ e ∈ acts, e.broken = none) :
    (listening C 0 .udp acts).world.lines = [] :=
  ((udp_quiet (C := C) 0 acts h).1 rfl).2

/-- A round in which the socket fails, over TCP and UDP. -/
def failingTcp (err : Err) : List ListenEnv := [{}, {}, { broken := some err }, {}]
def failingUdp (err : Err) : List ListenEnv := [{}, {}, {}, { broken := some err }, {}]

theorem listening_append (readTimeout : Nat) (loop : ListenLoop) (acts acts' : List ListenEnv) :
    listening C readTimeout loop (acts ++ acts') =
      Loops.run (listenBody C) (listenExec C readTimeout) (listening C readTimeout loop acts)
        (acts'.map fun e => (0, e)) := by
  simp [listening, Loops.run, List.foldl_append]

/-- **C160**, broken sockets: there is no pause.  A socket that fails at once (no file descriptors are left) makes the
server write any number of lines in no time. -/
theorem C160_no_pause (readTimeout : Nat) (err : Err) (n : Nat) :
    (∃ acts, (listening C readTimeout .tcp acts).world.now = 0 ∧ (listening C readTimeout .tcp acts).world.lines =
      List.replicate n ("failed to accept connection: %v", [.err err])) ∧
    (∃ acts, (listening C readTimeout .udp acts).world.now = 0 ∧ (listening C readTimeout .udp acts).world.lines =
      List.replicate n ("failed to read from connection: %v", [.err err])) := by
  constructor
  · suffices h : ∃ acts, (listening C readTimeout .tcp acts).world.now = 0 ∧
        (listening C readTimeout .tcp acts).world.lines =
          List.replicate n ("failed to accept connection: %v", [.err err]) ∧
        (listening C readTimeout .tcp acts).threads = [.ret .tcp] from
      ⟨h.choose, h.choose_spec.1, h.choose_spec.2.1⟩
    induction n with
    | zero => exact ⟨[], rfl, rfl, rfl⟩
    | succ n ih =>
      obtain ⟨acts, h1, h2, h3⟩ := ih
      refine ⟨acts ++ failingTcp err, ?_⟩
      rw [listening_append]
      generalize listening C readTimeout .tcp acts = s at *
      obtain ⟨w, ts⟩ := s
      dsimp only at h1 h2 h3
      subst h3
      refine ⟨h1, ?_, rfl⟩
      rw [List.replicate_succ', ← h2]
      rfl
  · suffices h : ∃ acts, (listening C readTimeout .udp acts).world.now = 0 ∧
        (listening C readTimeout .udp acts).world.lines =
          List.replicate n ("failed to read from connection: %v", [.err err]) ∧
        (listening C readTimeout .udp acts).threads = [.ret .udp] from
      ⟨h.choose, h.choose_spec.1, h.choose_spec.2.1⟩
    induction n with
    | zero => exact ⟨[], rfl, rfl, rfl⟩
    | succ n ih =>
      obtain ⟨acts, h1, h2, h3⟩ := ih
      refine ⟨acts ++ failingUdp err, ?_⟩
      rw [listening_append]
      generalize listening C readTimeout .udp acts = s at *
      obtain ⟨w, ts⟩ := s
      dsimp only at h1 h2 h3
      subst h3
      refine ⟨h1, ?_, rfl⟩
      rw [List.replicate_succ', ← h2]
      rfl

end

/-! ## Examples -/

/-- Three read timeouts of 5 pass: three lines. -/
example : (listening Toy.crypto 5 .udp (List.replicate 3 [{}, {}, {}, { tick := 5 }, {}]).flatten).world.lines =
    List.replicate 3 timedOutLine := by decide +kernel

/-- Before the deadline there is no line; and none at all over TCP. -/
example : (listening Toy.crypto 5 .udp [{}, {}, {}, { tick := 4 }, {}]).world.lines = [] ∧
    (listening Toy.crypto 5 .tcp (List.replicate 20 { tick := 5 })).world.lines = [] := by decide +kernel

/-- A closed server ends its loop. -/
example : (listening Toy.crypto 5 .udp [{}, { quit := true }, {}, { tick := 5 }, {}]).world.lines = [] := by decide +kernel

end Goe2ee
