import Verif.Proofs.FlowWrite

/-!
# The two ends of a connection under a fair schedule
-/

set_option autoImplicit false

namespace Goe2ee

section
variable {C : Crypto} {M : Manager C} {host : Except Err Bytes} {roomUp roomDown : Nat}

/-- One step, seen from the two goroutines. -/
def flowStep (M : Manager C) (host : Except Err Bytes) (roomUp roomDown : Nat)
    (s : FlowProg C FlowLoop × FlowProg C FlowLoop × FlowWorld) (act : Nat × FlowEnv C) :
    FlowProg C FlowLoop × FlowProg C FlowLoop × FlowWorld :=
  let r := Loops.step (flowBody M host) (flowExec roomUp roomDown) ⟨s.2.2, [s.1, s.2.1]⟩ act
  (r.threads.getD 0 (.ret .ended), r.threads.getD 1 (.ret .ended), r.world)

theorem flowStep_eq (q p : FlowProg C FlowLoop) (w : FlowWorld) (act : Nat × FlowEnv C) :
    Loops.step (flowBody M host) (flowExec roomUp roomDown) ⟨w, [q, p]⟩ act =
      ⟨(flowStep M host roomUp roomDown (q, p, w) act).2.2,
        [(flowStep M host roomUp roomDown (q, p, w) act).1, (flowStep M host roomUp roomDown (q, p, w) act).2.1]⟩ := by
  rcases act with ⟨i, env⟩
  unfold flowStep
  match i with
  | 0 =>
    cases q with
    | ret l => rfl
    | panic m => rfl
    | op o k =>
      simp only [Loops.step, List.getElem?_cons_zero]
      cases flowExec roomUp roomDown env 0 o w <;> rfl
  | 1 =>
    cases p with
    | ret l => rfl
    | panic m => rfl
    | op o k =>
      simp only [Loops.step, List.getElem?_cons_succ, List.getElem?_cons_zero]
      cases flowExec roomUp roomDown env 1 o w <;> rfl
  | i + 2 => rfl

/-- How a goroutine moves. -/
def turn (M : Manager C) (host : Except Err Bytes) (roomUp roomDown : Nat) (env : FlowEnv C) (i : Nat)
    (p : FlowProg C FlowLoop) (w : FlowWorld) : FlowProg C FlowLoop × FlowWorld :=
  match p with
  | .ret l => (flowBody M host l, w)
  | .panic m => (.panic m, w)
  | .op o k =>
    match flowExec roomUp roomDown env i o w with
    | some r => (k r.1, r.2)
    | none => (.op o k, w)

theorem flowStep_client (q p : FlowProg C FlowLoop) (w : FlowWorld) (env : FlowEnv C) :
    flowStep M host roomUp roomDown (q, p, w) (0, env) =
      ((turn M host roomUp roomDown env 0 q w).1, p, (turn M host roomUp roomDown env 0 q w).2) := by
  unfold flowStep turn
  cases q with
  | ret l => rfl
  | panic m => rfl
  | op o k =>
    simp only [Loops.step, List.getElem?_cons_zero]
    cases flowExec roomUp roomDown env 0 o w <;> rfl

theorem flowStep_server (q p : FlowProg C FlowLoop) (w : FlowWorld) (env : FlowEnv C) :
    flowStep M host roomUp roomDown (q, p, w) (1, env) =
      (q, (turn M host roomUp roomDown env 1 p w).1, (turn M host roomUp roomDown env 1 p w).2) := by
  unfold flowStep turn
  cases p with
  | ret l => rfl
  | panic m => rfl
  | op o k =>
    simp only [Loops.step, List.getElem?_cons_succ, List.getElem?_cons_zero]
    cases flowExec roomUp roomDown env 1 o w <;> rfl

theorem flowStep_other (q p : FlowProg C FlowLoop) (w : FlowWorld) (i : Nat) (env : FlowEnv C) :
    flowStep M host roomUp roomDown (q, p, w) (i + 2, env) = (q, p, w) := rfl

/-- The two goroutines and the connection. -/
abbrev FlowEnds (C : Crypto) := FlowProg C FlowLoop × FlowProg C FlowLoop × FlowWorld

/-- At the start. -/
abbrev atStart (app : FlowProg C FlowLoop) : FlowEnds C := (app, .ret .serving, {})

/-- The two goroutines and the connection `n` steps after `app`. -/
def flowTrace (M : Manager C) (host : Except Err Bytes) (roomUp roomDown : Nat) (app : FlowEnds C)
    (σ : Nat → Nat × FlowEnv C) : Nat → FlowEnds C
  | 0 => app
  | n + 1 => flowStep M host roomUp roomDown (flowTrace M host roomUp roomDown app σ n) (σ n)

theorem flowAfter_trace (app : FlowProg C FlowLoop) (σ : Nat → Nat × FlowEnv C) (n : Nat) :
    flowAfter M host roomUp roomDown app σ n =
      ⟨(flowTrace M host roomUp roomDown (atStart app) σ n).2.2,
        [(flowTrace M host roomUp roomDown (atStart app) σ n).1, (flowTrace M host roomUp roomDown (atStart app) σ n).2.1]⟩ := by
  induction n with
  | zero => rfl
  | succ n ih =>
    show Loops.step _ _ (flowAfter M host roomUp roomDown app σ n) (σ n) = _
    rw [ih, flowStep_eq]
    rfl

theorem flowRun_trace (app : FlowProg C FlowLoop) (acts : List (Nat × FlowEnv C)) (env : FlowEnv C) :
    flowRun M host roomUp roomDown app acts =
      flowAfter M host roomUp roomDown app (fun n => acts.getD n (0, env)) acts.length := by
  suffices h : ∀ k ≤ acts.length, flowRun M host roomUp roomDown app (acts.take k) =
      flowAfter M host roomUp roomDown app (fun n => acts.getD n (0, env)) k by
    have := h acts.length (Nat.le_refl _)
    rwa [List.take_length] at this
  intro k hk
  induction k with
  | zero => rfl
  | succ k ih =>
    rw [List.take_add_one, List.getElem?_eq_getElem (by omega)]
    unfold flowRun Loops.run at ih ⊢
    rw [List.foldl_append, ih (by omega)]
    show Loops.step _ _ _ _ = Loops.step _ _ _ _
    have hk' : acts.getD k (0, env) = acts[k] := by
      rw [List.getD_eq_getElem?_getD, List.getElem?_eq_getElem (by omega)]
      rfl
    rw [← hk']

variable {app : FlowEnds C} {σ : Nat → Nat × FlowEnv C}

/-- A goroutine that is not scheduled stays where it is; it is scheduled sooner or later. -/
theorem client_turn (hfair : FlowFair σ) (n : Nat) : ∃ m, n ≤ m ∧ (σ m).1 = 0 ∧ (∀ j, n ≤ j → j < m → (σ j).1 ≠ 0) ∧
    ∀ j, n ≤ j → j ≤ m → (flowTrace M host roomUp roomDown app σ j).1 = (flowTrace M host roomUp roomDown app σ n).1 := by
  obtain ⟨m, hm, h0⟩ := hfair 0 (by omega) n
  obtain ⟨d, rfl⟩ := Nat.exists_eq_add_of_le hm
  clear hm
  induction d generalizing n with
  | zero => exact ⟨n, Nat.le_refl _, h0, fun j h1 h2 => by omega, fun j h1 h2 => by rw [Nat.le_antisymm h2 h1]⟩
  | succ d ih =>
    by_cases hn : (σ n).1 = 0
    · exact ⟨n, Nat.le_refl _, hn, fun j h1 h2 => by omega, fun j h1 h2 => by rw [Nat.le_antisymm h2 h1]⟩
    · obtain ⟨m, hm, h1, h3, h2⟩ := ih (n + 1) (by rw [show n + 1 + d = n + (d + 1) by omega]; exact h0)
      have hstep : (flowTrace M host roomUp roomDown app σ (n + 1)).1 = (flowTrace M host roomUp roomDown app σ n).1 := by
        show (flowStep M host roomUp roomDown (flowTrace M host roomUp roomDown app σ n) (σ n)).1 = _
        generalize flowTrace M host roomUp roomDown app σ n = s
        obtain ⟨q, p, w⟩ := s
        rcases hσ : σ n with ⟨i, env⟩
        rw [hσ] at hn
        match i with
        | 0 => exact (hn rfl).elim
        | 1 => rw [flowStep_server]
        | i + 2 => rfl
      refine ⟨m, by omega, h1, fun j hj1 hj2 => ?_, fun j hj1 hj2 => ?_⟩
      · rcases Nat.lt_or_ge n j with hlt | hge
        · exact h3 j hlt hj2
        · rw [Nat.le_antisymm hge hj1]
          exact hn
      rcases Nat.lt_or_ge n j with hlt | hge
      · rw [h2 j hlt hj2, hstep]
      · rw [Nat.le_antisymm hge hj1]

theorem server_turn (hfair : FlowFair σ) (n : Nat) : ∃ m, n ≤ m ∧ (σ m).1 = 1 ∧
    ∀ j, n ≤ j → j ≤ m →
      (flowTrace M host roomUp roomDown app σ j).2.1 = (flowTrace M host roomUp roomDown app σ n).2.1 := by
  obtain ⟨m, hm, h0⟩ := hfair 1 (by omega) n
  obtain ⟨d, rfl⟩ := Nat.exists_eq_add_of_le hm
  clear hm
  induction d generalizing n with
  | zero => exact ⟨n, Nat.le_refl _, h0, fun j h1 h2 => by rw [Nat.le_antisymm h2 h1]⟩
  | succ d ih =>
    by_cases hn : (σ n).1 = 1
    · exact ⟨n, Nat.le_refl _, hn, fun j h1 h2 => by rw [Nat.le_antisymm h2 h1]⟩
    · obtain ⟨m, hm, h1, h2⟩ := ih (n + 1) (by rw [show n + 1 + d = n + (d + 1) by omega]; exact h0)
      have hstep : (flowTrace M host roomUp roomDown app σ (n + 1)).2.1 =
          (flowTrace M host roomUp roomDown app σ n).2.1 := by
        show (flowStep M host roomUp roomDown (flowTrace M host roomUp roomDown app σ n) (σ n)).2.1 = _
        generalize flowTrace M host roomUp roomDown app σ n = s
        obtain ⟨q, p, w⟩ := s
        rcases hσ : σ n with ⟨i, env⟩
        rw [hσ] at hn
        match i with
        | 0 => rw [flowStep_client]
        | 1 => exact (hn rfl).elim
        | i + 2 => rfl
      refine ⟨m, by omega, h1, fun j hj1 hj2 => ?_⟩
      rcases Nat.lt_or_ge n j with hlt | hge
      · rw [h2 j hlt hj2, hstep]
      · rw [Nat.le_antisymm hge hj1]

/-- A step of the client, at its turn. -/
theorem trace_client {m : Nat} (h : (σ m).1 = 0) :
    flowTrace M host roomUp roomDown app σ (m + 1) =
      ((turn M host roomUp roomDown (σ m).2 0 (flowTrace M host roomUp roomDown app σ m).1
          (flowTrace M host roomUp roomDown app σ m).2.2).1,
        (flowTrace M host roomUp roomDown app σ m).2.1,
        (turn M host roomUp roomDown (σ m).2 0 (flowTrace M host roomUp roomDown app σ m).1
          (flowTrace M host roomUp roomDown app σ m).2.2).2) := by
  have : σ m = (0, (σ m).2) := by rw [← h]
  show flowStep M host roomUp roomDown (flowTrace M host roomUp roomDown app σ m) (σ m) = _
  rw [this, flowStep_client]

theorem trace_server {m : Nat} (h : (σ m).1 = 1) :
    flowTrace M host roomUp roomDown app σ (m + 1) =
      ((flowTrace M host roomUp roomDown app σ m).1,
        (turn M host roomUp roomDown (σ m).2 1 (flowTrace M host roomUp roomDown app σ m).2.1
          (flowTrace M host roomUp roomDown app σ m).2.2).1,
        (turn M host roomUp roomDown (σ m).2 1 (flowTrace M host roomUp roomDown app σ m).2.1
          (flowTrace M host roomUp roomDown app σ m).2.2).2) := by
  have : σ m = (1, (σ m).2) := by rw [← h]
  show flowStep M host roomUp roomDown (flowTrace M host roomUp roomDown app σ m) (σ m) = _
  rw [this, flowStep_server]

/-- What both goroutines preserve holds at any time. -/
theorem trace_inv (I : FlowProg C FlowLoop → FlowProg C FlowLoop → FlowWorld → Prop)
    (hc : ∀ n q p w, I q p w → I (turn M host roomUp roomDown (σ n).2 0 q w).1 p
      (turn M host roomUp roomDown (σ n).2 0 q w).2)
    (hs : ∀ n q p w, I q p w → I q (turn M host roomUp roomDown (σ n).2 1 p w).1
      (turn M host roomUp roomDown (σ n).2 1 p w).2)
    (h0 : I app.1 app.2.1 app.2.2) (n : Nat) :
    I (flowTrace M host roomUp roomDown app σ n).1 (flowTrace M host roomUp roomDown app σ n).2.1
      (flowTrace M host roomUp roomDown app σ n).2.2 := by
  induction n with
  | zero => exact h0
  | succ n ih =>
    rcases hσ : σ n with ⟨i, env⟩
    match i with
    | 0 =>
      rw [trace_client (by rw [hσ])]
      exact hc n _ _ _ ih
    | 1 =>
      rw [trace_server (by rw [hσ])]
      exact hs n _ _ _ ih
    | i + 2 =>
      have : flowTrace M host roomUp roomDown app σ (n + 1) = flowTrace M host roomUp roomDown app σ n := by
        show flowStep M host roomUp roomDown (flowTrace M host roomUp roomDown app σ n) (σ n) = _
        rw [hσ]
        rfl
      rw [this]
      exact ih

/-! ## A client that only writes -/

variable {P : Bytes → Prop} {er : Bool}

theorem trace_invW {app : FlowProg C FlowLoop} (hM : M.Passive) (n : Nat) (hσ : ∀ m, EnvGood P (σ m).2)
    (happ : WriteOnly er app .idle n) (m : Nat) :
    InvW P er n roomUp roomDown (flowTrace M host roomUp roomDown (atStart app) σ m).1
      (flowTrace M host roomUp roomDown (atStart app) σ m).2.1 (flowTrace M host roomUp roomDown (atStart app) σ m).2.2 := by
  refine trace_inv (InvW P er n roomUp roomDown) ?_ ?_ ?_ m
  · intro j q p w h
    cases q with
    | ret l =>
      obtain ⟨st, m', ⟨rfl, -⟩, -⟩ := id h
      exact h
    | panic e => exact h
    | op o k =>
      unfold turn
      simp only []
      split
      · rename_i r hr
        exact h.client (σ j).2 (by rw [hr])
      · exact h
  · intro j q p w h
    cases p with
    | ret l => exact h.loop hM host
    | panic e => exact h
    | op o k =>
      unfold turn
      simp only []
      split
      · rename_i r hr
        exact h.server (hσ j) (by rw [hr])
      · exact h
  · refine ⟨.idle, n, happ, Nat.zero_le _, Nat.zero_le _, by simp [Sending.begun], .inr ⟨rfl, 0, 0, [], [], [],
      (fun h => by cases h), .inl ⟨rfl, rfl, rfl, .inl rfl⟩, by simp, .inl rfl, by simp [Sending.todo], by simp, by simp,
      by simp, by simp [FlowWorld.oks, Sending.inFlight]⟩⟩

/-- There is a request. -/
theorem exists_flowRequest (er : Bool) : ∃ req, FlowRequest er req :=
  ⟨_, ⟨List.replicate 16 0, rfl⟩, 0, [], by simp, rfl⟩

/-- A server about to send has room for it. -/
theorem InvW.room {n R : Nat} {q : FlowProg C FlowLoop} {b : Byte} {k : Bool → FlowProg C FlowLoop} {w : FlowWorld}
    (h : InvW P er n roomUp roomDown q (.op (.send b) k) w) (hw : w.closed = false)
    (hR : ReplyBound C P er R) (hroom : n * R ≤ roomDown) : w.down.length < roomDown := by
  obtain ⟨st, m, -, -, -, -, h⟩ := h
  rcases h with ⟨hc, -⟩ | ⟨-, j, mid, rest, out, queue, -, hs, -, -, -, -, hdown, hn, -⟩
  · rw [hw] at hc
    cases hc
  · rcases hs with ⟨-, -, -, hs⟩ | ⟨rfl, hs⟩
    · rcases hs with hs | hs
      · cases hs
      · obtain ⟨req, hreq⟩ := exists_flowRequest er
        exact (flowRequest_ne hreq (hs req hreq).1).elim
    · obtain ⟨-, ⟨y, hy⟩, -⟩ := hs
      have h1 := hR _ hy
      have h2 := hdown R hR
      simp only [List.length_append, List.length_cons, List.length_nil] at h1
      have h3 : R * (j + 1) ≤ R * n := Nat.mul_le_mul_left R (by omega)
      rw [Nat.mul_add, Nat.mul_one, Nat.mul_comm R n] at h3
      omega

/-- The client has to wait for ever. -/
def NoRoom (M : Manager C) (host : Except Err Bytes) (roomUp roomDown : Nat) (app : FlowEnds C)
    (σ : Nat → Nat × FlowEnv C) (n : Nat) : Prop :=
  ∀ m, n ≤ m → (flowTrace M host roomUp roomDown app σ m).2.2.closed = false ∧
    roomUp ≤ (flowTrace M host roomUp roomDown app σ m).2.2.up.length

section
variable {env : FlowEnv C} {w : FlowWorld}

theorem turn_server_send {b : Byte} {k : (FlowSig C).Ret (.send b) → FlowProg C FlowLoop} (h : w.down.length < roomDown) :
    turn M host roomUp roomDown env 1 (.op (.send b) k) w = (k true, { w with down := w.down ++ [b] }) := by
  have hx : flowExec roomUp roomDown env 1 (.send b) w = some (true, { w with down := w.down ++ [b] }) := if_pos h
  simp only [turn, hx]

theorem turn_server_full {b : Byte} {k : (FlowSig C).Ret (.send b) → FlowProg C FlowLoop} (h : ¬ w.down.length < roomDown) :
    turn M host roomUp roomDown env 1 (.op (.send b) k) w = (.op (.send b) k, w) := by
  have hx : flowExec roomUp roomDown env 1 (.send b) w = none := if_neg h
  simp only [turn, hx]

theorem turn_server_recv {b : Byte} {up : Bytes} {k : (FlowSig C).Ret .recv → FlowProg C FlowLoop} (h : w.up = b :: up) :
    turn M host roomUp roomDown env 1 (.op .recv k) w = (k (some b), { w with up := up }) := by
  have hx : flowExec roomUp roomDown env 1 .recv w = some (some b, { w with up := up }) := by
    show (match w.up with
      | b :: up => some (some b, { w with up })
      | [] => none) = _
    rw [h]
  simp only [turn, hx]

theorem turn_server_empty {k : (FlowSig C).Ret .recv → FlowProg C FlowLoop} (h : w.up = []) :
    turn M host roomUp roomDown env 1 (.op .recv k) w = (.op .recv k, w) := by
  have hx : flowExec roomUp roomDown env 1 .recv w = none := by
    show (match w.up with
      | b :: up => some (some b, { w with up })
      | [] => none) = _
    rw [h]
    rfl
  simp only [turn, hx]

theorem turn_client_send {b : Byte} {k : (FlowSig C).Ret (.send b) → FlowProg C FlowLoop} (h : w.closed = false)
    (h' : w.up.length < roomUp) :
    turn M host roomUp roomDown env 0 (.op (.send b) k) w = (k true, { w with up := w.up ++ [b] }) := by
  have hx : flowExec roomUp roomDown env 0 (.send b) w = some (true, { w with up := w.up ++ [b] }) := by
    show (if w.closed = true then _ else if w.up.length < roomUp then _ else _) = _
    rw [h, if_neg (by simp), if_pos h']
    rfl
  simp only [turn, hx]

theorem turn_client_closed {b : Byte} {k : (FlowSig C).Ret (.send b) → FlowProg C FlowLoop} (h : w.closed = true) :
    turn M host roomUp roomDown env 0 (.op (.send b) k) w = (k false, w) := by
  have hx : flowExec roomUp roomDown env 0 (.send b) w = some (false, w) := by
    show (if w.closed = true then _ else if w.up.length < roomUp then _ else _) = _
    rw [h, if_pos rfl]
    rfl
  simp only [turn, hx]

theorem turn_client_full {b : Byte} {k : (FlowSig C).Ret (.send b) → FlowProg C FlowLoop} (h : w.closed = false)
    (h' : ¬ w.up.length < roomUp) :
    turn M host roomUp roomDown env 0 (.op (.send b) k) w = (.op (.send b) k, w) := by
  have hx : flowExec roomUp roomDown env 0 (.send b) w = none := by
    show (if w.closed = true then _ else if w.up.length < roomUp then _ else _) = _
    rw [h, if_neg (by simp), if_neg h']
  simp only [turn, hx]

theorem turn_client_recv {b : Byte} {down : Bytes} {k : (FlowSig C).Ret .recv → FlowProg C FlowLoop} (h : w.down = b :: down) :
    turn M host roomUp roomDown env 0 (.op .recv k) w = (k (some b), { w with down := down }) := by
  have hx : flowExec roomUp roomDown env 0 .recv w = some (some b, { w with down := down }) := by
    show (match w.down with
      | b :: down => some (some b, { w with down })
      | [] => if w.closed then some (none, w) else none) = _
    rw [h]
  simp only [turn, hx]

theorem turn_client_over {k : (FlowSig C).Ret .recv → FlowProg C FlowLoop} (h : w.down = []) (h' : w.closed = true) :
    turn M host roomUp roomDown env 0 (.op .recv k) w = (k none, w) := by
  have hx : flowExec roomUp roomDown env 0 .recv w = some (none, w) := by
    show (match w.down with
      | b :: down => some (some b, { w with down })
      | [] => if w.closed then some (none, w) else none) = _
    rw [h, h']
    rfl
  simp only [turn, hx]

theorem turn_client_empty {k : (FlowSig C).Ret .recv → FlowProg C FlowLoop} (h : w.down = []) (h' : w.closed = false) :
    turn M host roomUp roomDown env 0 (.op .recv k) w = (.op .recv k, w) := by
  have hx : flowExec roomUp roomDown env 0 .recv w = none := by
    show (match w.down with
      | b :: down => some (some b, { w with down })
      | [] => if w.closed then some (none, w) else none) = _
    rw [h, h']
    rfl
  simp only [turn, hx]

/-- The server does not put anything in front of the client, and a closed connection stays closed. -/
theorem turn_server_le (p : FlowProg C FlowLoop) :
    (turn M host roomUp roomDown env 1 p w).2.up.length ≤ w.up.length ∧
      (w.closed = true → (turn M host roomUp roomDown env 1 p w).2.closed = true) := by
  cases p with
  | ret l => exact ⟨Nat.le_refl _, id⟩
  | panic m => exact ⟨Nat.le_refl _, id⟩
  | op o k =>
    cases o with
    | send b =>
      by_cases h : w.down.length < roomDown
      · rw [turn_server_send h]
        exact ⟨Nat.le_refl _, id⟩
      · rw [turn_server_full h]
        exact ⟨Nat.le_refl _, id⟩
    | recv =>
      cases h : w.up with
      | nil =>
        rw [turn_server_empty h, h]
        exact ⟨Nat.le_refl _, id⟩
      | cons b up =>
        rw [turn_server_recv h]
        exact ⟨by simp, id⟩
    | hangUp => exact ⟨Nat.le_refl _, fun _ => rfl⟩
    | server o => exact ⟨Nat.le_refl _, id⟩
    | client o => exact ⟨Nat.le_refl _, id⟩
    | wrote r => exact ⟨Nat.le_refl _, id⟩
    | gotData r => exact ⟨Nat.le_refl _, id⟩

end

theorem noRoom_pass (hfair : FlowFair σ) (hup : 0 < roomUp)
    (hcap : ∀ m, (flowTrace M host roomUp roomDown app σ m).2.2.up.length ≤ roomUp)
    (hσ : ∀ m, EnvGood P (σ m).2) (t0 : Nat)
    (hsend : ∀ m b k, t0 ≤ m → (flowTrace M host roomUp roomDown app σ m).2.1 = .op (.send b) k →
      (flowTrace M host roomUp roomDown app σ m).2.2.closed = false →
      (flowTrace M host roomUp roomDown app σ m).2.2.down.length < roomDown)
    (hloop : ∀ t, (flowTrace M host roomUp roomDown app σ t).2.1 = .ret .serving →
      NoRoom M host roomUp roomDown app σ t → False)
    (p : FlowProg C FlowLoop) : ∀ (rest out : Bytes) (t : Nat), t0 ≤ t → Pass P er p rest out →
      (flowTrace M host roomUp roomDown app σ t).2.1 = p → NoRoom M host roomUp roomDown app σ t → False := by
  induction p with
  | ret l =>
    intro rest out t ht0 hp ht hno
    obtain ⟨rfl, -⟩ := hp
    exact hloop t ht hno
  | panic m => intro rest out t ht0 hp; exact hp.elim
  | op o k ih =>
    intro rest out t ht0 hp ht hno
    obtain ⟨m, hm, hturn, hstay⟩ := server_turn (M := M) (host := host) (roomUp := roomUp) (roomDown := roomDown)
      (app := app) hfair t
    have hpm := (hstay m hm (Nat.le_refl _)).trans ht
    have hnext := trace_server (M := M) (host := host) (roomUp := roomUp) (roomDown := roomDown) (app := app) hturn
    have hnm := hno m hm
    have hnm' := hno (m + 1) (by omega)
    have hi := hcap m
    have hsm := fun b k => hsend m b k (by omega)
    have hno' : NoRoom M host roomUp roomDown app σ (m + 1) := fun j hj => hno j (by omega)
    generalize hs : flowTrace M host roomUp roomDown app σ m = s at *
    obtain ⟨q, p, w⟩ := s
    simp only at hpm hnext hnm hi hsm
    subst hpm
    cases o with
    | send b =>
      have hroom' := hsm b k rfl hnm.1
      rw [turn_server_send hroom'] at hnext
      exact ih true rest _ (m + 1) (by omega) hp.2.2 (by rw [hnext]) hno'
    | recv =>
      have hle := hi
      cases hw : w.up with
      | nil =>
        rw [hw] at hnm
        simp only [List.length_nil] at hnm
        omega
      | cons b up =>
        rw [turn_server_recv hw] at hnext
        rw [hnext] at hnm'
        rw [hw] at hle
        simp only [List.length_cons] at hnm' hle
        omega
    | hangUp =>
      rw [hnext] at hnm'
      exact absurd hnm'.1 (by simp [turn, flowExec])
    | server o =>
      exact ih _ rest out (m + 1) (by omega) (hp _ (flowGood_answer (hσ m) o)) (by rw [hnext]; rfl) hno'
    | client o => exact hp.elim
    | wrote r => exact hp.elim
    | gotData r => exact hp.elim

/-- A pass that has not read its request does not go on without reading. -/
theorem noRoom_start (hfair : FlowFair σ) (hup : 0 < roomUp)
    (hcap : ∀ m, (flowTrace M host roomUp roomDown app σ m).2.2.up.length ≤ roomUp)
    (hσ : ∀ m, EnvGood P (σ m).2)
    (p : FlowProg C FlowLoop) : ∀ (rest : Bytes) (t : Nat), Pass P er p rest [] → rest ≠ [] →
      (flowTrace M host roomUp roomDown app σ t).2.1 = p → NoRoom M host roomUp roomDown app σ t → False := by
  induction p with
  | ret l =>
    intro rest t hp hne ht hno
    exact hne hp.2.1
  | panic m => intro rest t hp; exact hp.elim
  | op o k ih =>
    intro rest t hp hne ht hno
    obtain ⟨m, hm, hturn, hstay⟩ := server_turn (M := M) (host := host) (roomUp := roomUp) (roomDown := roomDown)
      (app := app) hfair t
    have hpm := (hstay m hm (Nat.le_refl _)).trans ht
    have hnext := trace_server (M := M) (host := host) (roomUp := roomUp) (roomDown := roomDown) (app := app) hturn
    have hnm := hno m hm
    have hnm' := hno (m + 1) (by omega)
    have hi := hcap m
    have hno' : NoRoom M host roomUp roomDown app σ (m + 1) := fun j hj => hno j (by omega)
    generalize hs : flowTrace M host roomUp roomDown app σ m = s at *
    obtain ⟨q, p, w⟩ := s
    simp only at hpm hnext hnm hi
    subst hpm
    cases o with
    | send b => exact hne hp.1
    | recv =>
      have hle := hi
      cases hw : w.up with
      | nil =>
        rw [hw] at hnm
        simp only [List.length_nil] at hnm
        omega
      | cons b up =>
        rw [turn_server_recv hw] at hnext
        rw [hnext] at hnm'
        rw [hw] at hle
        simp only [List.length_cons] at hnm' hle
        omega
    | hangUp =>
      rw [hnext] at hnm'
      exact absurd hnm'.1 (by simp [turn, flowExec])
    | server o =>
      exact ih _ rest (m + 1) (hp _ (flowGood_answer (hσ m) o)) hne (by rw [hnext]; rfl) hno'
    | client o => exact hp.elim
    | wrote r => exact hp.elim
    | gotData r => exact hp.elim

/-- A server between two passes reads. -/
theorem noRoom_loop (hM : M.Passive) (hfair : FlowFair σ) (hup : 0 < roomUp)
    (hcap : ∀ m, (flowTrace M host roomUp roomDown app σ m).2.2.up.length ≤ roomUp)
    (hσ : ∀ m, EnvGood P (σ m).2) (er : Bool) (t : Nat)
    (ht : (flowTrace M host roomUp roomDown app σ t).2.1 = .ret .serving)
    (hno : NoRoom M host roomUp roomDown app σ t) : False := by
  obtain ⟨req, hreq⟩ := exists_flowRequest er
  obtain ⟨m, hm, hturn, hstay⟩ := server_turn (M := M) (host := host) (roomUp := roomUp) (roomDown := roomDown)
    (app := app) hfair t
  have hpm := (hstay m hm (Nat.le_refl _)).trans ht
  have hnext := trace_server (M := M) (host := host) (roomUp := roomUp) (roomDown := roomDown) (app := app) hturn
  rw [hpm] at hnext
  exact noRoom_start hfair hup hcap hσ (serverPass M host) req (m + 1) (pass_serverPass hM host hreq)
    (flowRequest_ne hreq) (by rw [hnext]; rfl) fun j hj => hno j (by omega)

/-- The server makes room, or closes the connection. -/
theorem not_noRoom {n : Nat} (hM : M.Passive) (hfair : FlowFair σ) (hup : 0 < roomUp)
    (hinv : ∀ m, InvW P er n roomUp roomDown (flowTrace M host roomUp roomDown app σ m).1
      (flowTrace M host roomUp roomDown app σ m).2.1 (flowTrace M host roomUp roomDown app σ m).2.2)
    (hσ : ∀ m, EnvGood P (σ m).2) (R : Nat) (hR : ReplyBound C P er R) (hroom : n * R ≤ roomDown) (t : Nat) :
    ¬ NoRoom M host roomUp roomDown app σ t := by
  obtain ⟨req, hreq⟩ := exists_flowRequest er
  have hcap : ∀ m, (flowTrace M host roomUp roomDown app σ m).2.2.up.length ≤ roomUp := by
    intro m
    obtain ⟨st, m', -, hle, -⟩ := hinv m
    exact hle
  have hloop := noRoom_loop hM hfair hup hcap hσ er
  intro hno
  obtain ⟨st, m, -, -, -, -, h⟩ := hinv t
  rcases h with ⟨hc, -⟩ | ⟨-, j, mid, rest, out, queue, -, hs, -⟩
  · rw [(hno t (Nat.le_refl _)).1] at hc
    cases hc
  · rcases hs with ⟨-, -, -, hs⟩ | ⟨-, hs⟩
    · rcases hs with hs | hs
      · exact hloop t hs hno
      · exact noRoom_start hfair hup hcap hσ _ req t (hs req hreq) (flowRequest_ne hreq) rfl hno
    · exact noRoom_pass hfair hup hcap hσ t (fun m b k _ h1 h2 => by
        have hi := hinv m
        rw [h1] at hi
        exact hi.room h2 hR hroom) hloop _ rest out t (Nat.le_refl _) hs rfl hno

/-- Room stays until the client moves. -/
theorem trace_room_stays {t m : Nat} (htm : t ≤ m)
    (hno : ∀ j, t ≤ j → j < m → (σ j).1 ≠ 0)
    (h : (flowTrace M host roomUp roomDown app σ t).2.2.closed = true ∨
      (flowTrace M host roomUp roomDown app σ t).2.2.up.length < roomUp) :
    (flowTrace M host roomUp roomDown app σ m).2.2.closed = true ∨
      (flowTrace M host roomUp roomDown app σ m).2.2.up.length < roomUp := by
  obtain ⟨d, rfl⟩ := Nat.exists_eq_add_of_le htm
  induction d with
  | zero => exact h
  | succ d ih =>
    have ih := ih (by omega) fun j h1 h2 => hno j h1 (by omega)
    have hn := hno (t + d) (by omega) (by omega)
    rw [show t + (d + 1) = t + d + 1 by omega]
    show (flowStep M host roomUp roomDown (flowTrace M host roomUp roomDown app σ (t + d)) (σ (t + d))).2.2.closed = true ∨
      (flowStep M host roomUp roomDown (flowTrace M host roomUp roomDown app σ (t + d)) (σ (t + d))).2.2.up.length < roomUp
    revert ih
    generalize flowTrace M host roomUp roomDown app σ (t + d) = s
    intro ih
    obtain ⟨q, p, w⟩ := s
    rcases hσ : σ (t + d) with ⟨i, env⟩
    rw [hσ] at hn
    match i with
    | 0 => exact (hn rfl).elim
    | i + 2 => exact ih
    | 1 =>
      rw [flowStep_server]
      have hle := turn_server_le (M := M) (host := host) (roomUp := roomUp) (roomDown := roomDown) (env := env) (w := w) p
      rcases ih with ih | ih
      · exact .inl (hle.2 ih)
      · exact .inr (Nat.lt_of_le_of_lt hle.1 ih)

/-- A client that has to send goes on, if the server makes room. -/
theorem send_moves (hfair : FlowFair σ) {t : Nat} {b : Byte} {k : (FlowSig C).Ret (.send b) → FlowProg C FlowLoop}
    (ht : (flowTrace M host roomUp roomDown app σ t).1 = .op (.send b) k)
    (hno : (∀ m, t ≤ m → (flowTrace M host roomUp roomDown app σ m).1 = .op (.send b) k) →
      ¬ NoRoom M host roomUp roomDown app σ t) :
    ∃ m r, (flowTrace M host roomUp roomDown app σ m).1 = k r := by
  have hmove : ∀ m, (σ m).1 = 0 → (flowTrace M host roomUp roomDown app σ m).1 = .op (.send b) k →
      (turn M host roomUp roomDown (σ m).2 0 (.op (.send b) k) (flowTrace M host roomUp roomDown app σ m).2.2).1 =
        (flowTrace M host roomUp roomDown app σ (m + 1)).1 := by
    intro m hm hq
    rw [trace_client hm, hq]
  by_cases hex : ∃ m0, t ≤ m0 ∧ (flowTrace M host roomUp roomDown app σ m0).1 = .op (.send b) k ∧
      ((flowTrace M host roomUp roomDown app σ m0).2.2.closed = true ∨
        (flowTrace M host roomUp roomDown app σ m0).2.2.up.length < roomUp)
  · obtain ⟨m0, hm0, hq0, hroom0⟩ := hex
    obtain ⟨m, hm, hturn, hfirst, hstay⟩ := client_turn (M := M) (host := host) (roomUp := roomUp)
      (roomDown := roomDown) (app := app) hfair m0
    have hrm := trace_room_stays hm hfirst hroom0
    have := hmove m hturn ((hstay m hm (Nat.le_refl _)).trans hq0)
    cases hc : (flowTrace M host roomUp roomDown app σ m).2.2.closed with
    | true =>
      rw [turn_client_closed hc] at this
      exact ⟨m + 1, false, this.symm⟩
    | false =>
      rw [hc] at hrm
      rw [turn_client_send hc (hrm.resolve_left (by simp))] at this
      exact ⟨m + 1, true, this.symm⟩
  · exfalso
    have hall : ∀ d, (flowTrace M host roomUp roomDown app σ (t + d)).1 = .op (.send b) k := by
      intro d
      induction d with
      | zero => exact ht
      | succ d ihd =>
        rw [show t + (d + 1) = t + d + 1 by omega]
        have hno : ¬ ((flowTrace M host roomUp roomDown app σ (t + d)).2.2.closed = true ∨
          (flowTrace M host roomUp roomDown app σ (t + d)).2.2.up.length < roomUp) :=
          fun h => hex ⟨t + d, by omega, ihd, h⟩
        by_cases h0 : (σ (t + d)).1 = 0
        · rw [← hmove (t + d) h0 ihd, turn_client_full]
          · cases hc : (flowTrace M host roomUp roomDown app σ (t + d)).2.2.closed with
            | true => exact (hno (.inl hc)).elim
            | false => rfl
          · exact fun h => hno (.inr h)
        · refine Eq.trans ?_ ihd
          show (flowStep M host roomUp roomDown (flowTrace M host roomUp roomDown app σ (t + d)) (σ (t + d))).1 = _
          generalize flowTrace M host roomUp roomDown app σ (t + d) = s
          obtain ⟨q, p, w⟩ := s
          rcases hσ' : σ (t + d) with ⟨i, env⟩
          rw [hσ'] at h0
          match i with
          | 0 => exact (h0 rfl).elim
          | 1 => rw [flowStep_server]
          | i + 2 => rfl
    refine hno (fun m hm => ?_) fun m hm => ?_
    · have hq := hall (m - t)
      rw [show t + (m - t) = m by omega] at hq
      exact hq
    have hq := hall (m - t)
    rw [show t + (m - t) = m by omega] at hq
    constructor
    · cases hc : (flowTrace M host roomUp roomDown app σ m).2.2.closed with
      | true => exact (hex ⟨m, hm, hq, .inl hc⟩).elim
      | false => rfl
    · rcases Nat.lt_or_ge (flowTrace M host roomUp roomDown app σ m).2.2.up.length roomUp with hlt | hge
      · exact (hex ⟨m, hm, hq, .inr hlt⟩).elim
      · exact hge

/-- A client that only writes comes to its end. -/
theorem writeOnly_ends {n : Nat} (hM : M.Passive) (hfair : FlowFair σ) (hup : 0 < roomUp)
    (hinv : ∀ m, InvW P er n roomUp roomDown (flowTrace M host roomUp roomDown app σ m).1
      (flowTrace M host roomUp roomDown app σ m).2.1 (flowTrace M host roomUp roomDown app σ m).2.2)
    (hσ : ∀ m, EnvGood P (σ m).2) (R : Nat) (hR : ReplyBound C P er R) (hroom : n * R ≤ roomDown)
    (q : FlowProg C FlowLoop) : ∀ t, (flowTrace M host roomUp roomDown app σ t).1 = q →
      ∃ m, (flowTrace M host roomUp roomDown app σ m).1 = .ret .ended := by
  induction q with
  | ret l =>
    intro t ht
    obtain ⟨st, m, hw, -⟩ := hinv t
    rw [ht] at hw
    obtain ⟨rfl, -⟩ := hw
    exact ⟨t, ht⟩
  | panic m =>
    intro t ht
    obtain ⟨st, m, hw, -⟩ := hinv t
    rw [ht] at hw
    exact hw.elim
  | op o k ih =>
    intro t ht
    -- it is enough that it can move at some time
    suffices h : ∃ m r, (flowTrace M host roomUp roomDown app σ m).1 = k r by
      obtain ⟨m, r, h⟩ := h
      exact ih r m h
    have hmove : ∀ m, (σ m).1 = 0 → (flowTrace M host roomUp roomDown app σ m).1 = .op o k →
        (turn M host roomUp roomDown (σ m).2 0 (.op o k) (flowTrace M host roomUp roomDown app σ m).2.2).1 =
          (flowTrace M host roomUp roomDown app σ (m + 1)).1 := by
      intro m hm hq
      rw [trace_client hm, hq]
    have hsimple : (∀ env w, ∃ r, (turn M host roomUp roomDown env 0 (.op o k) w).1 = k r) →
        ∃ m r, (flowTrace M host roomUp roomDown app σ m).1 = k r := by
      intro h
      obtain ⟨m, hm, hturn, -, hstay⟩ := client_turn (M := M) (host := host) (roomUp := roomUp) (roomDown := roomDown)
        (app := app) hfair t
      obtain ⟨r, hr⟩ := h (σ m).2 (flowTrace M host roomUp roomDown app σ m).2.2
      exact ⟨m + 1, r, by rw [← hr, hmove m hturn ((hstay m hm (Nat.le_refl _)).trans ht)]⟩
    cases o with
    | send b =>
      exact send_moves hfair ht fun _ => not_noRoom hM hfair hup hinv hσ R hR hroom t
    | recv =>
      obtain ⟨st, m, hw, -⟩ := hinv t
      rw [ht] at hw
      exact hw.elim
    | hangUp => exact hsimple fun env w => ⟨(), rfl⟩
    | server o => exact hsimple fun env w => ⟨_, rfl⟩
    | client o => exact hsimple fun env w => ⟨_, rfl⟩
    | wrote r => exact hsimple fun env w => ⟨(), rfl⟩
    | gotData r => exact hsimple fun env w => ⟨(), rfl⟩

end

end Goe2ee
