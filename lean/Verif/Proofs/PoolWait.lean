import Verif.Spec.Pool
import Verif.Proofs.Loops

/-!
# Where waiting goroutines are, and `Get` alone
-/

set_option autoImplicit false

namespace Goe2ee

/-- `P` holds for the program and for everything it may become. -/
def Every {S : Sig} {α : Type} (P : Prog S α → Prop) : Prog S α → Prop
  | .ret a => P (.ret a)
  | .panic s => P (.panic s)
  | .op o k => P (.op o k) ∧ ∀ r, Every P (k r)

theorem Every.head {S : Sig} {α : Type} {P : Prog S α → Prop} {p : Prog S α} (h : Every P p) : P p := by
  cases p with
  | ret a => exact h
  | panic s => exact h
  | op o k => exact h.1

/-- A goroutine in `Get` that waits for a client. -/
def awaiting (cfg : PoolCfg) (careless : Bool) : Prog PSig PLoop :=
  .op .await fun (o : Option Nat) =>
  match o with
  | none => .panic "nil pointer dereference"
  | some c => poolTry cfg careless c (poolDial careless)

/-- Parking leads to waiting. -/
def parks (cfg : PoolCfg) : Prog PSig PLoop → Prop
  | .op .park k => ∃ b, k () = awaiting cfg b
  | _ => True

section
variable (cfg : PoolCfg)

theorem parks_put (c : Nat) (f : Option Err → Prog PSig PLoop) (hf : ∀ e, Every (parks cfg) (f e)) :
    Every (parks cfg) ((poolPut cfg c).bind f) := by
  refine ⟨trivial, fun _ => ⟨trivial, fun r => ?_⟩⟩
  cases (r : SendRes) with
  | sent => exact ⟨trivial, fun _ => hf _⟩
  | closed => exact ⟨trivial, fun _ => trivial⟩
  | noReceiver =>
    refine ⟨trivial, fun n => ?_⟩
    show Every _ ((poolKeep cfg c n).bind f)
    unfold poolKeep
    split
    · exact ⟨trivial, fun _ => ⟨trivial, fun e => ⟨trivial, fun _ => hf _⟩⟩⟩
    · exact ⟨trivial, fun _ => ⟨trivial, fun _ => hf _⟩⟩

theorem parks_return (b : Bool) (r : Except Err Nat) : Every (parks cfg) (poolReturn b r) :=
  ⟨trivial, fun _ => trivial⟩

theorem parks_dial (b : Bool) : Every (parks cfg) (poolDial b) := by
  refine ⟨trivial, fun s => ?_⟩
  rcases (s : Option Nat) with _ | k
  all_goals
    refine ⟨trivial, fun r => ?_⟩
    rcases (r : Except Err Nat) with e | c
    · exact ⟨trivial, fun _ => parks_return cfg b _⟩
    · exact ⟨trivial, fun s => ⟨trivial, fun _ => ⟨trivial, fun _ => ⟨trivial, fun _ =>
        parks_return cfg b _⟩⟩⟩⟩

theorem parks_try (b : Bool) (c : Nat) (next : Prog PSig PLoop) (hnext : Every (parks cfg) next) :
    Every (parks cfg) (poolTry cfg b c next) := by
  refine ⟨trivial, fun ok => ?_⟩
  cases (ok : Bool) with
  | true => exact parks_return cfg b _
  | false => exact parks_put cfg c _ fun e => ⟨trivial, fun _ => ⟨trivial, fun _ => hnext⟩⟩

theorem parks_awaiting (b : Bool) : Every (parks cfg) (awaiting cfg b) := by
  refine ⟨trivial, fun o => ?_⟩
  rcases (o : Option Nat) with _ | c
  · trivial
  · exact parks_try cfg b c _ (parks_dial cfg b)

theorem parks_closeAll (cs : List Nat) (f : Option Err → Prog PSig PLoop)
    (hf : ∀ e, Every (parks cfg) (f e)) : Every (parks cfg) ((closeAll cs).bind f) := by
  induction cs with
  | nil => exact hf _
  | cons c cs ih =>
    refine ⟨trivial, fun e => ?_⟩
    rcases (e : Option Err) with _ | e
    · exact ih
    · exact hf _

theorem parks_body (l : PLoop) : Every (parks cfg) (poolBody cfg l) := by
  cases l with
  | user b =>
    refine ⟨trivial, fun cmd => ?_⟩
    rcases (cmd : Option Nat) with _ | c
    · exact ⟨trivial, fun _ => trivial⟩
    · exact parks_put cfg c _ fun e => trivial
  | scan b =>
    refine ⟨trivial, fun o => ?_⟩
    rcases (o : Option Nat) with _ | c
    · refine ⟨trivial, fun n => ?_⟩
      show Every _ (poolFull cfg b n)
      unfold poolFull
      split
      · exact ⟨trivial, fun _ => ⟨⟨b, rfl⟩, fun _ => parks_awaiting cfg b⟩⟩
      · exact parks_dial cfg b
    · exact ⟨trivial, fun _ => parks_try cfg b c _ trivial⟩
  | closer =>
    refine ⟨trivial, fun _ => ⟨trivial, fun cs => parks_closeAll cfg cs _ fun e => ?_⟩⟩
    rcases e with _ | e
    · refine ⟨trivial, fun _ => ⟨trivial, fun _ => ⟨trivial, fun _ => ⟨trivial, fun ok =>
        ⟨trivial, fun _ => ?_⟩⟩⟩⟩⟩
      cases (ok : Bool) <;> trivial
    · exact ⟨trivial, fun _ => trivial⟩
  | done => trivial

end

/-- How often goroutine `i` is registered as waiting or served. -/
def registered (w : PWorld) (i : Nat) : Nat := w.waiting.count i + w.mail.countP (·.1 == i)

/-- Exactly the waiting goroutines are registered. -/
structure WaitInv (cfg : PoolCfg) (s : PoolSys) : Prop where
  every : ∀ p ∈ s.threads, Every (parks cfg) p
  once : ∀ i, registered s.world i ≤ 1
  at_ : ∀ i, 0 < registered s.world i → ∃ b, s.threads[i]? = some (awaiting cfg b)

theorem registered_erase (w : PWorld) (i : Nat) (m : Nat × Option Nat)
    (hm : w.mail.find? (·.1 == i) = some m) (j : Nat) :
    registered { w with mail := w.mail.erase m } j + (if j = i then 1 else 0) = registered w j := by
  have h1 := List.mem_of_find?_eq_some hm
  have h2 := List.find?_some hm
  have h3 : m.1 = i := by simpa using h2
  have h4 := (List.perm_cons_erase h1).countP_eq (·.1 == j)
  simp only [List.countP_cons] at h4
  simp only [registered]
  rw [h3] at h4
  by_cases hij : j = i
  · subst hij; simp at h4 ⊢; omega
  · have : (i == j) = false := by simpa using fun h => hij h.symm
    simp only [this] at h4
    simp only [hij, if_false]
    simp at h4
    omega

theorem count_eraseIdx' (l : List Nat) (k j d : Nat) (h : l[k]? = some j) :
    (l.eraseIdx k).count d + (if j = d then 1 else 0) = l.count d := by
  induction l generalizing k with
  | nil => cases h
  | cons a l ih =>
    cases k with
    | zero =>
      cases h
      simp [List.count_cons]
    | succ k =>
      have := ih k (by simpa using h)
      simp only [List.eraseIdx_cons_succ, List.count_cons]
      omega

/-- Effects that leave the registrations alone. -/
theorem registered_other (e : PEnv) (i : Nat) (o : POp) (w w' : PWorld) (r : POp.Ret o)
    (h1 : o ≠ .park) (h2 : o ≠ .await) (hx : pexec e i o w = some (r, w')) (j : Nat) :
    registered w' j = registered w j := by
  cases o
  case park => exact absurd rfl h1
  case await => exact absurd rfl h2
  case lock =>
    simp only [pexec] at hx
    split at hx <;> cases hx
    rfl
  case dial b =>
    cases b <;> simp only [pexec] at hx <;> split at hx <;> cases hx <;> rfl
  case send c =>
    simp only [pexec] at hx
    split at hx
    · cases hx; rfl
    · split at hx
      · rename_i k hk
        cases hx
        have := count_eraseIdx' _ _ _ j hk
        simp only [registered, List.countP_append, List.countP_singleton]
        by_cases hkj : k = j
        · subst hkj; simp at this ⊢; omega
        · simp [hkj] at this ⊢; omega
      · split at hx <;> cases hx
        rfl
  case closeChan =>
    simp only [pexec] at hx
    split at hx
    · cases hx; rfl
    · cases hx
      simp only [registered, List.countP_append, List.countP_map, List.count_nil]
      have : List.countP ((fun (x : Nat × Option Nat) => x.1 == j) ∘ fun j => (j, none)) w.waiting
          = w.waiting.count j := rfl
      omega
  case command b =>
    cases b
    all_goals
      simp only [pexec] at hx
      split at hx
      · cases hx; rfl
      · split at hx <;> cases hx
        rfl
  case lend =>
    simp only [pexec] at hx
    split at hx <;> cases hx <;> rfl
  all_goals
    simp only [pexec] at hx
    cases hx
    rfl

theorem wait_step (cfg : PoolCfg) (s : PoolSys) (act : Nat × PEnv) (h : WaitInv cfg s) :
    WaitInv cfg (s.step cfg act) := by
  unfold PoolSys.step Loops.step
  split
  · rename_i l hl
    refine ⟨?_, h.once, ?_⟩
    · intro p hp
      rcases List.mem_or_eq_of_mem_set hp with hp | rfl
      · exact h.every p hp
      · exact parks_body cfg l
    · intro j hj
      obtain ⟨b, hb⟩ := h.at_ j hj
      refine ⟨b, ?_⟩
      rw [List.getElem?_set_ne]
      · exact hb
      · intro hij
        rw [hij, hb] at hl
        cases hl
  · rename_i o k hk
    have hev := h.every _ (List.mem_of_getElem? hk)
    split
    · rename_i r hr
      obtain ⟨r, w'⟩ := r
      have hlt : act.1 < s.threads.length := (List.getElem?_eq_some_iff.mp hk).1
      have hkeep : ∀ j, j ≠ act.1 → (s.threads.set act.1 (k r))[j]? = s.threads[j]? := fun j hj =>
        List.getElem?_set_ne (Ne.symm hj)
      have hevery : ∀ p ∈ s.threads.set act.1 (k r), Every (parks cfg) p := by
        intro p hp
        rcases List.mem_or_eq_of_mem_set hp with hp | rfl
        · exact h.every p hp
        · exact hev.2 r
      by_cases h1 : o = .park
      · subst h1
        simp only [pexec] at hr
        cases hr
        have hmine : registered s.world act.1 = 0 := by
          rcases Nat.eq_zero_or_pos (registered s.world act.1) with h0 | h0
          · exact h0
          · obtain ⟨b, hb⟩ := h.at_ _ h0
            rw [hk] at hb
            cases hb
        obtain ⟨b, hb⟩ := hev.1
        have hreg : ∀ j, registered (if s.world.closed then
              { s.world with mail := s.world.mail ++ [(act.1, none)] }
            else { s.world with waiting := s.world.waiting ++ [act.1] }) j
            = registered s.world j + if act.1 = j then 1 else 0 := by
          intro j
          split
          · simp only [registered, List.countP_append, List.countP_singleton]
            by_cases hj : act.1 = j
            · simp [hj]; omega
            · simp [hj]
          · simp only [registered, List.count_append, List.count_singleton]
            by_cases hj : act.1 = j
            · simp [hj]; omega
            · simp [hj]
        refine ⟨hevery, ?_, ?_⟩
        · intro j
          have := hreg j
          have h2 := h.once j
          dsimp only
          rw [this]
          by_cases hj : act.1 = j
          · rw [← hj, hmine]; simp
          · simp [hj]; exact h2
        · intro j hj
          dsimp only at hj
          rw [hreg j] at hj
          by_cases hij : act.1 = j
          · subst hij
            refine ⟨b, ?_⟩
            dsimp only
            rw [List.getElem?_set_self hlt]
            exact congrArg some hb
          · simp only [hij, if_false, Nat.add_zero] at hj
            obtain ⟨b', hb'⟩ := h.at_ j hj
            exact ⟨b', by dsimp only; rw [hkeep j (Ne.symm hij)]; exact hb'⟩
      · by_cases h2 : o = .await
        · subst h2
          simp only [pexec] at hr
          split at hr <;> cases hr
          rename_i m hm
          have hreg := registered_erase s.world act.1 m hm
          refine ⟨hevery, ?_, ?_⟩
          · intro j
            have h3 := hreg j
            have h4 := h.once j
            dsimp only
            omega
          · intro j hj
            have h3 := hreg j
            have h4 := h.once j
            by_cases hij : j = act.1
            · rw [if_pos hij] at h3
              dsimp only at hj
              omega
            · obtain ⟨b', hb'⟩ := h.at_ j (by dsimp only at hj; omega)
              exact ⟨b', by dsimp only; rw [hkeep j hij]; exact hb'⟩
        · have hreg := registered_other _ _ _ _ _ _ h1 h2 hr
          refine ⟨hevery, ?_, ?_⟩
          · intro j
            dsimp only
            rw [hreg]
            exact h.once j
          · intro j hj
            dsimp only at hj
            rw [hreg] at hj
            obtain ⟨b', hb'⟩ := h.at_ j hj
            refine ⟨b', ?_⟩
            dsimp only
            rw [hkeep]
            · exact hb'
            · rintro rfl
              rw [hk] at hb'
              cases hb'
              exact h2 rfl
    · exact h
  · exact h

theorem wait_reach (cfg : PoolCfg) (threads : List PLoop) (acts : List (Nat × PEnv)) :
    WaitInv cfg (PoolSys.run cfg (poolStart threads) acts) := by
  have h0 : WaitInv cfg (poolStart threads) := by
    refine ⟨?_, ?_, ?_⟩
    · intro p hp
      obtain ⟨l, -, rfl⟩ := List.mem_map.mp hp
      trivial
    · intro i; exact Nat.zero_le _
    · intro i hi; exact absurd hi (by simp [registered, poolStart, newPool])
  unfold PoolSys.run Loops.run
  generalize poolStart threads = s at h0
  induction acts generalizing s with
  | nil => exact h0
  | cons act acts ih => exact ih _ (wait_step cfg s act h0)

/-! ## `Get` alone -/

/-- Goroutine `i` is at `p`, in world `w`. -/
def At (i : Nat) (s : PoolSys) (w : PWorld) (p : Prog PSig PLoop) : Prop :=
  s.world = w ∧ s.threads[i]? = some p

theorem At.step_ret {cfg : PoolCfg} {i : Nat} {s : PoolSys} {w : PWorld} {l : PLoop} (e : PEnv)
    (h : At i s w (.ret l)) : At i (s.step cfg (i, e)) w (poolBody cfg l) := by
  unfold PoolSys.step Loops.step
  dsimp only
  rw [h.2]
  exact ⟨h.1, List.getElem?_set_self (List.getElem?_eq_some_iff.mp h.2).1⟩

theorem At.step_op {cfg : PoolCfg} {i : Nat} {s : PoolSys} {w : PWorld} {o : POp}
    {k : POp.Ret o → Prog PSig PLoop} (e : PEnv) {r : POp.Ret o} {w' : PWorld}
    (h : At i s w (.op o k)) (hx : pexec e i o w = some (r, w')) :
    At i (s.step cfg (i, e)) w' (k r) := by
  unfold PoolSys.step Loops.step
  dsimp only
  rw [h.2]
  dsimp only
  rw [h.1, hx]
  exact ⟨rfl, List.getElem?_set_self (List.getElem?_eq_some_iff.mp h.2).1⟩

/-- Other goroutines stay where they are. -/
theorem step_other {cfg : PoolCfg} {i j : Nat} (s : PoolSys) (e : PEnv) (hij : i ≠ j) :
    (s.step cfg (i, e)).threads[j]? = s.threads[j]? := by
  unfold PoolSys.step Loops.step
  dsimp only
  split
  · exact List.getElem?_set_ne hij
  · split
    · exact List.getElem?_set_ne hij
    · rfl
  · rfl

theorem At.world {i : Nat} {s : PoolSys} {w : PWorld} {p : Prog PSig PLoop} (h : At i s w p) :
    s.world = w := h.1

/-- One step of a goroutine that runs alone. -/
def one (cfg : PoolCfg) (alive : Nat → Bool) (d : Option Err) (i : Nat) :
    PWorld × Prog PSig PLoop → PWorld × Prog PSig PLoop
  | (w, .ret l) => (w, poolBody cfg l)
  | (w, .panic m) => (w, .panic m)
  | (w, .op o k) =>
    match pexec (soloEnv alive d (some (.op o k))) i o w with
    | some r => (r.2, k r.1)
    | none => (w, .op o k)

/-- `n` steps of a goroutine that runs alone. -/
def soloRun (cfg : PoolCfg) (alive : Nat → Bool) (d : Option Err) (i : Nat) :
    Nat → PWorld × Prog PSig PLoop → PWorld × Prog PSig PLoop
  | 0, x => x
  | n + 1, x => soloRun cfg alive d i n (one cfg alive d i x)

section
variable {cfg : PoolCfg} {alive : Nat → Bool} {d : Option Err} {i : Nat}

theorem At.one {s : PoolSys} {x : PWorld × Prog PSig PLoop} (h : At i s x.1 x.2) :
    At i (s.step cfg (i, soloEnv alive d s.threads[i]?)) (one cfg alive d i x).1
      (one cfg alive d i x).2 := by
  obtain ⟨w, p⟩ := x
  obtain ⟨hw, hp⟩ := h
  dsimp only at hw hp
  subst hw
  have hlt := (List.getElem?_eq_some_iff.mp hp).1
  cases p with
  | ret l => exact At.step_ret _ ⟨rfl, hp⟩
  | panic m =>
    unfold PoolSys.step Loops.step
    dsimp only
    rw [hp]
    exact ⟨rfl, hp⟩
  | op o k =>
    unfold PoolSys.step Loops.step
    dsimp only
    rw [hp]
    dsimp only [Goe2ee.one]
    split
    · rename_i r hr
      rw [hr]
      exact ⟨rfl, List.getElem?_set_self hlt⟩
    · rename_i hr
      rw [hr]
      exact ⟨rfl, hp⟩

theorem At.solo {s : PoolSys} {x : PWorld × Prog PSig PLoop} (h : At i s x.1 x.2) (n : Nat) :
    At i (solo cfg alive d i n s) (soloRun cfg alive d i n x).1 (soloRun cfg alive d i n x).2 := by
  induction n generalizing s x with
  | zero => exact h
  | succ n ih => exact ih h.one

theorem soloRun_add (m n : Nat) (x : PWorld × Prog PSig PLoop) :
    soloRun cfg alive d i (m + n) x = soloRun cfg alive d i n (soloRun cfg alive d i m x) := by
  induction m generalizing x with
  | zero => simp [soloRun]
  | succ m ih => rw [Nat.succ_add]; exact ih _

theorem one_op {w : PWorld} {o : POp} {k : POp.Ret o → Prog PSig PLoop} {r : POp.Ret o} {w' : PWorld}
    (hx : pexec (soloEnv alive d (some (.op o k))) i o w = some (r, w')) :
    one cfg alive d i (w, .op o k) = (w', k r) := by
  simp only [one, hx]

/-- All states in `n` steps are inside a call. -/
def inside (cfg : PoolCfg) (alive : Nat → Bool) (d : Option Err) (i n : Nat)
    (x : PWorld × Prog PSig PLoop) : Prop :=
  ∀ k, k < n → outside (soloRun cfg alive d i k x).2 = false

theorem inside_succ {n : Nat} {x y z : PWorld × Prog PSig PLoop} (hx : outside x.2 = false)
    (h1 : one cfg alive d i x = y)
    (h2 : inside cfg alive d i n y ∧ soloRun cfg alive d i n y = z) :
    inside cfg alive d i (n + 1) x ∧ soloRun cfg alive d i (n + 1) x = z := by
  subst h1
  refine ⟨?_, h2.2⟩
  intro k hk
  cases k with
  | zero => exact hx
  | succ k => exact h2.1 k (by omega)

theorem inside_zero (x : PWorld × Prog PSig PLoop) :
    inside cfg alive d i 0 x ∧ soloRun cfg alive d i 0 x = x :=
  ⟨fun k hk => by omega, rfl⟩

theorem send_nobody (e : PEnv) (i c : Nat) (w : PWorld) (hc : w.closed = false) (hw : w.waiting = []) :
    pexec e i (.send c) w = some (SendRes.noReceiver, w) := by
  simp [pexec, hc, hw]
  rfl

/-- One round of the loop with a client that fails the borrow test and is put back: eleven steps. -/
theorem round_dead {w : PWorld} {c : Nat} {rest : List Nat} (b : Bool)
    (hl : w.locked = true) (hi : w.idle = c :: rest) (hc : w.closed = false) (hw : w.waiting = [])
    (hd : alive c = false) (hm : (rest.length : Int) < cfg.maxIdle) :
    inside cfg alive d i 11 (w, .ret (.scan b)) ∧
    soloRun cfg alive d i 11 (w, .ret (.scan b)) =
      ({ w with idle := rest ++ [c], number := w.number + -1, failed := w.failed + 1 },
       .ret (.scan b)) := by
  obtain ⟨locked, idle, number, session, waiting, mail, closed, clients, handshakes, failed, held, lent⟩ := w
  dsimp only at hl hi hc hw ⊢
  subst hl hi hc hw
  refine inside_succ rfl rfl ?_
  refine inside_succ rfl (one_op rfl) ?_
  refine inside_succ rfl (one_op rfl) ?_
  refine inside_succ rfl (one_op rfl) ?_
  simp only [soloEnv, hd, Bool.false_eq_true, if_false]
  refine inside_succ rfl (one_op rfl) ?_
  refine inside_succ rfl (one_op (send_nobody _ _ _ _ rfl rfl)) ?_
  refine inside_succ rfl (one_op rfl) ?_
  simp only [List.tail_cons]
  rw [show poolKeep cfg c rest.length = _ from if_neg (by omega)]
  refine inside_succ rfl (one_op rfl) ?_
  refine inside_succ rfl (one_op rfl) ?_
  refine inside_succ rfl (one_op rfl) ?_
  refine inside_succ rfl (one_op rfl) ?_
  exact inside_zero _

theorem inside_add {m n : Nat} {x y z : PWorld × Prog PSig PLoop}
    (h1 : inside cfg alive d i m x ∧ soloRun cfg alive d i m x = y)
    (h2 : inside cfg alive d i n y ∧ soloRun cfg alive d i n y = z) :
    inside cfg alive d i (m + n) x ∧ soloRun cfg alive d i (m + n) x = z := by
  obtain ⟨h1, rfl⟩ := h1
  refine ⟨?_, by rw [soloRun_add]; exact h2.2⟩
  intro k hk
  by_cases hkm : k < m
  · exact h1 k hkm
  · have := h2.1 (k - m) (by omega)
    rw [← soloRun_add, show m + (k - m) = k by omega] at this
    exact this

/-- A `Get` that finds only dead clients never ends. -/
theorem never_ends {w : PWorld} (b : Bool) (hl : w.locked = true) (hi : w.idle ≠ [])
    (hc : w.closed = false) (hw : w.waiting = []) (hd : ∀ c ∈ w.idle, alive c = false)
    (hm : (w.idle.length : Int) ≤ cfg.maxIdle) (n : Nat) :
    outside (soloRun cfg alive d i n (w, .ret (.scan b))).2 = false := by
  induction n using Nat.strongRecOn generalizing w with
  | ind n ih =>
    rcases hidle : w.idle with _ | ⟨c, rest⟩
    · exact absurd hidle hi
    · rw [hidle] at hd hm
      have hr := round_dead (cfg := cfg) (alive := alive) (d := d) (i := i) b hl hidle hc hw
        (hd c (by simp)) (by simp at hm; omega)
      by_cases hn : n < 11
      · exact hr.1 n hn
      · rw [show n = 11 + (n - 11) by omega, soloRun_add, hr.2]
        refine ih (n - 11) (by omega) hl ?_ hc hw ?_ ?_
        · simp
        · intro x hx
          refine hd x ?_
          simp at hx ⊢
          exact hx.symm
        · simp at hm ⊢
          omega

/-- `Get` passes over dead clients. -/
theorem skips_dead {w : PWorld} (b : Bool) (dead rest : List Nat) (hl : w.locked = true)
    (hi : w.idle = dead ++ rest) (hc : w.closed = false) (hw : w.waiting = [])
    (hd : ∀ c ∈ dead, alive c = false) (hm : (w.idle.length : Int) ≤ cfg.maxIdle) :
    inside cfg alive d i (11 * dead.length) (w, .ret (.scan b)) ∧
    soloRun cfg alive d i (11 * dead.length) (w, .ret (.scan b)) =
      ({ w with idle := rest ++ dead, number := w.number - dead.length,
                failed := w.failed + dead.length }, .ret (.scan b)) := by
  induction dead generalizing w rest with
  | nil =>
    obtain ⟨locked, idle, number, session, waiting, mail, closed, clients, handshakes, failed, held, lent⟩ := w
    dsimp only at hi
    subst hi
    simp
    exact inside_zero _
  | cons c dead ih =>
    rw [hi] at hm
    have hr := round_dead (cfg := cfg) (alive := alive) (d := d) (i := i) b hl hi hc hw
      (hd c (by simp)) (by simp at hm ⊢; omega)
    have hn := ih (w := { w with idle := dead ++ rest ++ [c], number := w.number + -1, failed := w.failed + 1 })
      (rest := rest ++ [c]) hl (by simp) hc hw (fun x hx => hd x (by simp [hx]))
      (by simp at hm ⊢; omega)
    rw [show 11 * (c :: dead).length = 11 + 11 * dead.length by simp; omega]
    refine inside_add hr ⟨hn.1, hn.2.trans ?_⟩
    simp
    omega

/-- A client that passes the test. -/
theorem round_live {w : PWorld} {c : Nat} {rest : List Nat} (b : Bool)
    (hi : w.idle = c :: rest) (hd : alive c = true) :
    inside cfg alive d i 5 (w, .ret (.scan b)) ∧
    soloRun cfg alive d i 5 (w, .ret (.scan b)) =
      ({ w with locked := false, idle := rest, held := w.held ++ [c], lent := w.lent ++ [c] },
       .ret (.user b)) := by
  obtain ⟨locked, idle, number, session, waiting, mail, closed, clients, handshakes, failed, held, lent⟩ := w
  dsimp only at hi ⊢
  subst hi
  refine inside_succ rfl rfl ?_
  refine inside_succ rfl (one_op rfl) ?_
  refine inside_succ rfl (one_op rfl) ?_
  refine inside_succ rfl (one_op rfl) ?_
  simp only [soloEnv, hd, if_true]
  refine inside_succ rfl (one_op rfl) ?_
  exact inside_zero _

theorem modify_last {α : Type} (l : List α) (x : α) (f : α → α) :
    (l ++ [x]).modify l.length f = l ++ [f x] := by
  induction l with
  | nil => simp
  | cons a l ih => simpa using ih

/-- No idle client, and the limit is not reached. -/
theorem round_dial {w : PWorld} (b : Bool) (hl : w.locked = true) (hi : w.idle = [])
    (hn : w.number < cfg.maxOpen) :
    ∃ n w', inside cfg alive d i (n + 1) (w, .ret (.scan b)) ∧
      soloRun cfg alive d i (n + 1) (w, .ret (.scan b)) = (w', .ret (.user b)) ∧ w'.locked = false ∧
      match d with
      | some _ => w'.lent = w.lent ∧ w'.clients = w.clients
      | none => w'.lent = w.lent ++ [w.clients.length] ∧ w'.number = w.number + 1 ∧
          ∃ c, w'.clients = w.clients ++ [c] ∧ c.isOpen = true := by
  obtain ⟨locked, idle, number, session, waiting, mail, closed, clients, handshakes, failed, held, lent⟩ := w
  dsimp only at hi hl hn ⊢
  subst hi hl
  cases d with
  | some e =>
    cases session with
    | none =>
      refine ⟨6, ?_⟩
      suffices h : inside cfg alive (some e) i 7 _ ∧ soloRun cfg alive (some e) i 7 _ =
          (⟨false, [], number, none, waiting, mail, closed, clients, handshakes, failed, held, lent⟩,
            .ret (.user b)) from
        ⟨_, h.1, h.2, rfl, rfl, rfl⟩
      refine inside_succ rfl rfl ?_
      refine inside_succ rfl (one_op rfl) ?_
      refine inside_succ rfl (one_op rfl) ?_
      dsimp only
      rw [show poolFull cfg b number = poolDial b from if_neg (by omega)]
      refine inside_succ rfl (one_op rfl) ?_
      refine inside_succ rfl (one_op rfl) ?_
      refine inside_succ rfl (one_op rfl) ?_
      refine inside_succ rfl (one_op rfl) ?_
      exact inside_zero _
    | some k =>
      refine ⟨6, ?_⟩
      suffices h : inside cfg alive (some e) i 7 _ ∧ soloRun cfg alive (some e) i 7 _ =
          (⟨false, [], number, some k, waiting, mail, closed, clients, handshakes, failed, held, lent⟩,
            .ret (.user b)) from
        ⟨_, h.1, h.2, rfl, rfl, rfl⟩
      refine inside_succ rfl rfl ?_
      refine inside_succ rfl (one_op rfl) ?_
      refine inside_succ rfl (one_op rfl) ?_
      dsimp only
      rw [show poolFull cfg b number = poolDial b from if_neg (by omega)]
      refine inside_succ rfl (one_op rfl) ?_
      refine inside_succ rfl (one_op rfl) ?_
      refine inside_succ rfl (one_op rfl) ?_
      refine inside_succ rfl (one_op rfl) ?_
      exact inside_zero _
  | none =>
    cases session with
    | none =>
      refine ⟨9, ?_⟩
      suffices h : inside cfg alive none i 10 _ ∧ soloRun cfg alive none i 10 _ =
          (⟨false, [], number + 1, some handshakes, waiting, mail, closed,
            clients ++ [⟨some handshakes, true⟩], handshakes + 1, failed, held ++ [clients.length],
            lent ++ [clients.length]⟩, .ret (.user b)) from
        ⟨_, h.1, h.2, rfl, rfl, rfl, _, rfl, rfl⟩
      refine inside_succ rfl rfl ?_
      refine inside_succ rfl (one_op rfl) ?_
      refine inside_succ rfl (one_op rfl) ?_
      dsimp only
      rw [show poolFull cfg b number = poolDial b from if_neg (by omega)]
      refine inside_succ rfl (one_op rfl) ?_
      refine inside_succ rfl (one_op rfl) ?_
      refine inside_succ rfl (one_op rfl) ?_
      refine inside_succ rfl (one_op rfl) ?_
      refine inside_succ rfl (one_op rfl) ?_
      refine inside_succ rfl (one_op rfl) ?_
      refine inside_succ rfl (one_op rfl) ?_
      refine (inside_zero _).imp_right fun _ => ?_
      simp [soloRun]
    | some k =>
      refine ⟨9, ?_⟩
      suffices h : inside cfg alive none i 10 _ ∧ soloRun cfg alive none i 10 _ =
          (⟨false, [], number + 1, some k, waiting, mail, closed, clients ++ [⟨some k, true⟩],
            handshakes, failed, held ++ [clients.length], lent ++ [clients.length]⟩, .ret (.user b)) from
        ⟨_, h.1, h.2, rfl, rfl, rfl, _, rfl, rfl⟩
      refine inside_succ rfl rfl ?_
      refine inside_succ rfl (one_op rfl) ?_
      refine inside_succ rfl (one_op rfl) ?_
      dsimp only
      rw [show poolFull cfg b number = poolDial b from if_neg (by omega)]
      refine inside_succ rfl (one_op rfl) ?_
      refine inside_succ rfl (one_op rfl) ?_
      refine inside_succ rfl (one_op rfl) ?_
      refine inside_succ rfl (one_op rfl) ?_
      refine inside_succ rfl (one_op rfl) ?_
      refine inside_succ rfl (one_op rfl) ?_
      refine inside_succ rfl (one_op rfl) ?_
      refine (inside_zero _).imp_right fun _ => ?_
      simp [soloRun, modify_last]

/-- The first steps of `Get`. -/
theorem enters (w : PWorld) (b : Bool) (hl : w.locked = false) :
    soloRun cfg alive d i 3 (w, .ret (.user b)) = ({ w with locked := true }, .ret (.scan b)) := by
  simp only [soloRun, one, poolBody, poolUser]
  simp only [soloEnv, pexec, hl]
  rfl

end

end Goe2ee
