import Verif.Proofs.Pool
import Verif.Proofs.PoolLock
import Verif.Proofs.PoolWait

/-!
# C41–C46, C65–C68: the client pool

Any number of goroutines use one pool; the scheduler may switch between any two effects.
-/

set_option autoImplicit false

namespace Goe2ee

/-- `n` steps of goroutine `i` in which everything it needs from outside succeeds. -/
def go (i n : Nat) (e : PEnv := {}) : List (Nat × PEnv) := List.replicate n (i, e)

/-! ## C41: the limit of open connections -/

/-- C41: the number of open connections never exceeds the limit.  False: a client that fails the
borrow test is subtracted by `put` when it is closed, and by `Get` again; or by `Get` although it is
still open. -/
def C41_claim : Prop :=
  ∀ (cfg : PoolCfg) (n : Nat) (acts : List (Nat × PEnv)), 0 ≤ cfg.maxOpen →
    (openConns (careful cfg n acts).world : Int) ≤ cfg.maxOpen

/-- Limits: no idle clients, one open connection. -/
def overrun : List (Nat × PEnv) :=
  -- goroutine 0 gets a client, goroutine 1 waits for one
  go 0 13 ++ go 1 8 ++
  -- goroutine 0 closes its client, which goes to goroutine 1; there it fails the borrow test, `put`
  -- closes it, `Get` subtracts it once more and dials
  go 0 5 { cmd := .close 0 } ++ go 1 2 { test := false } ++ go 1 15 ++
  -- goroutine 0 gets another client
  go 0 13

theorem C41_refuted : ¬ C41_claim := by
  intro h
  have := h ⟨0, 1⟩ 2 overrun (by decide)
  revert this
  decide +kernel

/-- C41: the number of open connections never exceeds the limit by more than the number of failed
borrow tests; in particular never if no borrow test fails.  Missing: the claim with failed borrow
tests (`C41_refuted`). -/
theorem C41_limit_partial (cfg : PoolCfg) (n : Nat) (acts : List (Nat × PEnv)) (h0 : 0 ≤ cfg.maxOpen) :
    (openConns (careful cfg n acts).world : Int) ≤ cfg.maxOpen + (careful cfg n acts).world.failed := by
  obtain ⟨gs, h⟩ := pool_reach cfg h0 n acts
  exact h.inv.open_le

/-- The limit is reached. -/
example : openConns (careful ⟨1, 2⟩ 2 (go 0 13 ++ go 1 13)).world = 2 := by decide +kernel

/-! ## C42: one borrower at a time -/

/-- C42: no client is borrowed twice at the same time, or borrowed and idle, and the connections of
borrowed and idle clients are open. -/
theorem C42_exclusive (cfg : PoolCfg) (n : Nat) (acts : List (Nat × PEnv)) (h0 : 0 ≤ cfg.maxOpen) :
    ((careful cfg n acts).world.held ++ (careful cfg n acts).world.idle).Nodup ∧
    ∀ c ∈ (careful cfg n acts).world.held ++ (careful cfg n acts).world.idle,
      ∃ s, (careful cfg n acts).world.clients[c]? = some ⟨s, true⟩ := by
  obtain ⟨gs, h⟩ := pool_reach cfg h0 n acts
  change LoopsOK _ _ _ _ (careful cfg n acts) gs at h
  have hle : ∀ c, ((careful cfg n acts).world.held ++ (careful cfg n acts).world.idle).count c
      ≤ cnt (careful cfg n acts).world gs c := by
    intro c
    simp only [List.count_append, cnt]
    omega
  refine ⟨?_, ?_⟩
  · rw [List.nodup_iff_count]
    intro c
    exact Nat.le_trans (hle c) (h.inv.once c)
  · intro c hc
    refine h.inv.live c (Nat.lt_of_lt_of_le ?_ (hle c))
    exact List.count_pos_iff.mpr hc

/-- Two borrowed clients. -/
example : (careful ⟨1, 2⟩ 2 (go 0 13 ++ go 1 13)).world.held = [0, 1] := by decide +kernel

/-- C66: a client that is closed twice is not lent twice.  False: it is put into the idle list
twice. -/
def C66_claim : Prop :=
  ∀ (cfg : PoolCfg) (n : Nat) (acts : List (Nat × PEnv)) (c : Nat), 0 ≤ cfg.maxOpen →
    (PoolSys.run cfg (poolStart (List.replicate n (.user true))) acts).world.idle.count c ≤ 1

theorem C66_refuted : ¬ C66_claim := by
  intro h
  have := h ⟨2, 2⟩ 1 (go 0 13 { cmd := .get } ++ go 0 20 { cmd := .close 0 }) 0 (by decide)
  revert this
  decide +kernel

/-- The consequence: two `Get` calls return the same client. -/
theorem C66_lent_twice :
    (PoolSys.run ⟨2, 2⟩ (poolStart [.user true, .user true, .user true])
      (go 0 13 ++ go 0 14 { cmd := .close 0 } ++ go 1 8 ++ go 2 8)).world.lent = [0, 0, 0] := by
  decide +kernel

/-- C67: the pool keeps at most `maxIdle` idle clients. -/
theorem C67_idle_limit (cfg : PoolCfg) (n : Nat) (acts : List (Nat × PEnv)) (h0 : 0 ≤ cfg.maxOpen) :
    ((careful cfg n acts).world.idle.length : Int) ≤ max 0 cfg.maxIdle := by
  obtain ⟨gs, h⟩ := pool_reach cfg h0 n acts
  change LoopsOK _ _ _ _ (careful cfg n acts) gs at h
  rcases h.inv.idleLe with h | h
  · omega
  · rw [h]
    simp
    omega

/-- With two clients returned and room for one, one stays and the other is closed. -/
example :
    (careful ⟨1, 2⟩ 2 (go 0 13 ++ go 1 13 ++ go 0 7 { cmd := .close 0 } ++ go 1 8 { cmd := .close 0 })).world.idle
      = [0] ∧
    openConns
      (careful ⟨1, 2⟩ 2 (go 0 13 ++ go 1 13 ++ go 0 7 { cmd := .close 0 } ++ go 1 8 { cmd := .close 0 })).world
      = 1 := by decide +kernel

/-! ## C43: waiting -/

/-- C43, no lost client: it never happens that a goroutine waits in `Get` while no client is borrowed
and no other goroutine is inside a call.  False: a client closed between the check of the limit and the
begin of the wait goes to the idle list, and the `Get` waits beside it. -/
def C43_claim : Prop :=
  ∀ (cfg : PoolCfg) (n : Nat) (acts : List (Nat × PEnv)) (i : Nat), 0 < cfg.maxOpen →
    i ∈ (careful cfg n acts).world.waiting →
    (careful cfg n acts).world.held ≠ [] ∨
      ∃ (j : Nat) (p : Prog PSig PLoop), j ≠ i ∧ (careful cfg n acts).threads[j]? = some p ∧
        outside p = false

/-- Goroutine 0 gets a client, goroutine 1 finds the limit reached and unlocks the mutex, goroutine 0
closes its client, goroutine 1 begins to wait. -/
def lostWakeup : List (Nat × PEnv) := go 0 13 ++ go 1 7 ++ go 0 7 { cmd := .close 0 } ++ go 1 1

theorem C43_refuted : ¬ C43_claim := by
  intro h
  have := h ⟨1, 1⟩ 2 lostWakeup 1 (by decide) (by decide +kernel)
  rcases this with h | ⟨j, p, hj, hp, ho⟩
  · revert h
    decide +kernel
  · rcases j with _ | _ | j
    · have : (careful ⟨1, 1⟩ 2 lostWakeup).threads[0]?.map outside = some true := by decide +kernel
      rw [hp] at this
      simp [ho] at this
    · exact hj rfl
    · have : (careful ⟨1, 1⟩ 2 lostWakeup).threads.length = 2 := by decide +kernel
      have := (List.getElem?_eq_some_iff.mp hp).1
      omega

theorem run_cons (cfg : PoolCfg) (s : PoolSys) (act : Nat × PEnv) (acts : List (Nat × PEnv)) :
    PoolSys.run cfg s (act :: acts) = PoolSys.run cfg (PoolSys.step cfg s act) acts := rfl

/-- C43, service: whenever a goroutine waits in `Get` and another one closes a client while the mutex
is free, the waiting `Get` can return that very client.  Missing: that a `Get` only waits while
something can wake it up (`C43_refuted`). -/
theorem C43_served_partial (cfg : PoolCfg) (n : Nat) (acts : List (Nat × PEnv)) (i j k m c : Nat)
    (h0 : 0 ≤ cfg.maxOpen)
    (hwait : (careful cfg n acts).world.waiting[m]? = some i)
    (hj : (careful cfg n acts).threads[j]? = some (.ret (.user false)))
    (hheld : (careful cfg n acts).world.held[k]? = some c)
    (hfree : (careful cfg n acts).world.locked = false) :
    ∃ more : List (Nat × PEnv),
      (careful cfg n (acts ++ more)).world.lent = (careful cfg n acts).world.lent ++ [c] ∧
      (careful cfg n (acts ++ more)).threads[i]?.map outside = some true := by
  have hsplit : ∀ more, careful cfg n (acts ++ more) = PoolSys.run cfg (careful cfg n acts) more := by
    intro more
    simp [careful, PoolSys.run, Loops.run, List.foldl_append]
  have hw := wait_reach cfg (List.replicate n (.user false)) acts
  change WaitInv cfg (careful cfg n acts) at hw
  obtain ⟨gs, hp⟩ := pool_reach cfg h0 n acts
  change LoopsOK _ _ _ _ (careful cfg n acts) gs at hp
  have hopen := hp.inv.isOpen
  have hreg : 0 < (careful cfg n acts).world.waiting.count i :=
    List.count_pos_iff.mpr (List.mem_of_getElem? hwait)
  obtain ⟨b, hi⟩ := hw.at_ i (by simp only [registered]; omega)
  have honce := hw.once i
  have hmail : (careful cfg n acts).world.mail.countP (·.1 == i) = 0 := by
    simp only [registered] at honce
    omega
  have hij : j ≠ i := by
    rintro rfl
    rw [hj] at hi
    cases hi
  refine ⟨[(j, {}), (j, { cmd := .close k }), (j, {}), (j, { pick := m }), (i, {}), (i, {}), (i, {})], ?_⟩
  rw [hsplit]
  generalize careful cfg n acts = s at *
  rw [run_cons, run_cons, run_cons, run_cons, run_cons, run_cons, run_cons]
  have a0 : At j s s.world (.ret (.user false)) := ⟨rfl, hj⟩
  have a1 := a0.step_ret (cfg := cfg) {}
  have i1 := (step_other (cfg := cfg) s {} hij).trans hi
  generalize PoolSys.step cfg s (j, {}) = s1 at *
  have hcmd : pexec { cmd := .close k } j (.command false) s.world
      = some (some c, { s.world with held := s.world.held.eraseIdx k }) := by
    simp only [pexec, hheld]
    rfl
  have a2 := a1.step_op (cfg := cfg) { cmd := .close k } hcmd
  have i2 := (step_other (cfg := cfg) s1 { cmd := .close k } hij).trans i1
  generalize PoolSys.step cfg s1 (j, { cmd := .close k }) = s2 at *
  have hlock : pexec {} j .lock { s.world with held := s.world.held.eraseIdx k }
      = some ((), { s.world with held := s.world.held.eraseIdx k, locked := true }) := by
    simp only [pexec, hfree]
    rfl
  have a3 := At.step_op (cfg := cfg) {} a2 hlock
  have i3 := (step_other (cfg := cfg) s2 {} hij).trans i2
  generalize PoolSys.step cfg s2 (j, {}) = s3 at *
  have hsend : pexec { pick := m } j (.send c) { s.world with held := s.world.held.eraseIdx k, locked := true }
      = some (SendRes.sent, { s.world with held := s.world.held.eraseIdx k, locked := true, waiting := s.world.waiting.eraseIdx m, mail := s.world.mail ++ [(i, some c)] }) := by
    simp only [pexec, hopen, hwait]
    rfl
  have a4 := At.step_op (cfg := cfg) { pick := m } a3 hsend
  have i4 := (step_other (cfg := cfg) s3 { pick := m } hij).trans i3
  generalize PoolSys.step cfg s3 (j, { pick := m }) = s4 at *
  have b4 : At i s4 _ (awaiting cfg b) := ⟨a4.1, i4⟩
  have hfind : (s.world.mail ++ [(i, some c)]).find? (·.1 == i) = some (i, some c) := by
    rw [List.find?_append]
    have : s.world.mail.find? (·.1 == i) = none := by
      rw [List.find?_eq_none]
      exact List.countP_eq_zero.mp hmail
    rw [this]
    simp
  have hawait : pexec {} i .await { s.world with held := s.world.held.eraseIdx k, locked := true, waiting := s.world.waiting.eraseIdx m, mail := s.world.mail ++ [(i, some c)] }
      = some (some c, { s.world with held := s.world.held.eraseIdx k, locked := true, waiting := s.world.waiting.eraseIdx m, mail := (s.world.mail ++ [(i, some c)]).erase (i, some c) }) := by
    simp only [pexec, hfind]
    rfl
  have b5 := At.step_op (cfg := cfg) {} b4 hawait
  generalize PoolSys.step cfg s4 (i, {}) = s5 at *
  have b6 := At.step_op (cfg := cfg) {} b5 rfl
  generalize PoolSys.step cfg s5 (i, {}) = s6 at *
  have b7 := At.step_op (cfg := cfg) {} b6 rfl
  refine ⟨?_, ?_⟩
  · exact congrArg PWorld.lent b7.1
  · exact congrArg (Option.map outside) b7.2

/-- A waiting goroutine and a borrowed client. -/
example : (careful ⟨1, 1⟩ 2 (go 0 13 ++ go 1 8)).world.waiting = [1] ∧
    (careful ⟨1, 1⟩ 2 (go 0 13 ++ go 1 8)).world.held = [0] ∧
    (careful ⟨1, 1⟩ 2 (go 0 13 ++ go 1 8)).world.locked = false ∧
    (careful ⟨1, 1⟩ 2 (go 0 13 ++ go 1 8 ++ go 0 5 { cmd := .close 0 } ++ go 1 3)).world.lent = [0, 0] := by
  decide +kernel

/-! ## C44: dead idle connections -/

/-- C44: a `Get` that runs alone while no client is borrowed returns, whichever idle clients are dead.
False: see `C44_refuted`. -/
def C44_claim : Prop :=
  ∀ (cfg : PoolCfg) (n : Nat) (acts : List (Nat × PEnv)) (i : Nat) (alive : Nat → Bool) (dial : Option Err),
    0 < cfg.maxOpen → (careful cfg n acts).world.locked = false →
    (careful cfg n acts).world.held = [] → (careful cfg n acts).world.waiting = [] →
    (careful cfg n acts).threads[i]? = some (.ret (.user false)) →
    ∃ k, 0 < k ∧ (solo cfg alive dial i k (careful cfg n acts)).threads[i]?.map outside = some true

/-- C44: if there are idle clients and all of them are dead, `Get` never returns: it takes the first,
finds it dead, puts it back to the end of the list and begins anew. -/
theorem C44_diverges (cfg : PoolCfg) (s : PoolSys) (i : Nat) (alive : Nat → Bool) (dial : Option Err)
    (hi : s.threads[i]? = some (.ret (.user false))) (hl : s.world.locked = false)
    (hc : s.world.closed = false) (hw : s.world.waiting = []) (hidle : s.world.idle ≠ [])
    (hm : (s.world.idle.length : Int) ≤ cfg.maxIdle) (hd : ∀ c ∈ s.world.idle, alive c = false)
    (k : Nat) (hk : 0 < k) :
    (solo cfg alive dial i k s).threads[i]?.map outside = some false := by
  have h := At.solo (cfg := cfg) (alive := alive) (d := dial) (i := i) (s := s)
    (x := (s.world, .ret (.user false))) ⟨rfl, hi⟩ k
  rw [h.2]
  refine congrArg some ?_
  rcases k with _ | _ | _ | k
  · omega
  · rfl
  · simp only [soloRun, one, poolBody, poolUser]
    rfl
  · rw [show k + 1 + 1 + 1 = 3 + k by omega, soloRun_add, enters _ _ hl]
    exact never_ends (w := { s.world with locked := true }) false rfl hidle hc hw hd hm k

theorem C44_refuted : ¬ C44_claim := by
  intro h
  have hi : (careful ⟨1, 1⟩ 1 (go 0 13 ++ go 0 7 { cmd := .close 0 })).threads[0]?
      = some (.ret (.user false)) := rfl
  obtain ⟨k, hk, hout⟩ := h ⟨1, 1⟩ 1 (go 0 13 ++ go 0 7 { cmd := .close 0 }) 0 (fun _ => false) none
    (by decide) (by decide +kernel) (by decide +kernel) (by decide +kernel) hi
  rw [C44_diverges ⟨1, 1⟩ _ 0 (fun _ => false) none hi (by decide +kernel) (by decide +kernel)
    (by decide +kernel) (by decide +kernel) (by decide +kernel) (by decide +kernel) k hk] at hout
  cases hout

/-- C44: a `Get` that runs alone passes over dead idle clients and returns the first alive one.
Missing: the dead ones are kept (at the end of the list), and `Get` diverges if all are dead
(`C44_diverges`). -/
theorem C44_first_alive_partial (cfg : PoolCfg) (s : PoolSys) (i : Nat) (alive : Nat → Bool)
    (dial : Option Err) (dead rest : List Nat) (c : Nat)
    (hi : s.threads[i]? = some (.ret (.user false))) (hl : s.world.locked = false)
    (hc : s.world.closed = false) (hw : s.world.waiting = []) (hidle : s.world.idle = dead ++ c :: rest)
    (hm : (s.world.idle.length : Int) ≤ cfg.maxIdle) (hd : ∀ c ∈ dead, alive c = false)
    (ha : alive c = true) :
    ∃ k, (solo cfg alive dial i k s).threads[i]? = some (.ret (.user false)) ∧
      (solo cfg alive dial i k s).world.lent = s.world.lent ++ [c] ∧
      (solo cfg alive dial i k s).world.idle = rest ++ dead := by
  have h := At.solo (cfg := cfg) (alive := alive) (d := dial) (i := i) (s := s)
    (x := (s.world, .ret (.user false))) ⟨rfl, hi⟩ (3 + (11 * dead.length + 5))
  have h1 := skips_dead (cfg := cfg) (alive := alive) (d := dial) (i := i)
    (w := { s.world with locked := true }) false dead (c :: rest) rfl hidle hc hw hd hm
  have h2 := (inside_add h1 (round_live false rfl ha)).2
  rw [soloRun_add, enters _ _ hl, h2] at h
  refine ⟨3 + (11 * dead.length + 5), h.2, ?_, ?_⟩
  · rw [h.1]
  · rw [h.1]
    rfl

/-- C44: without idle clients and below the limit, a `Get` that runs alone returns a new client, or
dialling failed and it returns without one. -/
theorem C44_dials_partial (cfg : PoolCfg) (s : PoolSys) (i : Nat) (alive : Nat → Bool)
    (dial : Option Err) (hi : s.threads[i]? = some (.ret (.user false))) (hl : s.world.locked = false)
    (hidle : s.world.idle = []) (hn : s.world.number < cfg.maxOpen) :
    ∃ k, (solo cfg alive dial i k s).threads[i]? = some (.ret (.user false)) ∧
      (solo cfg alive dial i k s).world.locked = false ∧
      match dial with
      | some _ => (solo cfg alive dial i k s).world.lent = s.world.lent
      | none => (solo cfg alive dial i k s).world.lent = s.world.lent ++ [s.world.clients.length] ∧
          openConns (solo cfg alive dial i k s).world = openConns s.world + 1 := by
  obtain ⟨n, w', -, h1, h2, h3⟩ := round_dial (cfg := cfg) (alive := alive) (d := dial) (i := i)
    (w := { s.world with locked := true }) false rfl hidle hn
  have h := At.solo (cfg := cfg) (alive := alive) (d := dial) (i := i) (s := s)
    (x := (s.world, .ret (.user false))) ⟨rfl, hi⟩ (3 + (n + 1))
  rw [soloRun_add, enters _ _ hl, h1] at h
  refine ⟨3 + (n + 1), h.2, ?_, ?_⟩
  · rw [h.1]; exact h2
  · rw [h.1]
    cases dial with
    | some e => exact h3.1
    | none =>
      obtain ⟨h4, -, c, h5, h6⟩ := h3
      refine ⟨h4, ?_⟩
      simp only [openConns, h5, List.countP_append, List.countP_singleton, h6, if_true]

/-- A dead and an alive idle client. -/
example :
    (solo ⟨2, 2⟩ (fun c => c == 1) none 0 19
      (careful ⟨2, 2⟩ 2 (go 0 13 ++ go 1 13 ++ go 0 7 { cmd := .close 0 } ++ go 1 7 { cmd := .close 0 }))).world.lent
      = [0, 1, 1] := by decide +kernel

/-! ## C45: one session -/

/-- C45: before `Close` of the pool at most one handshake succeeds, and every client that `Get` ever
returned has the session of that handshake. -/
theorem C45_one_session (cfg : PoolCfg) (n : Nat) (acts : List (Nat × PEnv)) (h0 : 0 ≤ cfg.maxOpen) :
    (careful cfg n acts).world.handshakes ≤ 1 ∧
    ∀ c ∈ (careful cfg n acts).world.lent,
      (careful cfg n acts).world.clients[c]?.map (·.session) = some (some 0) := by
  obtain ⟨gs, h⟩ := pool_reach cfg h0 n acts
  change LoopsOK _ _ _ _ (careful cfg n acts) gs at h
  refine ⟨?_, ?_⟩
  · have h1 := fresh_le_one h.inv
    rcases h.inv.sess with ⟨-, h2⟩ | ⟨-, h2, -⟩ <;> omega
  · intro c hc
    obtain ⟨b, hb⟩ := h.inv.sesn c (.inr hc)
    rw [hb]
    rfl

/-- Two clients, one handshake. -/
example : (careful ⟨1, 2⟩ 2 (go 0 13 ++ go 1 13)).world.clients
      = [⟨some 0, true⟩, ⟨some 0, true⟩] ∧
    (careful ⟨1, 2⟩ 2 (go 0 13 ++ go 1 13)).world.handshakes = 1 := by decide +kernel

/-! ## C46: closing the pool -/

/-- C46: no goroutine panics when the pool is closed, once, while it is used.  False: closing a
borrowed client afterwards sends on a closed channel, and a waiting `Get` receives nil. -/
def C46_claim : Prop :=
  ∀ (cfg : PoolCfg) (n : Nat) (acts : List (Nat × PEnv)) (p : Prog PSig PLoop), 0 ≤ cfg.maxOpen →
    p ∈ (PoolSys.run cfg (poolStart (.closer :: List.replicate n (.user false))) acts).threads →
    panicked p = false

/-- A goroutine gets a client, the pool is closed, the goroutine closes its client. -/
def closeBorrowed : List (Nat × PEnv) := go 1 13 ++ go 0 9 ++ go 1 5 { cmd := .close 0 }

/-- A goroutine gets a client, another one waits, the pool is closed. -/
def closeWaiting : List (Nat × PEnv) := go 1 13 ++ go 2 8 ++ go 0 9 ++ go 2 1

theorem C46_refuted : ¬ C46_claim := by
  intro h
  have hp : (PoolSys.run ⟨1, 1⟩ (poolStart (.closer :: List.replicate 1 (.user false)))
      closeBorrowed).threads[1]? = some (.panic "send on closed channel") := rfl
  have := h ⟨1, 1⟩ 1 closeBorrowed _ (by decide) (List.mem_of_getElem? hp)
  cases this

/-- The other way to panic. -/
theorem C46_refuted_waiting :
    (PoolSys.run ⟨1, 1⟩ (poolStart (.closer :: List.replicate 2 (.user false)))
      closeWaiting).threads.map panicked = [false, false, true] := by decide +kernel

/-- C46: until some `Close` of the pool has closed the channel nobody panics, whatever the goroutines
do (careless ones and several that close the pool included).  Missing: what happens afterwards
(`C46_refuted`). -/
theorem C46_before_close_partial (cfg : PoolCfg) (threads : List PLoop) (acts : List (Nat × PEnv))
    (hopen : (PoolSys.run cfg (poolStart threads) acts).world.closed = false) (p : Prog PSig PLoop)
    (hp : p ∈ (PoolSys.run cfg (poolStart threads) acts).threads) : panicked p = false := by
  obtain ⟨gs, h⟩ := chan_reach cfg threads acts
  rcases h.inv with h1 | ⟨-, h1⟩
  · rw [hopen] at h1; cases h1
  · obtain ⟨i, hi⟩ := List.mem_iff_getElem?.mp hp
    cases p with
    | ret l => rfl
    | op o k => rfl
    | panic m =>
      have hlt : i < gs.length := by
        rw [h.len]; exact (List.getElem?_eq_some_iff.mp hi).1
      have hg := List.getElem?_eq_getElem hlt
      have h2 : gs[i] = true := h.safe i _ _ hi hg
      rw [h1 _ (List.mem_of_getElem? hg)] at h2
      cases h2

/-- C46: without `Close` of the pool nobody panics. -/
theorem C46_no_close_partial (cfg : PoolCfg) (n : Nat) (acts : List (Nat × PEnv)) (h0 : 0 ≤ cfg.maxOpen)
    (p : Prog PSig PLoop) (hp : p ∈ (careful cfg n acts).threads) : panicked p = false := by
  obtain ⟨gs, h⟩ := pool_reach cfg h0 n acts
  exact C46_before_close_partial cfg _ acts h.inv.isOpen p hp

/-- The pool is closed while nothing is borrowed. -/
example : (PoolSys.run ⟨1, 1⟩ (poolStart [.closer, .user false])
    (go 1 13 ++ go 1 7 { cmd := .close 0 } ++ go 0 20)).threads.map panicked = [false, false] ∧
    (PoolSys.run ⟨1, 1⟩ (poolStart [.closer, .user false])
      (go 1 13 ++ go 1 7 { cmd := .close 0 } ++ go 0 20)).world.closed = true := by decide +kernel

/-! ## C65, C68: the mutex -/

/-- C65: no two goroutines can be about to access fields of the pool, so that the pool has no data
race; whatever the goroutines do, and also when the pool is closed. -/
theorem C65_race_free (cfg : PoolCfg) (threads : List PLoop) (hscan : ∀ b, .scan b ∉ threads)
    (acts : List (Nat × PEnv)) (i j : Nat) (p q : Prog PSig PLoop) (a b : POp)
    (hi : (PoolSys.run cfg (poolStart threads) acts).threads[i]? = some p)
    (hj : (PoolSys.run cfg (poolStart threads) acts).threads[j]? = some q)
    (ha : aboutTo p = some a) (hb : aboutTo q = some b) (hfa : a.field = true) (hfb : b.field = true) :
    i = j := by
  obtain ⟨gs, h⟩ := mutex_reach cfg threads hscan acts
  have key : ∀ (i : Nat) (p : Prog PSig PLoop) (a : POp),
      (PoolSys.run cfg (poolStart threads) acts).threads[i]? = some p → aboutTo p = some a →
      a.field = true → gs[i]? = some true := by
    intro i p a hi ha hfa
    have hlt : i < gs.length := by
      rw [h.len]; exact (List.getElem?_eq_some_iff.mp hi).1
    have hg := List.getElem?_eq_getElem hlt
    cases p with
    | ret l => cases ha
    | panic m => cases ha
    | op o k =>
      cases ha
      have := (h.safe i _ _ hi hg).1
      have h2 : gs[i] = true := by cases a <;> first | exact this | cases hfa
      rw [hg, h2]
  by_cases hij : i = j
  · exact hij
  · have h1 := add_le_tot Bool.toNat (key i p a hi ha hfa) (key j q b hj hb hfb) hij
    have h2 : tot Bool.toNat gs = _ := h.inv
    have h3 := Bool.toNat_le (PoolSys.run cfg (poolStart threads) acts).world.locked
    simp only [Bool.toNat_true] at h1
    omega

/-- C65: and whoever is about to access a field holds the mutex; nobody unlocks an unlocked mutex. -/
theorem C65_holds (cfg : PoolCfg) (threads : List PLoop) (hscan : ∀ b, .scan b ∉ threads)
    (acts : List (Nat × PEnv)) (i : Nat) (p : Prog PSig PLoop) (a : POp)
    (hi : (PoolSys.run cfg (poolStart threads) acts).threads[i]? = some p)
    (ha : aboutTo p = some a) (hfa : a.field = true ∨ a = .unlock) :
    (PoolSys.run cfg (poolStart threads) acts).world.locked = true := by
  obtain ⟨gs, h⟩ := mutex_reach cfg threads hscan acts
  have hlt : i < gs.length := by
    rw [h.len]; exact (List.getElem?_eq_some_iff.mp hi).1
  have hg := List.getElem?_eq_getElem hlt
  cases p with
  | ret l => cases ha
  | panic m => cases ha
  | op o k =>
    cases ha
    have := (h.safe i _ _ hi hg).1
    have h2 : gs[i] = true := by
      rcases hfa with hfa | rfl
      · cases a <;> first | exact this | cases hfa
      · exact this
    have h3 := le_tot Bool.toNat hg
    have h4 : tot Bool.toNat gs = _ := h.inv
    rw [h2] at h3
    simp only [Bool.toNat_true] at h3
    cases hl : (PoolSys.run cfg (poolStart threads) acts).world.locked with
    | true => rfl
    | false =>
      rw [hl] at h4
      simp only [Bool.toNat_false] at h4
      omega

/-- Two goroutines that both want to access fields: only one can. -/
example : ((careful ⟨1, 1⟩ 2 (go 0 4 ++ go 1 4)).threads.map fun p => (aboutTo p).map POp.field)
    = [some true, some false] := by decide +kernel

/-- C68: as long as the mutex is locked, some goroutine can move: the one that holds it never waits
for anything but the network (dialling and closing connections), and never panics. -/
theorem C68_holder_moves (cfg : PoolCfg) (threads : List PLoop) (hscan : ∀ b, .scan b ∉ threads)
    (acts : List (Nat × PEnv))
    (hl : (PoolSys.run cfg (poolStart threads) acts).world.locked = true) :
    ∃ (i : Nat) (p : Prog PSig PLoop),
      (PoolSys.run cfg (poolStart threads) acts).threads[i]? = some p ∧
      ((∃ b, p = .ret (.scan b)) ∨ ∃ a, aboutTo p = some a ∧ ∀ (dial close : Option Err),
        (pexec { dial := dial, close := close } i a
          (PoolSys.run cfg (poolStart threads) acts).world).isSome = true) := by
  obtain ⟨gs, h⟩ := mutex_reach cfg threads hscan acts
  have h1 : tot Bool.toNat gs = _ := h.inv
  rw [hl] at h1
  obtain ⟨i, g, hg, hpos⟩ := tot_pos Bool.toNat (gs := gs) (by rw [h1]; decide)
  have hgt : g = true := by cases g <;> simp at hpos ⊢
  subst hgt
  have hlt : i < (PoolSys.run cfg (poolStart threads) acts).threads.length := by
    rw [← h.len]; exact (List.getElem?_eq_some_iff.mp hg).1
  have hi := List.getElem?_eq_getElem hlt
  refine ⟨i, _, hi, ?_⟩
  have hs := h.safe i _ _ hi hg
  generalize (PoolSys.run cfg (poolStart threads) acts).threads[i] = p at hs
  cases p with
  | ret l =>
    cases l with
    | scan b => exact .inl ⟨b, rfl⟩
    | _ => cases hs
  | panic m => cases hs
  | op o k =>
    refine .inr ⟨o, rfl, fun dial close => ?_⟩
    have hpre := hs.1
    cases o with
    | lock => cases hpre
    | test c => cases hpre
    | park => cases hpre
    | await => cases hpre
    | command b => cases hpre
    | lend r => cases hpre
    | dial b => cases dial <;> rfl
    | send c =>
      simp only [pexec]
      split
      · rfl
      · split
        · rfl
        · rename_i hw
          rw [if_pos]
          · rfl
          · simpa using hw
    | closeChan =>
      simp only [pexec]
      split <;> rfl
    | _ => rfl

/-- A goroutine that holds the mutex, and one that waits for it. -/
example : (careful ⟨1, 1⟩ 2 (go 0 4 ++ go 1 4)).world.locked = true ∧
    (careful ⟨1, 1⟩ 2 (go 0 4 ++ go 1 4 ++ go 0 9)).world.locked = false := by decide +kernel

end Goe2ee
