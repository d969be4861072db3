import Verif.Props.Pool

/-!
# C76: closing the pool
-/

set_option autoImplicit false

namespace Goe2ee

/-- The connections after closing some of them. -/
def afterClosing (cs : List Nat) (clients : List PClient) : List PClient :=
  cs.foldl (fun l c => l.modify c ({ · with isOpen := false })) clients

theorem afterClosing_length (cs : List Nat) (clients : List PClient) :
    (afterClosing cs clients).length = clients.length := by
  induction cs generalizing clients with
  | nil => rfl
  | cons c cs ih => rw [afterClosing, List.foldl_cons, ← afterClosing, ih, List.length_modify]

theorem afterClosing_other {cs : List Nat} {clients : List PClient} {c : Nat} (h : c ∉ cs) :
    (afterClosing cs clients)[c]? = clients[c]? := by
  induction cs generalizing clients with
  | nil => rfl
  | cons d cs ih =>
    have hne : d ≠ c := fun hd => h (by rw [hd]; exact List.mem_cons_self)
    rw [afterClosing, List.foldl_cons, ← afterClosing, ih (fun hm => h (List.mem_cons_of_mem _ hm)),
      List.getElem?_modify]
    simp [hne]

theorem afterClosing_closed {cs : List Nat} {clients : List PClient} {c : Nat} {x : PClient}
    (h : c ∈ cs ∨ ∀ y, clients[c]? = some y → y.isOpen = false) (hx : (afterClosing cs clients)[c]? = some x) :
    x.isOpen = false := by
  induction cs generalizing clients with
  | nil => exact (h.resolve_left (by simp)) x hx
  | cons d cs ih =>
    rw [afterClosing, List.foldl_cons, ← afterClosing] at hx
    refine ih ?_ hx
    by_cases hc : c ∈ cs
    · exact .inl hc
    · refine .inr fun y hy => ?_
      rw [List.getElem?_modify] at hy
      split at hy
      · cases hcl : clients[c]? with
        | none => rw [hcl] at hy; cases hy
        | some z => rw [hcl] at hy; cases hy; rfl
      · rename_i hne
        have hy' : clients[c]? = some y := by simpa using hy
        rcases h with h | h
        · rcases List.mem_cons.mp h with rfl | h
          · exact absurd rfl hne
          · exact absurd h hc
        · exact h y hy'

section
variable {cfg : PoolCfg} {alive : Nat → Bool} {d : Option Err} {i : Nat}

theorem solo_closeAll (cs : List Nat) (w : PWorld) (f : Option Err → Prog PSig PLoop) :
    soloRun cfg alive d i cs.length (w, (closeAll cs).bind f) =
      ({ w with clients := afterClosing cs w.clients }, f none) := by
  induction cs generalizing w with
  | nil => rfl
  | cons c cs ih =>
    rw [List.length_cons, soloRun]
    refine (congrArg _ (one_op (o := .closeConn c) (r := (none : Option Err))
      (w' := { w with clients := w.clients.modify c ({ · with isOpen := false }) }) rfl)).trans ?_
    exact ih _

/-- `Close` of the pool, alone. -/
theorem solo_close (w : PWorld) (hl : w.locked = false) (hc : w.closed = false) :
    ∃ k, soloRun cfg alive d i k (w, .ret .closer) =
      ({ w with locked := false, idle := [], number := 0, session := none, waiting := [], closed := true,
                mail := w.mail ++ w.waiting.map (fun j => (j, none)),
                clients := afterClosing w.idle w.clients }, .ret .done) := by
  obtain ⟨locked, idle, number, session, waiting, mail, closed, clients, handshakes, failed, held, lent⟩ := w
  dsimp only at hl hc
  subst hl hc
  refine ⟨3 + (idle.length + 5), ?_⟩
  rw [soloRun_add, soloRun_add]
  have h3 : soloRun cfg alive d i 3
      (⟨false, idle, number, session, waiting, mail, false, clients, handshakes, failed, held, lent⟩,
        .ret .closer) =
      (⟨true, idle, number, session, waiting, mail, false, clients, handshakes, failed, held, lent⟩,
        (closeAll idle).bind fun e =>
          match e with
          | some _ => .op .unlock fun _ => .ret .done
          | none =>
          .op .clearIdle fun _ =>
          .op .zeroNumber fun _ =>
          .op (.setSession none) fun _ =>
          .op .closeChan fun (ok : Bool) =>
          .op .unlock fun _ =>
          if ok then .ret .done else .panic "close of closed channel") := rfl
  rw [h3, solo_closeAll]
  rfl

/-- `Get` without idle clients and without a session. -/
theorem solo_dial (w : PWorld) (hl : w.locked = false) (hidle : w.idle = []) (hs : w.session = none)
    (hn : w.number < cfg.maxOpen) :
    soloRun cfg alive none i (3 + 10) (w, .ret (.user false)) =
      ({ w with number := w.number + 1, session := some w.handshakes,
                clients := w.clients ++ [⟨some w.handshakes, true⟩], handshakes := w.handshakes + 1,
                held := w.held ++ [w.clients.length], lent := w.lent ++ [w.clients.length] },
        .ret (.user false)) := by
  rw [soloRun_add, enters _ _ hl]
  obtain ⟨locked, idle, number, session, waiting, mail, closed, clients, handshakes, failed, held, lent⟩ := w
  dsimp only at hl hidle hs hn
  subst hl hidle hs
  have h3 : soloRun cfg alive none i 3
      (⟨true, [], number, none, waiting, mail, closed, clients, handshakes, failed, held, lent⟩,
        .ret (.scan false)) =
      (⟨true, [], number, none, waiting, mail, closed, clients, handshakes, failed, held, lent⟩,
        poolFull cfg false number) := rfl
  rw [show 10 = 3 + 7 from rfl, soloRun_add, h3, poolFull, if_neg (by omega)]
  have h2 : soloRun cfg alive none i 3
      (⟨true, [], number, none, waiting, mail, closed, clients, handshakes, failed, held, lent⟩,
        poolDial false) =
      (⟨true, [], number, none, waiting, mail, closed, clients ++ [⟨some handshakes, true⟩], handshakes + 1,
        failed, held, lent⟩,
        .op (.setSession (((clients ++ [(⟨some handshakes, true⟩ : PClient)])[clients.length]?).bind
          (·.session))) fun _ => poolCount false clients.length) := rfl
  rw [show 7 = 3 + 4 from rfl, soloRun_add, h2, List.getElem?_concat_length]
  rfl

theorem solo_other {j : Nat} (hij : i ≠ j) (k : Nat) (s : PoolSys) :
    (solo cfg alive d i k s).threads[j]? = s.threads[j]? := by
  induction k generalizing s with
  | zero => rfl
  | succ k ih => rw [solo, ih, step_other _ _ hij]

end

/-- `Close` of the pool, when nothing else happens, closes the connections of all idle clients, whatever
the outcome of closing each of them. -/
def C76_claim : Prop :=
  ∀ (cfg : PoolCfg) (n : Nat) (acts : List (Nat × PEnv)) (envs : List PEnv) (i : Nat),
    let s := PoolSys.run cfg (poolStart (.closer :: List.replicate n (.user false))) acts
    let s' := PoolSys.run cfg s (envs.map (i, ·))
    s.world.locked = false → s.threads[i]? = some (.ret .closer) → s'.threads[i]? = some (.ret .done) →
    ∀ c ∈ s.world.idle, ∀ x, s'.world.clients[c]? = some x → x.isOpen = false

/-- **C76**, what holds: when nothing else happens and no connection fails to close, `Close` of the pool
returns with the mutex free; it has closed the connections of the idle clients and of no others. -/
theorem C76_closes_partial (cfg : PoolCfg) (s : PoolSys) (i : Nat) (alive : Nat → Bool) (dial : Option Err)
    (hi : s.threads[i]? = some (.ret .closer)) (hl : s.world.locked = false) (hc : s.world.closed = false) :
    ∃ k, (solo cfg alive dial i k s).threads[i]? = some (.ret .done) ∧
      (solo cfg alive dial i k s).world.locked = false ∧
      (∀ c ∈ s.world.idle, ∀ x, (solo cfg alive dial i k s).world.clients[c]? = some x → x.isOpen = false) ∧
      (∀ c, c ∉ s.world.idle → (solo cfg alive dial i k s).world.clients[c]? = s.world.clients[c]?) := by
  obtain ⟨k, hk⟩ := solo_close (cfg := cfg) (alive := alive) (d := dial) (i := i) s.world hl hc
  have h := At.solo (cfg := cfg) (alive := alive) (d := dial) (i := i) (s := s)
    (x := (s.world, .ret .closer)) ⟨rfl, hi⟩ k
  rw [hk] at h
  refine ⟨k, h.2, ?_, ?_, ?_⟩
  · rw [h.1]
  · rw [h.1]
    exact fun c hm x hx => afterClosing_closed (.inl hm) hx
  · rw [h.1]
    exact fun c hm => afterClosing_other hm

/-- A `Get` by another goroutine after that: it never returns a client from before `Close`, but a new
one, connected, with a session of its own handshake (however many clients were borrowed when the pool
was closed). -/
theorem C76_new_session_partial (cfg : PoolCfg) (s : PoolSys) (i j : Nat) (alive : Nat → Bool)
    (hi : s.threads[i]? = some (.ret .closer)) (hj : s.threads[j]? = some (.ret (.user false)))
    (hl : s.world.locked = false) (hc : s.world.closed = false) (hm : 0 < cfg.maxOpen) :
    ∃ k k', let s' := solo cfg alive none j k' (solo cfg alive none i k s)
      s'.threads[j]? = some (.ret (.user false)) ∧
      s'.world.lent = s.world.lent ++ [s.world.clients.length] ∧
      s'.world.clients[s.world.clients.length]? = some ⟨some s.world.handshakes, true⟩ ∧
      s'.world.handshakes = s.world.handshakes + 1 := by
  obtain ⟨k, hk⟩ := solo_close (cfg := cfg) (alive := alive) (d := none) (i := i) s.world hl hc
  have h := At.solo (cfg := cfg) (alive := alive) (d := none) (i := i) (s := s)
    (x := (s.world, .ret .closer)) ⟨rfl, hi⟩ k
  rw [hk] at h
  have hij : i ≠ j := by
    rintro rfl
    rw [hi] at hj
    cases hj
  have h' := At.solo (cfg := cfg) (alive := alive) (d := none) (i := j) (s := solo cfg alive none i k s)
    (x := (_, .ret (.user false))) ⟨h.1, (solo_other hij k s).trans hj⟩ (3 + 10)
  rw [solo_dial _ rfl rfl rfl hm] at h'
  have hlen := afterClosing_length s.world.idle s.world.clients
  refine ⟨k, 3 + 10, h'.2, ?_, ?_, ?_⟩
  · rw [h'.1]
    dsimp only
    rw [hlen]
  · rw [h'.1]
    dsimp only
    rw [← hlen, List.getElem?_concat_length]
  · rw [h'.1]

/-- Two idle clients; the first one fails to close. -/
def closeFails : List (Nat × PEnv) :=
  go 1 13 ++ go 2 13 ++ go 1 7 { cmd := .close 0 } ++ go 2 7 { cmd := .close 0 }

/-- **C76** is false: if one connection fails to close, `Close` leaves the others open. -/
theorem C76_refuted : ¬ C76_claim := by
  intro h
  have := h ⟨2, 2⟩ 2 closeFails (List.replicate 5 { close := some .timeout }) 0 (by decide +kernel)
    rfl rfl 1 (by decide +kernel) ⟨some 0, true⟩ (by decide +kernel)
  cases this

/-- Two idle clients are closed; then `Get` returns a third, with a new session. -/
example :
    (PoolSys.run ⟨2, 2⟩ (poolStart [.closer, .user false, .user false]) (closeFails ++ go 0 10 ++ go 1 13)).world.clients =
      [⟨some 0, false⟩, ⟨some 0, false⟩, ⟨some 1, true⟩] := by decide +kernel

end Goe2ee
