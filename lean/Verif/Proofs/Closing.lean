import Verif.Proofs.Shutdown

/-!
# The goroutines of the server while it closes

Every goroutine has a kind: where it stands with respect to the quit channel, the wait group and the
goroutines it starts.  Steps of the server are steps between kinds.
-/

set_option autoImplicit false

namespace Goe2ee

/-- Where a goroutine stands. -/
inductive GKind where
  /-- the accept loop between two passes -/
  | acc0
  /-- … about to accept -/
  | acc1
  /-- … has accepted a connection -/
  | acc2 (p : Peer)
  /-- … has added it to the wait group -/
  | acc3 (p : Peer)
  /-- the packet loop between two passes -/
  | rec0
  /-- … about to receive -/
  | rec1
  /-- … has received a datagram -/
  | rec2 (p : Peer)
  /-- serves a connection -/
  | serve
  /-- … about to close it -/
  | cls1
  /-- … about to leave the wait group -/
  | cls2
  /-- will call `Server.Close` -/
  | close0
  /-- … waits for the wait group -/
  | close1
  /-- … about to return -/
  | close2
  /-- no longer takes part -/
  | plain

/-- Effects that do not concern the shutdown. -/
def SOp.plain : SOp → Prop
  | .spawn _ | .wgAdd | .wgDone | .wgWait | .closeQuit | .closeReturned | .accept | .receive => False
  | _ => True

section
variable {C : Crypto}

theorem serving_plain (o : SOp) (h : o.serving) : o.plain := by
  cases o <;> first
    | trivial
    | (rcases h with (h | h | h | h) | h <;> exact h.elim)

theorem plain_enabled {w : World} {o : SOp} (h : o.plain) : enabled w o = true := by
  cases o <;> first | rfl | exact h.elim

theorem exec_sync (timeout : Nat) (a : Answer C) (o : SOp) (h : o.plain) (c : Conn) (w : World) :
    (exec C timeout a o (c, w)).2.2.quit = w.quit ∧ (exec C timeout a o (c, w)).2.2.wg = w.wg ∧
      (exec C timeout a o (c, w)).2.2.spawned = w.spawned := by
  cases o with
  | write bs =>
    simp only [exec, execWrite]
    split
    · exact ⟨rfl, rfl, rfl⟩
    · split
      · split <;> exact ⟨rfl, rfl, rfl⟩
      · exact ⟨rfl, rfl, rfl⟩
  | check r n =>
    simp only [exec]
    split <;> exact ⟨rfl, rfl, rfl⟩
  | flush =>
    simp only [exec]
    split <;> exact ⟨rfl, rfl, rfl⟩
  | _ => first | exact ⟨rfl, rfl, rfl⟩ | exact h.elim

/-- The goroutine stands where its kind says. -/
def GKind.Fits (M : Manager C) : GKind → Thread C → Prop
  | .acc0, t => (t.prog = acceptPass ∨ t.prog = .ret true) ∧ t.loop = acceptPass ∧ t.deferred = .ret false
  | .acc1, t => (∃ k : Except Err Peer → SProg C Bool, t.prog = .op .accept k ∧
      (∀ e, k (.error e) = .ret true) ∧
      ∀ p, k (.ok p) = .op .wgAdd fun _ => .op (.spawn p) fun _ => .ret true) ∧
      t.loop = acceptPass ∧ t.deferred = .ret false
  | .acc2 p, t => t.prog = (.op .wgAdd fun _ => .op (.spawn p) fun _ => .ret true) ∧
      t.loop = acceptPass ∧ t.deferred = .ret false ∧ p.isTcp
  | .acc3 p, t => t.prog = (.op (.spawn p) fun _ => .ret true) ∧
      t.loop = acceptPass ∧ t.deferred = .ret false ∧ p.isTcp
  | .rec0, t => (t.prog = packetPass ∨ t.prog = .ret true) ∧ t.loop = packetPass ∧ t.deferred = .ret false
  | .rec1, t => (∃ k : Except Err Peer → SProg C Bool, t.prog = .op .receive k ∧
      (∀ e, k (.error e) = .ret true) ∧ ∀ p, k (.ok p) = .op (.spawn p) fun _ => .ret true) ∧
      t.loop = packetPass ∧ t.deferred = .ret false
  | .rec2 p, t => t.prog = (.op (.spawn p) fun _ => .ret true) ∧
      t.loop = packetPass ∧ t.deferred = .ret false ∧ ¬ p.isTcp
  | .serve, t => ∃ host, Uses (S := SSig C) SOp.plain t.prog ∧ t.loop = connPass M host ∧
      t.deferred = connDeferred
  | .cls1, t => t.prog = connDeferred ∧ t.loop = .ret false ∧ t.deferred = .ret false
  | .cls2, t => t.prog = (.op .wgDone fun _ => .ret false) ∧ t.loop = .ret false ∧ t.deferred = .ret false
  | .close0, t => t.prog = closeServer ∧ t.loop = .ret false ∧ t.deferred = .ret false
  | .close1, t => t.prog = (.op .wgWait fun _ => .op .closeReturned fun _ => .ret false) ∧
      t.loop = .ret false ∧ t.deferred = .ret false
  | .close2, t => t.prog = (.op .closeReturned fun _ => .ret false) ∧
      t.loop = .ret false ∧ t.deferred = .ret false
  | .plain, t => Uses (S := SSig C) SOp.plain t.prog ∧
      (Uses (S := SSig C) SOp.plain t.loop ∨ t.prog = .ret false) ∧ Uses (S := SSig C) SOp.plain t.deferred

/-- The kinds that a step may leave unchanged. -/
def GKind.mayStay (n : Nat) : GKind → Prop
  | .acc0 | .rec0 | .serve | .plain => True
  | .close1 => n ≠ 0
  | _ => False

/-- A step of a goroutine: its kind, the quit channel and the wait group before and after, and the
goroutines it starts. -/
inductive Moves : GKind → Bool → Nat → GKind → Bool → Nat → List Peer → Prop where
  | stay {k q n} : k.mayStay n → Moves k q n k q n []
  | accLook {n} : Moves .acc0 false n .acc1 false n []
  | accStop {n} : Moves .acc0 true n .plain true n []
  | accErr {q n} : Moves .acc1 q n .acc0 q n []
  | accept {q n p} : Moves .acc1 q n (.acc2 p) q n []
  | add {q n p} : Moves (.acc2 p) q n (.acc3 p) q (n + 1) []
  | spawn {q n p} : p.isTcp → Moves (.acc3 p) q n .acc0 q n [p]
  | recLook {n} : Moves .rec0 false n .rec1 false n []
  | recStop {n} : Moves .rec0 true n .plain true n []
  | recErr {q n} : Moves .rec1 q n .rec0 q n []
  | receive {q n p} : Moves .rec1 q n (.rec2 p) q n []
  | spawnU {q n p} : ¬ p.isTcp → Moves (.rec2 p) q n .rec0 q n [p]
  | leave {q n} : Moves .serve q n .cls1 q n []
  | cls {q n} : Moves .cls1 q n .cls2 q n []
  | done {q n} : Moves .cls2 q n .plain q (n - 1) []
  | closeQ {n} : Moves .close0 false n .close1 true n []
  | closeP {n} : Moves .close0 true n .plain true n []
  | wait {q} : Moves .close1 q 0 .close2 q 0 []
  | ret {q n} : Moves .close2 q n .plain q n []

theorem plain_connPass {M : Manager C} (hM : M.Passive) (host : Except Err Bytes) :
    Uses (S := SSig C) SOp.plain (connPass M host) := by
  refine ⟨trivial, fun (closed : Bool) => ?_⟩
  cases closed with
  | true => trivial
  | false => exact ⟨trivial, fun _ => (serving_serveRequest hM host).mono serving_plain⟩

theorem step_op {timeout : Nat} {a : Answer C} {w : World} {conn : Conn} {loop deferred : SProg C Bool}
    {o : SOp} {k : SOp.Ret C o → SProg C Bool} (h : enabled w o = true) :
    Thread.step timeout a ⟨conn, .op o k, loop, deferred⟩ w =
      (⟨(exec C timeout a o (conn, w)).2.1, k (exec C timeout a o (conn, w)).1, loop, deferred⟩,
        (exec C timeout a o (conn, w)).2.2) := by
  unfold Thread.step
  dsimp only
  rw [if_pos h]

theorem step_kind {M : Manager C} (hM : M.Passive) (timeout : Nat) (a : Answer C) (t : Thread C)
    (w : World) (k : GKind) (hs : w.spawned = []) (hf : k.Fits M t) :
    ∃ k', k'.Fits M (t.step timeout a w).1 ∧
      Moves k w.quit w.wg k' (t.step timeout a w).2.quit (t.step timeout a w).2.wg
        (t.step timeout a w).2.spawned ∧
      (k = .close2 → .closeReturned ∈ (t.step timeout a w).2.log) := by
  obtain ⟨conn, prog, loop, deferred⟩ := t
  obtain ⟨heap, table, now, quit, wg, spawned, log, by'⟩ := w
  dsimp only at hs
  subst hs
  cases k with
  | acc0 =>
    obtain ⟨hp, hl, hd⟩ := hf
    dsimp only at hp hl hd
    subst hl hd
    rcases hp with rfl | rfl
    · cases quit with
      | true => exact ⟨.plain, ⟨trivial, .inr rfl, trivial⟩, .accStop, fun h => by cases h⟩
      | false => exact ⟨.acc1, ⟨⟨_, rfl, fun _ => rfl, fun _ => rfl⟩, rfl, rfl⟩, .accLook, fun h => by cases h⟩
    · exact ⟨.acc0, ⟨.inl rfl, rfl, rfl⟩, .stay trivial, fun h => by cases h⟩
  | acc1 =>
    obtain ⟨⟨k, hp, herr, hok⟩, hl, hd⟩ := hf
    dsimp only at hp hl hd
    subst hp hl hd
    obtain ⟨gk, sg, fk, ha, wr, tick, ky, ch, peer⟩ := a
    match peer with
    | .error e => exact ⟨.acc0, ⟨.inr (herr _), rfl, rfl⟩, .accErr, fun h => by cases h⟩
    | .ok (.udp host d) => exact ⟨.acc0, ⟨.inr (herr _), rfl, rfl⟩, .accErr, fun h => by cases h⟩
    | .ok (.tcp host d) => exact ⟨.acc2 (.tcp host d), ⟨hok _, rfl, rfl, trivial⟩, .accept, fun h => by cases h⟩
  | acc2 p =>
    obtain ⟨hp, hl, hd, ht⟩ := hf
    dsimp only at hp hl hd
    subst hp hl hd
    exact ⟨.acc3 p, ⟨rfl, rfl, rfl, ht⟩, .add, fun h => by cases h⟩
  | acc3 p =>
    obtain ⟨hp, hl, hd, ht⟩ := hf
    dsimp only at hp hl hd
    subst hp hl hd
    exact ⟨.acc0, ⟨.inr rfl, rfl, rfl⟩, .spawn ht, fun h => by cases h⟩
  | rec0 =>
    obtain ⟨hp, hl, hd⟩ := hf
    dsimp only at hp hl hd
    subst hl hd
    rcases hp with rfl | rfl
    · cases quit with
      | true => exact ⟨.plain, ⟨trivial, .inr rfl, trivial⟩, .recStop, fun h => by cases h⟩
      | false => exact ⟨.rec1, ⟨⟨_, rfl, fun _ => rfl, fun _ => rfl⟩, rfl, rfl⟩, .recLook, fun h => by cases h⟩
    · exact ⟨.rec0, ⟨.inl rfl, rfl, rfl⟩, .stay trivial, fun h => by cases h⟩
  | rec1 =>
    obtain ⟨⟨k, hp, herr, hok⟩, hl, hd⟩ := hf
    dsimp only at hp hl hd
    subst hp hl hd
    obtain ⟨gk, sg, fk, ha, wr, tick, ky, ch, peer⟩ := a
    match peer with
    | .error e => exact ⟨.rec0, ⟨.inr (herr _), rfl, rfl⟩, .recErr, fun h => by cases h⟩
    | .ok (.tcp host d) => exact ⟨.rec0, ⟨.inr (herr _), rfl, rfl⟩, .recErr, fun h => by cases h⟩
    | .ok (.udp host d) => exact ⟨.rec2 (.udp host d), ⟨hok _, rfl, rfl, id⟩, .receive, fun h => by cases h⟩
  | rec2 p =>
    obtain ⟨hp, hl, hd, ht⟩ := hf
    dsimp only at hp hl hd
    subst hp hl hd
    exact ⟨.rec0, ⟨.inr rfl, rfl, rfl⟩, .spawnU ht, fun h => by cases h⟩
  | serve =>
    obtain ⟨host, hp, hl, hd⟩ := hf
    dsimp only at hp hl hd
    subst hl hd
    cases prog with
    | ret b =>
      cases b with
      | true => exact ⟨.serve, ⟨host, plain_connPass hM host, rfl, rfl⟩, .stay trivial, fun h => by cases h⟩
      | false => exact ⟨.cls1, ⟨rfl, rfl, rfl⟩, .leave, fun h => by cases h⟩
    | panic m => exact ⟨.cls1, ⟨rfl, rfl, rfl⟩, .leave, fun h => by cases h⟩
    | op o k =>
      rw [step_op (plain_enabled hp.1)]
      obtain ⟨h1, h2, h3⟩ := exec_sync timeout a o hp.1 conn ⟨heap, table, now, quit, wg, [], log, by'⟩
      refine ⟨.serve, ⟨host, hp.2 _, rfl, rfl⟩, ?_, fun h => by cases h⟩
      dsimp only
      rw [h1, h2, h3]
      exact .stay trivial
  | cls1 =>
    obtain ⟨hp, hl, hd⟩ := hf
    dsimp only at hp hl hd
    subst hp hl hd
    exact ⟨.cls2, ⟨rfl, rfl, rfl⟩, .cls, fun h => by cases h⟩
  | cls2 =>
    obtain ⟨hp, hl, hd⟩ := hf
    dsimp only at hp hl hd
    subst hp hl hd
    exact ⟨.plain, ⟨trivial, .inl trivial, trivial⟩, .done, fun h => by cases h⟩
  | close0 =>
    obtain ⟨hp, hl, hd⟩ := hf
    dsimp only at hp hl hd
    subst hp hl hd
    cases quit with
    | true => exact ⟨.plain, ⟨trivial, .inl trivial, trivial⟩, .closeP, fun h => by cases h⟩
    | false => exact ⟨.close1, ⟨rfl, rfl, rfl⟩, .closeQ, fun h => by cases h⟩
  | close1 =>
    obtain ⟨hp, hl, hd⟩ := hf
    dsimp only at hp hl hd
    subst hp hl hd
    cases wg with
    | zero => exact ⟨.close2, ⟨rfl, rfl, rfl⟩, .wait, fun h => by cases h⟩
    | succ n => exact ⟨.close1, ⟨rfl, rfl, rfl⟩, .stay (Nat.succ_ne_zero n), fun h => by cases h⟩
  | close2 =>
    obtain ⟨hp, hl, hd⟩ := hf
    dsimp only at hp hl hd
    subst hp hl hd
    exact ⟨.plain, ⟨trivial, .inl trivial, trivial⟩, .ret, fun _ => List.mem_append_right _ List.mem_cons_self⟩
  | plain =>
    obtain ⟨hp, hl, hd⟩ := hf
    dsimp only at hp hl hd
    cases prog with
    | ret b =>
      cases b with
      | true =>
        replace hl := hl.resolve_right (by simp)
        exact ⟨.plain, ⟨hl, .inl hl, hd⟩, .stay trivial, fun h => by cases h⟩
      | false => exact ⟨.plain, ⟨hd, .inl trivial, trivial⟩, .stay trivial, fun h => by cases h⟩
    | panic m => exact ⟨.plain, ⟨hd, .inl trivial, trivial⟩, .stay trivial, fun h => by cases h⟩
    | op o k =>
      rw [step_op (plain_enabled hp.1)]
      obtain ⟨h1, h2, h3⟩ := exec_sync timeout a o hp.1 conn ⟨heap, table, now, quit, wg, [], log, by'⟩
      refine ⟨.plain, ⟨hp.2 _, .inl (hl.resolve_right (by simp)), hd⟩, ?_, fun h => by cases h⟩
      dsimp only
      rw [h1, h2, h3]
      exact .stay trivial

theorem exec_buffered (timeout : Nat) (a : Answer C) (o : SOp) (c : Conn) (w : World) :
    (exec C timeout a o (c, w)).2.1.buffered = c.buffered := by
  cases o with
  | write bs => rfl
  | check r n =>
    simp only [exec]
    split <;> rfl
  | flush =>
    simp only [exec]
    split <;> rfl
  | _ => rfl

theorem step_buffered (timeout : Nat) (a : Answer C) (t : Thread C) (w : World) :
    (t.step timeout a w).1.conn.buffered = t.conn.buffered := by
  unfold Thread.step
  split
  · rfl
  · rfl
  · rfl
  · split
    · exact exec_buffered ..
    · rfl

theorem exec_returned (timeout : Nat) (a : Answer C) (o : SOp) (c : Conn) (w : World) (ho : o ≠ .closeReturned)
    (h : .closeReturned ∈ (exec C timeout a o (c, w)).2.2.log) : .closeReturned ∈ w.log := by
  cases o with
  | write bs =>
    revert h
    simp only [exec, execWrite]
    split
    · exact id
    · split
      · split <;> exact id
      · exact id
  | check r n =>
    revert h
    simp only [exec]
    split
    · exact id
    · dsimp only
      split
      · simp
      · exact id
  | flush =>
    revert h
    simp only [exec]
    split <;> exact id
  | closeReturned => exact absurd rfl ho
  | newSession secret host id => simpa [exec] using h
  | invoke r c' host id m => simpa [exec] using h
  | aead r key nonce m => simpa [exec] using h
  | _ => exact h

theorem step_returned {M : Manager C} {k : GKind} {timeout : Nat} {a : Answer C} {t : Thread C} {w : World}
    (hf : k.Fits M t) (h : .closeReturned ∈ (t.step timeout a w).2.log) :
    .closeReturned ∈ w.log ∨ k = .close2 := by
  obtain ⟨conn, prog, loop, deferred⟩ := t
  cases prog with
  | ret b => cases b <;> exact .inl h
  | panic m => exact .inl h
  | op o f =>
    by_cases ho : o = .closeReturned
    · right
      subst ho
      cases k with
      | close2 => rfl
      | acc0 => rcases hf with ⟨hf | hf, -⟩ <;> cases hf
      | acc1 => obtain ⟨⟨k, hf, -⟩, -⟩ := hf; cases hf
      | rec0 => rcases hf with ⟨hf | hf, -⟩ <;> cases hf
      | rec1 => obtain ⟨⟨k, hf, -⟩, -⟩ := hf; cases hf
      | serve => obtain ⟨host, hf, -⟩ := hf; exact hf.1.elim
      | plain => exact hf.1.1.elim
      | _ => have := hf.1; cases this
    · left
      by_cases hen : enabled w o = true
      · rw [step_op hen] at h
        exact exec_returned _ _ _ _ _ ho h
      · unfold Thread.step at h
        dsimp only at h
        rw [if_neg hen] at h
        exact h

/-! ## All goroutines -/

/-- The kind of the goroutine started for a peer. -/
def GKind.ofPeer : Peer → GKind
  | .tcp _ _ => .serve
  | .udp _ _ => .plain

theorem fits_ofPeer {M : Manager C} (hM : M.Passive) (p : Peer) :
    (GKind.ofPeer p).Fits M (Thread.ofPeer M p) := by
  cases p with
  | tcp host input => exact ⟨host, plain_connPass hM host, rfl, rfl⟩
  | udp host d =>
    exact ⟨⟨trivial, fun _ => Uses.bind ((serving_serveRequest hM host).mono serving_plain) fun _ => trivial⟩,
      .inl trivial, trivial, fun _ => trivial⟩

/-- What a goroutine counts for in the wait group. -/
def GKind.owes : GKind → Nat
  | .acc3 _ | .serve | .cls1 | .cls2 => 1
  | _ => 0

/-- A sum over all goroutines. -/
def total (f : GKind → Nat) (ks : List GKind) : Nat := (ks.map f).sum

theorem total_set (f : GKind → Nat) {l : List GKind} {i : Nat} {a : GKind} (b : GKind) (h : l[i]? = some a) :
    total f (l.set i b) + f a = total f l + f b := by
  unfold total
  induction l generalizing i with
  | nil => simp at h
  | cons x l ih =>
    cases i with
    | zero =>
      simp only [List.getElem?_cons_zero, Option.some.injEq] at h
      subst h
      simp only [List.set_cons_zero, List.map_cons, List.sum_cons]
      omega
    | succ i =>
      simp only [List.getElem?_cons_succ] at h
      have := ih h
      simp only [List.set_cons_succ, List.map_cons, List.sum_cons]
      omega

theorem total_append (f : GKind → Nat) (l l' : List GKind) : total f (l ++ l') = total f l + total f l' := by
  simp [total]

theorem le_total (f : GKind → Nat) {l : List GKind} {i : Nat} {a : GKind} (h : l[i]? = some a) :
    f a ≤ total f l := by
  unfold total
  induction l generalizing i with
  | nil => simp at h
  | cons x l ih =>
    rw [List.map_cons, List.sum_cons]
    cases i with
    | zero =>
      simp only [List.getElem?_cons_zero, Option.some.injEq] at h
      subst h
      omega
    | succ i =>
      simp only [List.getElem?_cons_succ] at h
      have := ih h
      omega

/-- The kinds of all goroutines. -/
structure Kinds (M : Manager C) (s : Sys C) (ks : List GKind) : Prop where
  len : ks.length = s.threads.length
  fits : ∀ (i : Nat) (t : Thread C) (k : GKind), s.threads[i]? = some t → ks[i]? = some k → k.Fits M t
  spawned : s.world.spawned = []
  wg : s.world.wg = total GKind.owes ks

/-- One step of the server, by kinds. -/
inductive KStep (s : Sys C) (i : Nat) (ks : List GKind) (s' : Sys C) (ks' : List GKind) : Prop where
  | idle : s.threads[i]? = none → s' = s → ks' = ks → KStep s i ks s' ks'
  | move {k k' : GKind} {sp : List Peer} : ks[i]? = some k →
      Moves k s.world.quit s.world.wg k' s'.world.quit s'.world.wg sp →
      ks' = ks.set i k' ++ sp.map GKind.ofPeer →
      s'.threads.map (·.conn.buffered) = s.threads.map (·.conn.buffered) ++ sp.map (fun p => (Conn.ofPeer p).buffered) →
      (k = .close2 → .closeReturned ∈ s'.world.log) →
      (.closeReturned ∈ s'.world.log → .closeReturned ∈ s.world.log ∨ k = .close2) → KStep s i ks s' ks'

theorem moves_owes {k k' : GKind} {q q' : Bool} {n n' : Nat} {sp : List Peer} (h : Moves k q n k' q' n' sp)
    (hn : k.owes ≤ n) : n' + k.owes = n + k'.owes + total GKind.owes (sp.map GKind.ofPeer) := by
  cases h with
  | @spawn q n p hp => cases p with
    | tcp => simp [GKind.owes, total, GKind.ofPeer]
    | udp => exact hp.elim
  | @spawnU q n p hp => cases p with
    | tcp => exact (hp trivial).elim
    | udp => simp [GKind.owes, total, GKind.ofPeer]
  | done => simp only [GKind.owes] at hn ⊢; simp [total]; omega
  | _ => simp [GKind.owes, total]

theorem Kinds.step {M : Manager C} (hM : M.Passive) (timeout : Nat) {s : Sys C} {ks : List GKind}
    (h : Kinds M s ks) (act : Nat × Answer C) :
    ∃ ks', Kinds M (s.step M timeout act) ks' ∧ KStep s act.1 ks (s.step M timeout act) ks' := by
  unfold Sys.step
  split
  · rename_i hn
    exact ⟨ks, h, .idle hn rfl rfl⟩
  · rename_i t ht
    have hi : act.1 < ks.length := by
      rw [h.len]; exact (List.getElem?_eq_some_iff.mp ht).1
    have hk : ks[act.1]? = some ks[act.1] := List.getElem?_eq_getElem hi
    obtain ⟨k', hf, hm, hc⟩ := step_kind hM timeout act.2 t s.world _ h.spawned (h.fits _ _ _ ht hk)
    refine ⟨_, ⟨?_, ?_, rfl, ?_⟩, .move hk hm rfl ?_ hc (step_returned (h.fits _ _ _ ht hk))⟩
    · simp [h.len]
    · intro j t'' g'' hj hgj
      dsimp only at hj
      have hlen : (s.threads.set act.1 (t.step timeout act.2 s.world).1).length =
          (ks.set act.1 k').length := by simp [h.len]
      rw [List.getElem?_append] at hj hgj
      rw [hlen] at hj
      split at hj
      · rename_i hjl
        rw [if_pos hjl] at hgj
        by_cases hij : act.1 = j
        · subst hij
          rw [List.getElem?_set_self (by rw [← h.len]; exact hi)] at hj
          rw [List.getElem?_set_self hi] at hgj
          cases hj; cases hgj
          exact hf
        · rw [List.getElem?_set_ne hij] at hj hgj
          exact h.fits j t'' g'' hj hgj
      · rename_i hjl
        rw [if_neg hjl] at hgj
        rw [List.getElem?_map] at hj hgj
        cases hp : (t.step timeout act.2 s.world).2.spawned[j - (ks.set act.1 k').length]? with
        | none => rw [hp] at hj; cases hj
        | some p =>
          rw [hp] at hj hgj
          cases hj; cases hgj
          exact fits_ofPeer hM p
    · have h1 := moves_owes hm (by rw [h.wg]; exact le_total _ hk)
      have h2 := total_set GKind.owes k' hk
      have h3 := h.wg
      rw [total_append]
      dsimp only
      omega
    · have hset : (s.threads.set act.1 (t.step timeout act.2 s.world).1).map (·.conn.buffered) =
          s.threads.map (·.conn.buffered) := by
        rw [List.map_set, step_buffered]
        exact set_same (by rw [List.getElem?_map, ht]; rfl)
      have hp : ∀ p : Peer, (Thread.ofPeer M p).conn = Conn.ofPeer p := fun p => by cases p <;> rfl
      dsimp only
      rw [List.map_append, hset, List.map_map]
      simp only [Function.comp_def, hp]

theorem Kinds.start {M : Manager C} (ttl closers : Nat) :
    Kinds M (Sys.start (C := C) ttl closers)
      ([.acc0, .rec0] ++ (if ttl > 0 then [.plain] else []) ++ List.replicate closers .close0) := by
  refine ⟨?_, ?_, rfl, ?_⟩
  · simp only [Sys.start, List.length_append, List.length_replicate]
    split <;> rfl
  · have hgc : GKind.plain.Fits M (Thread.repeating (gcVisit (C := C) ttl)) := by
      have : Uses (S := SSig C) SOp.plain (gcVisit ttl) :=
        ⟨trivial, fun (key : Bytes) => ⟨trivial, fun (value : Option (Ref × Nat)) => by
          rcases value with _ | ⟨r, last⟩
          · trivial
          refine ⟨trivial, fun (t : Nat) => ?_⟩
          dsimp only
          split
          · exact ⟨trivial, fun _ => trivial⟩
          · trivial⟩⟩
      exact ⟨this, .inl this, trivial⟩
    have hcl : GKind.close0.Fits M (C := C) ⟨.none, closeServer, .ret false, .ret false⟩ := ⟨rfl, rfl, rfl⟩
    intro i t k ht hk
    simp only [Sys.start] at ht
    match i with
    | 0 => cases ht; cases hk; exact ⟨.inl rfl, rfl, rfl⟩
    | 1 => cases ht; cases hk; exact ⟨.inl rfl, rfl, rfl⟩
    | i + 2 =>
      simp only [List.cons_append, List.nil_append, List.getElem?_cons_succ] at ht hk
      by_cases httl : ttl > 0
      · rw [if_pos httl] at ht hk
        cases i with
        | zero => cases ht; cases hk; exact hgc
        | succ i =>
          simp only [List.cons_append, List.nil_append, List.getElem?_cons_succ] at ht hk
          obtain ⟨-, rfl⟩ := List.mem_replicate.mp (List.mem_of_getElem? ht)
          obtain ⟨-, rfl⟩ := List.mem_replicate.mp (List.mem_of_getElem? hk)
          exact hcl
      · rw [if_neg httl, List.nil_append] at ht hk
        obtain ⟨-, rfl⟩ := List.mem_replicate.mp (List.mem_of_getElem? ht)
        obtain ⟨-, rfl⟩ := List.mem_replicate.mp (List.mem_of_getElem? hk)
        exact hcl
  · show 0 = _
    rw [total_append, total_append]
    have : total GKind.owes (List.replicate closers .close0) = 0 := by
      simp [total, GKind.owes]
    rw [this]
    split <;> rfl

end

end Goe2ee
