import Verif.Proofs.Isolation

/-!
# A stored session stays
-/

set_option autoImplicit false

namespace Goe2ee

/-- What a goroutine learned in its current pass: sessions and the names it knows them under, access
times it saw in the table, and times it read from the clock. -/
structure Held where
  refs : List (Bytes × Ref)
  seen : List (Bytes × Nat)
  times : List Nat

section
variable (C : Crypto)

/-- What may be stored or deleted: a session known under that name with a time just read; an entry
seen to be older than the TTL. -/
def keepA (ttl : Nat) : Auto (SSig C) Held where
  pre
    | .mapStore k v, g => (k, v.1) ∈ g.refs ∧ v.2 ∈ g.times
    | .mapDelete k, g => 0 < ttl ∧ ∃ last t, (k, last) ∈ g.seen ∧ t ∈ g.times ∧ ttl < t - last
    | _, _ => True
  next
    | .newSession _ host id, r, g => { g with refs := (fileName C host id, r) :: g.refs }
    | .mapLoad k, some (r, last), g =>
      { g with refs := (k, r) :: g.refs, seen := (k, last) :: g.seen }
    | .now, t, g => { g with times := t :: g.times }
    | _, _, g => g

variable {C}

/-- Effects that have nothing to do with the table. -/
def SOp.untabled : SOp → Prop
  | .mapStore _ _ | .newSession _ _ _ | .mapDelete _ | .mapLoad _ | .now => False
  | _ => True

abbrev AnyK {α : Type} : α → Held → Prop := fun _ _ => True

theorem untabled_safe {α : Type} {p : SProg C α} (hp : Uses (S := SSig C) SOp.untabled p)
    {ttl : Nat} {g : Held} {Q : α → Held → Prop} (hQ : ∀ a, Q a g) :
    Safe (keepA C ttl) p g Q :=
  Safe.of_uses hp (fun o _ h => by cases o <;> first | trivial | exact h.elim)
    (fun o _ _ h => by cases o <;> first | rfl | exact h.elim) hQ

theorem isRead_untabled (o : SOp) (h : o.isRead) : o.untabled := by
  cases o <;> first | trivial | exact h.elim
theorem isWrite_untabled (o : SOp) (h : o.isWrite) : o.untabled := by
  cases o <;> first | trivial | exact h.elim

theorem keep_failWith (ttl : Nat) (code : ErrorCode) (text : String) (g : Held) :
    Safe (keepA C ttl) (failWith code text) g AnyK :=
  untabled_safe ((uses_failWith code text).mono isWrite_untabled) fun _ => trivial

theorem keep_respondWith (ttl : Nat) (bs : Bytes) (g : Held) :
    Safe (keepA C ttl) (respondWith bs) g AnyK :=
  untabled_safe ((uses_respondWith bs).mono isWrite_untabled) fun _ => trivial

theorem keep_setupHandler (ttl : Nat) (host : Except Err Bytes) (common : RequestCommon) (g : Held) :
    Safe (keepA C ttl) (setupHandler (inMemory C) host common) g AnyK := by
  unfold setupHandler
  refine Safe.bind (untabled_safe ((uses_onConn _).mono isRead_untabled) fun parsed => ?_)
  rcases parsed with _ | request
  · exact keep_failWith _ _ _ _
  refine ⟨trivial, fun (generated : Except Err C.EPriv) => ?_⟩
  rcases generated with _ | serverPrivateKey
  · exact keep_failWith _ _ _ _
  dsimp only
  split
  · exact keep_failWith _ _ _ _
  split
  · exact keep_failWith _ _ _ _
  refine ⟨trivial, fun (session : Ref) => ?_⟩
  refine ⟨trivial, fun (t : Nat) => ?_⟩
  refine ⟨⟨List.mem_cons_self .., List.mem_cons_self ..⟩, fun _ => ?_⟩
  refine ⟨trivial, fun (signed : Except Err Bytes) => ?_⟩
  rcases signed with _ | signature
  · exact keep_failWith _ _ _ _
  exact keep_respondWith _ _ _

theorem keep_processHandler (ttl : Nat) (host : Except Err Bytes) (common : RequestCommon) (g : Held) :
    Safe (keepA C ttl) (processHandler (inMemory C) host common) g AnyK := by
  unfold processHandler
  refine Safe.bind (untabled_safe ((uses_onConn _).mono isRead_untabled) fun parsed => ?_)
  rcases parsed with _ | request
  · exact keep_failWith _ _ _ _
  dsimp only
  split
  · exact keep_failWith _ _ _ _
  rename_i host
  refine ⟨trivial, fun (value : Option (Ref × Nat)) => ?_⟩
  rcases value with _ | ⟨session, last⟩
  · exact keep_failWith _ _ _ _
  refine ⟨trivial, fun (t : Nat) => ?_⟩
  refine ⟨⟨List.mem_cons_self .., List.mem_cons_self ..⟩, fun _ => ?_⟩
  refine ⟨trivial, fun (fresh : Bool) => ?_⟩
  cases fresh with
  | false => exact keep_failWith _ _ _ _
  | true =>
    refine ⟨trivial, fun (secret : Bytes) => ?_⟩
    dsimp only
    split
    · exact keep_failWith _ _ _ _
    split
    · exact keep_failWith _ _ _ _
    split
    · exact keep_failWith _ _ _ _
    rw [show gcmNonceSize = 12 from rfl, C12_nonce_layout]
    dsimp only [ofRes, Prog.ret_bind]
    split
    · exact keep_failWith _ _ _ _
    unfold runHandler
    refine ⟨trivial, fun (handled : HRes) => ?_⟩
    rcases handled with written | e | m
    rotate_left
    · exact keep_failWith _ _ _ _
    · trivial
    dsimp only
    split
    · rw [show gcmNonceSize = 12 from rfl, C12_nonce_layout]
      refine ⟨trivial, fun sealed => ?_⟩
      exact keep_respondWith _ _ _
    · trivial

theorem keep_serveRequest (ttl : Nat) (host : Except Err Bytes) (g : Held) :
    Safe (keepA C ttl) (serveRequest (inMemory C) host) g AnyK := by
  unfold serveRequest
  refine Safe.bind (untabled_safe ((uses_onConn _).mono isRead_untabled) fun parsed => ?_)
  rcases parsed with _ | common
  · trivial
  dsimp only
  split
  · trivial
  refine Safe.bind ?_
  have : Safe (keepA C ttl) (handle (inMemory C) host common) g AnyK := by
    unfold handle
    split
    · exact keep_respondWith _ _ _
    split
    · exact keep_setupHandler _ _ _ _
    split
    · exact keep_processHandler _ _ _ _
    split
    · unfold fetchKeyHandler
      refine ⟨trivial, fun (fetched : Except Err (KeyAlgorithm × PublicKey)) => ?_⟩
      rcases fetched with _ | ⟨alg, pk⟩
      · exact keep_failWith _ _ _ _
      dsimp only
      split
      · exact keep_failWith _ _ _ _
      · exact keep_respondWith _ _ _
    · trivial
  refine this.mono fun err g' _ => ?_
  cases err <;> trivial

/-- The rest of the goroutine's life, after the current pass, is respectful. -/
def Thread.tame (ttl : Nat) (t : Thread C) : Prop :=
  (∀ g, Safe (keepA C ttl) t.loop g AnyK) ∧ (∀ g, Safe (keepA C ttl) t.deferred g AnyK)

theorem Thread.tame.step {ttl : Nat} {t : Thread C} (h : t.tame ttl) (timeout : Nat) (a : Answer C)
    (w : World) : (t.step timeout a w).1.tame ttl := by
  unfold Thread.step
  split
  · exact h
  · exact ⟨fun _ => trivial, fun _ => trivial⟩
  · exact ⟨fun _ => trivial, fun _ => trivial⟩
  · split
    · exact h
    · exact h

theorem keep_connPass (ttl : Nat) (host : Except Err Bytes) (g : Held) :
    Safe (keepA C ttl) (connPass (inMemory C) host) g AnyK := by
  refine ⟨trivial, fun (closed : Bool) => ?_⟩
  cases closed with
  | true => trivial
  | false => exact ⟨trivial, fun _ => keep_serveRequest ttl host _⟩

theorem keep_packetBody (ttl : Nat) (host : Except Err Bytes) (g : Held) :
    Safe (keepA C ttl) (packetBody (inMemory C) host) g AnyK :=
  ⟨trivial, fun _ => Safe.bind ((keep_serveRequest ttl host _).mono fun _ _ _ => trivial)⟩

theorem tame_ofPeer (ttl : Nat) (p : Peer) : (Thread.ofPeer (inMemory C) p).tame ttl := by
  cases p with
  | tcp host input =>
    exact ⟨fun _ => keep_connPass ttl host _, fun _ => ⟨trivial, fun _ => ⟨trivial, fun _ => trivial⟩⟩⟩
  | udp host d => exact ⟨fun _ => trivial, fun _ => ⟨trivial, fun _ => trivial⟩⟩

theorem keep_ofPeer (ttl : Nat) (p : Peer) (g : Held) :
    ThreadOK (keepA C ttl) (Thread.ofPeer (inMemory C) p) g := by
  obtain ⟨hl, hd⟩ := tame_ofPeer (C := C) ttl p
  refine ThreadOK.always (fun g => ?_) hl hd g
  cases p with
  | tcp host input => exact keep_connPass ttl host _
  | udp host d => exact keep_packetBody ttl host _

theorem keep_acceptPass (ttl : Nat) (g : Held) : Safe (keepA C ttl) acceptPass g AnyK := by
  refine ⟨trivial, fun (closed : Bool) => ?_⟩
  cases closed with
  | true => trivial
  | false =>
    refine ⟨trivial, fun (acc : Except Err Peer) => ?_⟩
    cases acc with
    | error e => trivial
    | ok p => exact ⟨trivial, fun _ => ⟨trivial, fun _ => trivial⟩⟩

theorem keep_packetPass (ttl : Nat) (g : Held) : Safe (keepA C ttl) packetPass g AnyK := by
  refine ⟨trivial, fun (closed : Bool) => ?_⟩
  cases closed with
  | true => trivial
  | false =>
    refine ⟨trivial, fun (acc : Except Err Peer) => ?_⟩
    cases acc with
    | error e => trivial
    | ok p => exact ⟨trivial, fun _ => trivial⟩

theorem keep_gcVisit (ttl : Nat) (h0 : 0 < ttl) (g : Held) : Safe (keepA C ttl) (gcVisit ttl) g AnyK := by
  refine ⟨trivial, fun (key : Bytes) => ⟨trivial, fun (value : Option (Ref × Nat)) => ?_⟩⟩
  rcases value with _ | ⟨r, last⟩
  · trivial
  refine ⟨trivial, fun (t : Nat) => ?_⟩
  dsimp only
  split
  · rename_i h
    exact ⟨⟨h0, last, t, List.mem_cons_self .., List.mem_cons_self .., h⟩, fun _ => trivial⟩
  · trivial

theorem keep_closeServer (ttl : Nat) (g : Held) : Safe (keepA C ttl) closeServer g AnyK := by
  refine ⟨trivial, fun (ok : Bool) => ?_⟩
  cases ok with
  | true => exact ⟨trivial, fun _ => ⟨trivial, fun _ => trivial⟩⟩
  | false => trivial

/-- Every goroutine a server starts with is respectful. -/
theorem keep_start (ttl closers : Nat) :
    ∀ t ∈ (Sys.start (C := C) ttl closers).threads,
      t.tame ttl ∧ ∀ g, Safe (keepA C ttl) t.prog g AnyK := by
  intro t hm
  simp only [Sys.start, List.mem_append, List.mem_cons, List.not_mem_nil, or_false] at hm
  rcases hm with ((rfl | rfl) | hm) | hm
  · exact ⟨⟨keep_acceptPass ttl, fun _ => trivial⟩, keep_acceptPass ttl⟩
  · exact ⟨⟨keep_packetPass ttl, fun _ => trivial⟩, keep_packetPass ttl⟩
  · split at hm
    · rename_i h0
      simp only [List.mem_singleton] at hm
      subst hm
      exact ⟨⟨keep_gcVisit ttl h0, fun _ => trivial⟩, keep_gcVisit ttl h0⟩
    · simp at hm
  · obtain ⟨-, rfl⟩ := List.mem_replicate.mp hm
    exact ⟨⟨fun _ => trivial, fun _ => trivial⟩, keep_closeServer ttl⟩

theorem tame_run (timeout ttl : Nat) (acts : List (Nat × Answer C)) (s : Sys C)
    (h : ∀ t ∈ s.threads, t.tame ttl) : ∀ t ∈ (s.run (inMemory C) timeout acts).threads, t.tame ttl := by
  induction acts generalizing s with
  | nil => exact h
  | cons act acts ih =>
    refine ih _ ?_
    unfold Sys.step
    split
    · exact h
    · rename_i t ht
      intro t' ht'
      rcases List.mem_append.mp ht' with ht' | ht'
      · rcases List.mem_or_eq_of_mem_set ht' with hm | rfl
        · exact h t' hm
        · exact (h t (List.mem_of_getElem? ht)).step timeout act.2 s.world
      · obtain ⟨p, -, rfl⟩ := List.mem_map.mp ht'
        exact tame_ofPeer ttl p

/-! ## Times are in the past -/

/-- What the goroutines and the table remember is not in the future. -/
structure PastInv (w : World) (gs : List Held) : Prop where
  table : ∀ k r t, w.table k = some (r, t) → t ≤ w.now
  times : ∀ g ∈ gs, ∀ t ∈ g.times, t ≤ w.now

theorem exec_now (timeout : Nat) (a : Answer C) (o : SOp) (c : Conn) (w : World) :
    w.now ≤ (exec C timeout a o (c, w)).2.2.now := by
  cases o with
  | write bs =>
    simp only [exec, execWrite]
    split
    · exact Nat.le_refl _
    · split
      · split <;> exact Nat.le_add_right _ _
      · exact Nat.le_add_right _ _
  | flush =>
    simp only [exec]
    split <;> exact Nat.le_add_right _ _
  | check r n =>
    simp only [exec]
    split <;> exact Nat.le_refl _
  | setDeadlines => exact Nat.le_add_right _ _
  | now => exact Nat.le_add_right _ _
  | _ => exact Nat.le_refl _

theorem exec_table (timeout : Nat) (a : Answer C) (o : SOp) (c : Conn) (w : World)
    (hs : ∀ k v, o ≠ .mapStore k v) (hd : ∀ k, o ≠ .mapDelete k) :
    (exec C timeout a o (c, w)).2.2.table = w.table := by
  cases o with
  | write bs =>
    simp only [exec, execWrite]
    split
    · rfl
    · split
      · split <;> rfl
      · rfl
  | flush =>
    simp only [exec]
    split <;> rfl
  | check r n =>
    simp only [exec]
    split <;> rfl
  | mapStore k v => exact absurd rfl (hs k v)
  | mapDelete k => exact absurd rfl (hd k)
  | _ => rfl

theorem exec_past (ttl timeout : Nat) (a : Answer C) (o : SOp) (c : Conn) (w : World)
    (gs : List Held) (i : Nat) (g : Held) (hg : gs[i]? = some g)
    (hpre : (keepA C ttl).pre o g) (h : PastInv w gs) :
    PastInv (exec C timeout a o (c, w)).2.2
      (gs.set i ((keepA C ttl).next o (exec C timeout a o (c, w)).1 g)) := by
  have hgm : g ∈ gs := List.mem_of_getElem? hg
  have hnow := exec_now timeout a o c w
  constructor
  · intro k r t hk
    by_cases hs : ∃ k v, o = .mapStore k v
    · obtain ⟨k', v, rfl⟩ := hs
      have hk : (if k = k' then some v else w.table k) = some (r, t) := hk
      split at hk
      · cases hk; exact h.times g hgm _ hpre.2
      · exact h.table _ _ _ hk
    by_cases hd : ∃ k, o = .mapDelete k
    · obtain ⟨k', rfl⟩ := hd
      have hk : (if k = k' then none else w.table k) = some (r, t) := hk
      split at hk
      · cases hk
      · exact h.table _ _ _ hk
    rw [exec_table timeout a o c w (fun k v he => hs ⟨k, v, he⟩) (fun k he => hd ⟨k, he⟩)] at hk
    exact Nat.le_trans (h.table _ _ _ hk) hnow
  · intro g' hg' t ht
    rcases List.mem_or_eq_of_mem_set hg' with hm | rfl
    · exact Nat.le_trans (h.times g' hm t ht) hnow
    · cases o with
      | now =>
        rcases List.mem_cons.mp ht with rfl | ht
        · exact Nat.le_refl _
        · exact Nat.le_trans (h.times g hgm t ht) hnow
      | mapLoad k =>
        have ht : t ∈ ((keepA C ttl).next (.mapLoad k) (w.table k) g).times := ht
        cases hk : w.table k with
        | none => rw [hk] at ht; exact h.times g hgm t ht
        | some v => rw [hk] at ht; exact h.times g hgm t ht
      | _ => exact Nat.le_trans (h.times g hgm t ht) hnow

theorem past_keeps (ttl timeout : Nat) :
    Keeps (inMemory C) timeout (keepA C ttl) PastInv ⟨[], [], []⟩ (fun _ => True) where
  exec a o c w gs i g _ _ hg hpre _ h := exec_past ttl timeout a o c w gs i g hg hpre h
  spawn w gs h := by
    refine ⟨h.table, ?_⟩
    intro g hg t ht
    rcases List.mem_append.mp hg with hg | hg
    · exact h.times g hg t ht
    · rw [(List.mem_replicate.mp hg).2] at ht; cases ht
  thread a o c w gs i g _ _ _ _ _ _ p _ := keep_ofPeer ttl p _

theorem past_run (timeout ttl closers : Nat) (acts : List (Nat × Answer C)) (k : Bytes) (r : Ref)
    (t : Nat)
    (h : (Sys.run (inMemory C) timeout (Sys.start ttl closers) acts).world.table k = some (r, t)) :
    t ≤ (Sys.run (inMemory C) timeout (Sys.start ttl closers) acts).world.now := by
  obtain ⟨gs, hh⟩ := (past_keeps ttl timeout).run acts (fun _ _ => trivial) (Sys.start ttl closers)
    (List.replicate (Sys.start (C := C) ttl closers).threads.length ⟨[], [], []⟩) (by
    refine ⟨by simp, ?_, ?_, rfl⟩
    · intro i t g ht hg
      obtain ⟨⟨hl, hd⟩, hp⟩ := keep_start ttl closers t (List.mem_of_getElem? ht)
      exact ThreadOK.always hp hl hd g
    · refine ⟨?_, ?_⟩
      · intro k r t hk; simp [Sys.start] at hk
      · intro g hg t ht
        rw [(List.mem_replicate.mp hg).2] at ht; cases ht)
  exact hh.world.table k r t h

/-! ## The session stays -/

/-- No session was created under the name `k` except those in `log₀`. -/
def NoNew (C : Crypto) (k : Bytes) (log₀ log : List Event) : Prop :=
  ∀ r host id, .established r host id ∈ log → fileName C host id = k → .established r host id ∈ log₀

/-- The session `r`, in the table under `k` since a moment when its access time was `t₀`, is still
there as long as no other session is created under that name and the TTL has not passed. -/
structure StayInv (C : Crypto) (ttl : Nat) (k : Bytes) (r : Ref) (secret : Bytes) (t₀ : Nat)
    (log₀ : List Event) (w : World) (gs : List Held) : Prop where
  now : t₀ ≤ w.now
  old : ∀ r host id, .established r host id ∈ log₀ → r < w.heap.length
  secret : ∃ window, w.heap[r]? = some (secret, window)
  stays : NoNew C k log₀ w.log → (0 < ttl → w.now ≤ t₀ + ttl) →
    (∃ t, w.table k = some (r, t) ∧ t₀ ≤ t) ∧
    ∀ g ∈ gs, (∀ r', (k, r') ∈ g.refs → r' = r) ∧ (∀ t, (k, t) ∈ g.seen → t₀ ≤ t) ∧
      ∀ t ∈ g.times, t₀ ≤ t ∧ t ≤ w.now

theorem exec_log_grows (timeout : Nat) (a : Answer C) (o : SOp) (c : Conn) (w : World) :
    ∀ e ∈ w.log, e ∈ (exec C timeout a o (c, w)).2.2.log := by
  intro e he
  cases o with
  | write bs =>
    simp only [exec, execWrite]
    split
    · exact he
    · split
      · split <;> exact he
      · exact he
  | flush =>
    simp only [exec]
    split <;> exact he
  | check r n =>
    simp only [exec]
    split
    · exact he
    · dsimp only
      split
      · exact List.mem_append_left _ he
      · exact he
  | newSession s h i => exact List.mem_append_left _ he
  | invoke r n h i m => exact List.mem_append_left _ he
  | aead r k n p => exact List.mem_append_left _ he
  | closeReturned => exact List.mem_append_left _ he
  | _ => exact he

theorem exec_secret (timeout : Nat) (a : Answer C) (o : SOp) (c : Conn) (w : World) (r : Ref)
    (secret : Bytes) (h : ∃ window, w.heap[r]? = some (secret, window)) :
    ∃ window, (exec C timeout a o (c, w)).2.2.heap[r]? = some (secret, window) := by
  obtain ⟨window, h⟩ := h
  cases o with
  | write bs =>
    simp only [exec, execWrite]
    split
    · exact ⟨_, h⟩
    · split
      · split <;> exact ⟨_, h⟩
      · exact ⟨_, h⟩
  | flush =>
    simp only [exec]
    split <;> exact ⟨_, h⟩
  | check r' n =>
    simp only [exec]
    split
    · exact ⟨_, h⟩
    · rename_i s' w' hr'
      dsimp only
      by_cases hrr : r' = r
      · subst hrr
        rw [h] at hr'
        cases hr'
        exact ⟨_, List.getElem?_set_self (List.getElem?_eq_some_iff.mp h).1⟩
      · exact ⟨window, by rw [List.getElem?_set_ne hrr]; exact h⟩
  | newSession s ho i =>
    refine ⟨window, ?_⟩
    show (w.heap ++ [(s, ReplayWindow.fresh)])[r]? = _
    rw [List.getElem?_append_left (List.getElem?_eq_some_iff.mp h).1]
    exact h
  | _ => exact ⟨window, h⟩

theorem exec_heap_length (timeout : Nat) (a : Answer C) (o : SOp) (c : Conn) (w : World) :
    w.heap.length ≤ (exec C timeout a o (c, w)).2.2.heap.length := by
  cases o with
  | write bs =>
    simp only [exec, execWrite]
    split
    · exact Nat.le_refl _
    · split
      · split <;> exact Nat.le_refl _
      · exact Nat.le_refl _
  | flush =>
    simp only [exec]
    split <;> exact Nat.le_refl _
  | check r n =>
    simp only [exec]
    split
    · exact Nat.le_refl _
    · simp
  | newSession s h i =>
    show w.heap.length ≤ (w.heap ++ [(s, ReplayWindow.fresh)]).length
    simp
  | _ => exact Nat.le_refl _

theorem exec_stay (ttl : Nat) (k : Bytes) (r : Ref) (secret : Bytes) (t₀ : Nat) (log₀ : List Event)
    (timeout : Nat) (a : Answer C) (o : SOp) (c : Conn) (w : World)
    (gs : List Held) (i : Nat) (g : Held) (hg : gs[i]? = some g)
    (hpre : (keepA C ttl).pre o g) (h : StayInv C ttl k r secret t₀ log₀ w gs) :
    StayInv C ttl k r secret t₀ log₀ (exec C timeout a o (c, w)).2.2
      (gs.set i ((keepA C ttl).next o (exec C timeout a o (c, w)).1 g)) := by
  have hgm : g ∈ gs := List.mem_of_getElem? hg
  have hnow := exec_now timeout a o c w
  refine ⟨Nat.le_trans h.now hnow, fun r' host id hm => Nat.lt_of_lt_of_le (h.old r' host id hm)
    (exec_heap_length timeout a o c w), exec_secret timeout a o c w r secret h.secret, ?_⟩
  intro hnew httl
  obtain ⟨⟨t, ht, htt⟩, hgs⟩ := h.stays
    (fun r' host id hm => hnew r' host id (exec_log_grows timeout a o c w _ hm))
    (fun h0 => Nat.le_trans hnow (httl h0))
  have hmine := hgs g hgm
  constructor
  · by_cases hs : ∃ k v, o = .mapStore k v
    · obtain ⟨k', v, rfl⟩ := hs
      show ∃ t, (if k = k' then some v else w.table k) = some (r, t) ∧ t₀ ≤ t
      split
      · rename_i hk
        subst hk
        obtain ⟨r', t'⟩ := v
        obtain rfl := hmine.1 r' hpre.1
        exact ⟨t', rfl, (hmine.2.2 t' hpre.2).1⟩
      · exact ⟨t, ht, htt⟩
    by_cases hd : ∃ k, o = .mapDelete k
    · obtain ⟨k', rfl⟩ := hd
      show ∃ t, (if k = k' then none else w.table k) = some (r, t) ∧ t₀ ≤ t
      split
      · rename_i hk
        subst hk
        obtain ⟨h0, last, t', hl, ht', hlt⟩ := hpre
        have h1 := hmine.2.1 last hl
        have h2 := (hmine.2.2 t' ht').2
        have h3 : w.now ≤ t₀ + ttl := httl h0
        omega
      · exact ⟨t, ht, htt⟩
    rw [exec_table timeout a o c w (fun k v he => hs ⟨k, v, he⟩) (fun k he => hd ⟨k, he⟩)]
    exact ⟨t, ht, htt⟩
  · intro g' hg'
    rcases List.mem_or_eq_of_mem_set hg' with hm | rfl
    · obtain ⟨h1, h2, h3⟩ := hgs g' hm
      exact ⟨h1, h2, fun t ht => ⟨(h3 t ht).1, Nat.le_trans (h3 t ht).2 hnow⟩⟩
    · obtain ⟨h1, h2, h3⟩ := hmine
      cases o with
      | now =>
        refine ⟨h1, h2, fun t ht => ?_⟩
        rcases List.mem_cons.mp ht with rfl | ht
        · exact ⟨Nat.le_trans h.now (Nat.le_add_right _ _), Nat.le_refl _⟩
        · exact ⟨(h3 t ht).1, Nat.le_trans (h3 t ht).2 hnow⟩
      | newSession s host id =>
        refine ⟨fun r' hr' => ?_, h2, h3⟩
        rcases List.mem_cons.mp hr' with he | hr'
        · exfalso
          cases he
          have := h.old _ _ _ (hnew w.heap.length host id
            (List.mem_append_right _ (List.mem_singleton_self _)) rfl)
          exact Nat.lt_irrefl _ this
        · exact h1 r' hr'
      | mapLoad k' =>
        show (∀ r', (k, r') ∈ ((keepA C ttl).next (.mapLoad k') (w.table k') g).refs → r' = r) ∧
          (∀ t, (k, t) ∈ ((keepA C ttl).next (.mapLoad k') (w.table k') g).seen → t₀ ≤ t) ∧
          ∀ t ∈ ((keepA C ttl).next (.mapLoad k') (w.table k') g).times, t₀ ≤ t ∧ t ≤ w.now
        cases hk : w.table k' with
        | none => exact ⟨h1, h2, h3⟩
        | some v =>
          obtain ⟨r', last⟩ := v
          refine ⟨fun r'' hr'' => ?_, fun t'' ht'' => ?_, h3⟩
          · rcases List.mem_cons.mp hr'' with he | hr''
            · cases he
              rw [ht] at hk
              cases hk
              rfl
            · exact h1 r'' hr''
          · rcases List.mem_cons.mp ht'' with he | ht''
            · cases he
              rw [ht] at hk
              cases hk
              exact htt
            · exact h2 t'' ht''
      | _ => exact ⟨h1, h2, fun t ht => ⟨(h3 t ht).1, Nat.le_trans (h3 t ht).2 hnow⟩⟩

theorem stay_keeps (ttl : Nat) (k : Bytes) (r : Ref) (secret : Bytes) (t₀ : Nat) (log₀ : List Event)
    (timeout : Nat) :
    Keeps (inMemory C) timeout (keepA C ttl) (StayInv C ttl k r secret t₀ log₀) ⟨[], [], []⟩
      (fun _ => True) where
  exec a o c w gs i g _ _ hg hpre _ h :=
    exec_stay ttl k r secret t₀ log₀ timeout a o c w gs i g hg hpre h
  spawn w gs h := by
    refine ⟨h.now, h.old, h.secret, fun h1 h2 => ⟨(h.stays h1 h2).1, ?_⟩⟩
    intro g hg
    rcases List.mem_append.mp hg with hg | hg
    · exact (h.stays h1 h2).2 g hg
    · rw [(List.mem_replicate.mp hg).2]
      exact ⟨(fun _ h => by cases h), (fun _ h => by cases h), (fun _ h => by cases h)⟩
  thread a o c w gs i g _ _ _ _ _ _ p _ := keep_ofPeer ttl p _

end

end Goe2ee
