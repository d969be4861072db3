import Verif.Proofs.Handler
import Verif.Proofs.Lossy
import Verif.Proofs.Robust
import Verif.Spec.Panic

/-!
# Handlers that panic
-/

set_option autoImplicit false

namespace Goe2ee

section
variable {C : Crypto}

/-! ## A panic of the handler ends the goroutine's pass at once -/

/-- What follows a call of the application that panics is the panic. -/
def PassesOn {α : Type} : (o : SOp) → (o.Ret C → SProg C α) → Prop
  | .invoke _ _ _ _ _, k => ∀ m, k (HRes.panic m) = .panic m
  | _, _ => True

/-- That, everywhere in a program. -/
def Through {α : Type} : SProg C α → Prop
  | .ret _ => True
  | .panic _ => True
  | .op o k => PassesOn o k ∧ ∀ r, Through (k r)

theorem Through.bind {α β : Type} {p : SProg C α} {f : α → SProg C β} (hp : Through p) (hf : ∀ a, Through (f a)) :
    Through (p.bind f) := by
  induction p with
  | ret a => exact hf a
  | panic m => trivial
  | op o k ih =>
    refine ⟨?_, fun r => ih r (hp.2 r)⟩
    cases o with
    | invoke r c h i m =>
      intro m'
      have h1 : k (HRes.panic m') = .panic m' := hp.1 m'
      show (k (HRes.panic m')).bind f = .panic m'
      rw [h1]
      rfl
    | _ => trivial

theorem Through.of_uses {α : Type} {p : SProg C α} (hp : Uses (S := SSig C) SOp.notInvoke p) : Through p := by
  induction p with
  | ret a => trivial
  | panic m => trivial
  | op o k ih =>
    refine ⟨?_, fun r => ih r (hp.2 r)⟩
    have := hp.1
    cases o <;> first | exact this.elim | trivial

theorem through_failWith (code : ErrorCode) (text : String) : Through (failWith (C := C) code text) :=
  .of_uses ((uses_failWith code text).mono isWrite_notInvoke)

theorem through_respondWith (bs : Bytes) : Through (respondWith (C := C) bs) :=
  .of_uses ((uses_respondWith bs).mono isWrite_notInvoke)

theorem through_ofRes {α β : Type} (x : Res α) {f : α → SProg C β} (hf : ∀ a, Through (f a)) :
    Through ((ofRes x).bind f) := by
  cases x with
  | val a => exact hf a
  | panic m => trivial

theorem through_runHandler (session : Ref) (host : Bytes) (request : ProcessRequest) (gcm message : Bytes) :
    Through (runHandler (C := C) session host request gcm message) := by
  refine ⟨fun m => rfl, fun (handled : HRes) => ?_⟩
  rcases handled with written | e | m
  · dsimp only
    split
    · exact through_ofRes _ fun _ => ⟨trivial, fun _ => through_respondWith _⟩
    · trivial
  · exact through_failWith _ _
  · trivial

theorem through_setupParsed {M : Manager C} (hM : M.Passive) (host : Except Err Bytes) (request : SetupRequest C) :
    Through (setupParsed M host request) := by
  unfold setupParsed
  refine ⟨trivial, fun (generated : Except Err C.EPriv) => ?_⟩
  rcases generated with _ | serverPrivateKey
  · exact through_failWith _ _
  dsimp only
  split
  · exact through_failWith _ _
  split
  · exact through_failWith _ _
  refine ⟨trivial, fun session => ?_⟩
  refine Through.bind (.of_uses ((hM.store _ _).mono isTable_notInvoke)) fun stored => ?_
  split
  · exact through_failWith _ _
  refine ⟨trivial, fun (signed : Except Err Bytes) => ?_⟩
  rcases signed with _ | signature
  · exact through_failWith _ _
  exact through_ofRes _ fun _ => through_respondWith _

theorem through_processParsed {M : Manager C} (hM : M.Passive) (host : Except Err Bytes) (request : ProcessRequest) :
    Through (processParsed M host request) := by
  unfold processParsed
  split
  · exact through_failWith _ _
  refine Through.bind (.of_uses ((hM.load _).mono isTable_notInvoke)) fun loaded => ?_
  split
  · exact through_failWith _ _
  refine ⟨trivial, fun (fresh : Bool) => ?_⟩
  cases fresh with
  | false => exact through_failWith _ _
  | true =>
    refine ⟨trivial, fun (secret : Bytes) => ?_⟩
    dsimp only
    split
    · exact through_failWith _ _
    split
    · exact through_failWith _ _
    split
    · exact through_failWith _ _
    refine through_ofRes _ fun _ => ?_
    split
    · exact through_failWith _ _
    · exact through_runHandler _ _ _ _ _

theorem through_fetchKey : Through (fetchKeyHandler (C := C)) := by
  unfold fetchKeyHandler
  refine ⟨trivial, fun (fetched : Except Err (KeyAlgorithm × PublicKey)) => ?_⟩
  rcases fetched with _ | ⟨alg, pk⟩
  · exact through_failWith _ _
  dsimp only
  split
  · exact through_failWith _ _
  · exact through_respondWith _

theorem through_serveRequest {M : Manager C} (hM : M.Passive) (host : Except Err Bytes) :
    Through (serveRequest M host) := by
  unfold serveRequest
  refine Through.bind (.of_uses ((uses_onConn _).mono isRead_notInvoke)) fun parsed => ?_
  rcases parsed with _ | common
  · trivial
  dsimp only
  split
  · trivial
  refine Through.bind ?_ fun err => by cases err <;> trivial
  unfold handle
  split
  · exact through_respondWith _
  split
  · rw [setupHandler_eq]
    refine Through.bind (.of_uses ((uses_onConn _).mono isRead_notInvoke)) fun parsed => ?_
    rcases parsed with _ | request
    · exact through_failWith _ _
    · exact through_setupParsed hM host request
  split
  · rw [processHandler_eq]
    refine Through.bind (.of_uses ((uses_onConn _).mono isRead_notInvoke)) fun parsed => ?_
    rcases parsed with _ | request
    · exact through_failWith _ _
    · exact through_processParsed hM host request
  split
  · exact through_fetchKey
  · trivial

theorem through_connPass {M : Manager C} (hM : M.Passive) (host : Except Err Bytes) :
    Through (connPass M host) := by
  refine ⟨trivial, fun (closed : Bool) => ?_⟩
  cases closed with
  | true => trivial
  | false => exact ⟨trivial, fun _ => through_serveRequest hM host⟩

/-! ## Goroutines -/

/-- The goroutines that may call the application, and the others. -/
inductive Kind (t : Thread C) : Prop where
  /-- of a TCP connection -/
  | conn : t.conn.buffered = false → t.deferred = connDeferred → Through t.prog → Through t.loop → Kind t
  /-- of a datagram, until its deferred calls: it panics only if it has written nothing -/
  | packet : t.conn.buffered = true → t.deferred = packetDeferred → t.loop = .ret false → Through t.prog →
      SafeE (writesA C) t.prog t.conn.writes (fun _ _ => True) NothingWritten →
      (t.conn.writes = [] → t.conn.output = []) → t.conn.sent = [] → Kind t
  | other : Uses (S := SSig C) SOp.notInvoke t.prog → Uses (S := SSig C) SOp.notInvoke t.loop →
      Uses (S := SSig C) SOp.notInvoke t.deferred → Kind t

theorem exec_keeps_buffered (timeout : Nat) (a : Answer C) (o : SOp) (c : Conn) (w : World) :
    (exec C timeout a o (c, w)).2.1.buffered = c.buffered := by
  cases o with
  | check r counter => simp only [exec]; split <;> rfl
  | flush => simp only [exec]; split <;> rfl
  | accept => simp only [exec]
  | receive => simp only [exec]
  | _ => rfl

theorem exec_packet (timeout : Nat) (a : Answer C) (o : SOp) (c : Conn) (w : World) (hb : c.buffered = true)
    (hpre : (writesA C).pre o c.writes) (ho : c.writes = [] → c.output = []) (hs : c.sent = []) :
    (exec C timeout a o (c, w)).2.1.writes = (writesA C).next o (exec C timeout a o (c, w)).1 c.writes ∧
    ((exec C timeout a o (c, w)).2.1.writes = [] → (exec C timeout a o (c, w)).2.1.output = []) ∧
    (exec C timeout a o (c, w)).2.1.sent = [] := by
  cases o with
  | write bs => exact ⟨rfl, fun h => absurd h (by simp [exec, execWrite]), hs⟩
  | flush => exact hpre.elim
  | check r counter => simp only [exec]; split <;> exact ⟨rfl, ho, hs⟩
  | accept => simp only [exec]; exact ⟨rfl, ho, hs⟩
  | receive => simp only [exec]; exact ⟨rfl, ho, hs⟩
  | _ => exact ⟨rfl, ho, hs⟩

theorem uses_deferred_conn : Uses (S := SSig C) SOp.notInvoke (connDeferred (C := C)) :=
  ⟨trivial, fun _ => ⟨trivial, fun _ => trivial⟩⟩

theorem uses_deferred_packet : Uses (S := SSig C) SOp.notInvoke (packetDeferred (C := C)) :=
  ⟨trivial, fun _ => trivial⟩

theorem Kind.step {t : Thread C} (h : Kind t) (timeout : Nat) (a : Answer C) (w : World) :
    Kind (t.step timeout a w).1 := by
  have hdef : ∀ d : SProg C Bool, t.deferred = d → Uses (S := SSig C) SOp.notInvoke d →
      Kind { t with prog := t.deferred, loop := .ret false, deferred := .ret false } := by
    rintro d rfl hd
    exact .other hd trivial trivial
  unfold Thread.step
  split
  · rename_i hprog
    cases h with
    | conn h1 h2 h3 h4 => exact .conn h1 h2 h4 h4
    | packet h1 h2 h3 h4 h5 h6 h7 =>
      refine .packet h1 h2 h3 ?_ ?_ h6 h7
      · show Through t.loop
        rw [h3]; trivial
      · show SafeE (writesA C) t.loop _ _ _
        rw [h3]; trivial
    | other h1 h2 h3 => exact .other h2 h2 h3
  · cases h with
    | conn h1 h2 h3 h4 => exact hdef _ h2 uses_deferred_conn
    | packet h1 h2 h3 h4 h5 h6 h7 => exact hdef _ h2 uses_deferred_packet
    | other h1 h2 h3 => exact hdef _ rfl h3
  · cases h with
    | conn h1 h2 h3 h4 => exact hdef _ h2 uses_deferred_conn
    | packet h1 h2 h3 h4 h5 h6 h7 => exact hdef _ h2 uses_deferred_packet
    | other h1 h2 h3 => exact hdef _ rfl h3
  · rename_i o k hprog
    split
    · cases h with
      | conn h1 h2 h3 h4 =>
        rw [hprog] at h3
        exact .conn ((exec_keeps_buffered _ _ _ _ _).trans h1) h2 (h3.2 _) h4
      | packet h1 h2 h3 h4 h5 h6 h7 =>
        rw [hprog] at h4 h5
        obtain ⟨h8, h9, h10⟩ := exec_packet timeout a o t.conn w h1 h5.1 h6 h7
        refine .packet ((exec_keeps_buffered _ _ _ _ _).trans h1) h2 h3 (h4.2 _) ?_ h9 h10
        dsimp only
        rw [h8]
        exact h5.2 _
      | other h1 h2 h3 =>
        rw [hprog] at h1
        exact .other (h1.2 _) h2 h3
    · exact h

theorem kind_ofPeer {M : Manager C} (hM : M.Passive) (p : Peer) : Kind (Thread.ofPeer M p) := by
  cases p with
  | tcp host input => exact .conn rfl rfl (through_connPass hM host) (through_connPass hM host)
  | udp host d =>
    refine .packet rfl rfl rfl ?_ ?_ (fun _ => rfl) rfl
    · exact ⟨trivial, fun _ => (through_serveRequest hM host).bind fun _ => trivial⟩
    · exact ⟨trivial, fun _ => SafeE.bind ((outcome_serveRequest hM host).mono (fun _ _ _ => trivial) fun _ _ h => h)⟩

theorem kind_start (ttl closers : Nat) : ∀ t ∈ (Sys.start (C := C) ttl closers).threads, Kind t := by
  refine start_threads ?_ ?_ ?_ ?_
  · have h : Uses (S := SSig C) SOp.notInvoke (acceptPass (C := C)) := by
      refine ⟨trivial, fun (closed : Bool) => ?_⟩
      cases closed with
      | true => trivial
      | false =>
        refine ⟨trivial, fun (acc : Except Err Peer) => ?_⟩
        cases acc with
        | error e => trivial
        | ok p => exact ⟨trivial, fun _ => ⟨trivial, fun _ => trivial⟩⟩
    exact .other h h trivial
  · have h : Uses (S := SSig C) SOp.notInvoke (packetPass (C := C)) := by
      refine ⟨trivial, fun (closed : Bool) => ?_⟩
      cases closed with
      | true => trivial
      | false =>
        refine ⟨trivial, fun (acc : Except Err Peer) => ?_⟩
        cases acc with
        | error e => trivial
        | ok p => exact ⟨trivial, fun _ => trivial⟩
    exact .other h h trivial
  · have h : Uses (S := SSig C) SOp.notInvoke (gcVisit (C := C) ttl) := by
      refine ⟨trivial, fun (key : Bytes) => ⟨trivial, fun (value : Option (Ref × Nat)) => ?_⟩⟩
      rcases value with _ | ⟨r, last⟩
      · trivial
      refine ⟨trivial, fun (t : Nat) => ?_⟩
      dsimp only
      split
      · exact ⟨trivial, fun _ => trivial⟩
      · trivial
    exact .other h h trivial
  · refine .other ⟨trivial, fun (ok : Bool) => ?_⟩ trivial trivial
    cases ok with
    | true => exact ⟨trivial, fun _ => ⟨trivial, fun _ => trivial⟩⟩
    | false => trivial

theorem kind_run {M : Manager C} (hM : M.Passive) (timeout : Nat) (acts : List (Nat × Answer C)) (s : Sys C)
    (h : ∀ t ∈ s.threads, Kind t) : ∀ t ∈ (s.run M timeout acts).threads, Kind t := by
  induction acts generalizing s with
  | nil => exact h
  | cons act acts ih =>
    refine ih (s.step M timeout act) fun t ht => ?_
    unfold Sys.step at ht
    split at ht
    · exact h t ht
    · rename_i t₀ ht₀
      rcases List.mem_append.mp ht with ht | ht
      · rcases List.mem_or_eq_of_mem_set ht with ht | rfl
        · exact h t ht
        · exact (h t₀ (List.mem_of_getElem? ht₀)).step timeout act.2 s.world
      · obtain ⟨p, hp, rfl⟩ := List.mem_map.mp ht
        exact kind_ofPeer hM p

/-! ## What is left to do after a panic -/

/-- A goroutine whose handler has panicked, that had the connection `c` then: has not entered its deferred calls, is in
them, or has ended. -/
inductive Dying (c : Conn) : Nat → Thread C → Prop where
  | conn0 {m l} : c.buffered = false → Dying c 0 ⟨c, .panic m, l, connDeferred⟩
  | conn1 : c.buffered = false → Dying c 1 ⟨c, connDeferred, .ret false, .ret false⟩
  | conn2 : c.buffered = false →
      Dying c 2 ⟨{ c with closed := true }, .op .wgDone fun _ => .ret false, .ret false, .ret false⟩
  | packet0 {m l} : c.buffered = true → c.output = [] → Dying c 0 ⟨c, .panic m, l, packetDeferred⟩
  | packet1 : c.buffered = true → c.output = [] → Dying c 1 ⟨c, packetDeferred, .ret false, .ret false⟩
  | ended {n c'} : 3 ≤ n → c' = (if c.buffered then c else { c with closed := true }) →
      Dying c n ⟨c', .ret false, .ret false, .ret false⟩
  | packet2 : c.buffered = true → Dying c 2 ⟨c, .ret false, .ret false, .ret false⟩

theorem Dying.step {c : Conn} {n : Nat} {t : Thread C} (h : Dying c n t) (timeout : Nat) (a : Answer C) (w : World) :
    Dying c (n + 1) (t.step timeout a w).1 ∧ (t.step timeout a w).2.heap = w.heap ∧
      (t.step timeout a w).2.table = w.table ∧ (t.step timeout a w).2.log = w.log ∧
      (t.step timeout a w).2.quit = w.quit ∧ (t.step timeout a w).2.spawned = w.spawned := by
  cases h with
  | conn0 h => exact ⟨.conn1 h, rfl, rfl, rfl, rfl, rfl⟩
  | conn1 h => exact ⟨.conn2 h, rfl, rfl, rfl, rfl, rfl⟩
  | conn2 h => exact ⟨.ended (Nat.le_refl 3) (by simp [h, exec]), rfl, rfl, rfl, rfl, rfl⟩
  | packet0 h ho => exact ⟨.packet1 h ho, rfl, rfl, rfl, rfl, rfl⟩
  | packet1 h ho =>
    have he : exec C timeout a .flush (c, w) = ((), (c, { w with now := w.now + a.tick })) := by
      simp only [exec]
      rw [if_pos (.inl ho)]
      rfl
    have hs : (Thread.step timeout a ⟨c, packetDeferred, .ret false, .ret false⟩ w) =
        (⟨c, .ret false, .ret false, .ret false⟩, { w with now := w.now + a.tick }) := by
      simp only [Thread.step, packetDeferred, enabled, if_true, he]
    rw [hs]
    exact ⟨.packet2 h, rfl, rfl, rfl, rfl, rfl⟩
  | ended hn hc => exact ⟨.ended (by omega) hc, rfl, rfl, rfl, rfl, rfl⟩
  | packet2 h => exact ⟨.ended (Nat.le_refl 3) (by simp [h]), rfl, rfl, rfl, rfl, rfl⟩

theorem Dying.run {M : Manager C} {c : Conn} (timeout i : Nat) (acts : List (Nat × Answer C)) (s : Sys C) (n : Nat)
    (t : Thread C) (ht : s.threads[i]? = some t) (h : Dying c n t) :
    ∃ t', (s.run M timeout acts).threads[i]? = some t' ∧
      Dying c (n + (acts.filter fun act => act.1 = i).length) t' := by
  induction acts generalizing s n t with
  | nil => exact ⟨t, ht, h⟩
  | cons act acts ih =>
    have hlt : i < s.threads.length := (List.getElem?_eq_some_iff.mp ht).1
    by_cases hi : act.1 = i
    · obtain ⟨h1, -⟩ := h.step timeout act.2 s.world
      obtain ⟨t', h2, h3⟩ := ih (s.step M timeout act) (n + 1) (t.step timeout act.2 s.world).1 (by
        simp only [Sys.step, hi, ht]
        rw [List.getElem?_append_left (by simpa using hlt), List.getElem?_set_self hlt]) h1
      refine ⟨t', h2, ?_⟩
      rw [List.filter_cons, if_pos (by simpa using hi), List.length_cons]
      rw [show n + ((acts.filter fun act => act.1 = i).length + 1) =
        n + 1 + (acts.filter fun act => act.1 = i).length by omega]
      exact h3
    · obtain ⟨t', h2, h3⟩ := ih (s.step M timeout act) n t (by
        simp only [Sys.step]
        split
        · exact ht
        · rw [List.getElem?_append_left (by simpa using hlt), List.getElem?_set_ne hi]
          exact ht) h
      refine ⟨t', h2, ?_⟩
      rw [List.filter_cons, if_neg (by simpa using hi)]
      exact h3

/-- What the connection looks like in the end. -/
theorem Dying.conn {c : Conn} {n : Nat} {t : Thread C} (h : Dying c n t) :
    t.conn.writes = c.writes ∧ t.conn.output = c.output ∧ t.conn.sent = c.sent ∧
      (c.buffered = false → 2 ≤ n → t.conn.closed = true) ∧ (3 ≤ n → t.prog = .ret false ∧ t.loop = .ret false) := by
  cases h with
  | ended hn hc =>
    subst hc
    cases hb : c.buffered <;> simp
  | conn0 h => exact ⟨rfl, rfl, rfl, fun _ h => absurd h (by decide), fun h => absurd h (by decide)⟩
  | conn1 h => exact ⟨rfl, rfl, rfl, fun _ h => absurd h (by decide), fun h => absurd h (by decide)⟩
  | conn2 h => exact ⟨rfl, rfl, rfl, fun _ _ => rfl, fun h => absurd h (by decide)⟩
  | packet0 h => exact ⟨rfl, rfl, rfl, fun h' => (by rw [h] at h'; cases h'), fun h => absurd h (by decide)⟩
  | packet1 h => exact ⟨rfl, rfl, rfl, fun h' => (by rw [h] at h'; cases h'), fun h => absurd h (by decide)⟩
  | packet2 h => exact ⟨rfl, rfl, rfl, fun h' => (by rw [h] at h'; cases h'), fun h => absurd h (by decide)⟩

/-- A step that logs a call that panicked. -/
theorem panic_step {M : Manager C} {timeout : Nat} {s : Sys C} {i : Nat} {a : Answer C} {r : Ref} {cnt : BitVec 64}
    {host id msg : Bytes} {m : String} (hk : ∀ t ∈ s.threads, Kind t)
    (hlog : (s.step M timeout (i, a)).world.log = s.world.log ++ [.invoked r cnt host id msg (.panic m)]) :
    ∃ t t', s.threads[i]? = some t ∧ (s.step M timeout (i, a)).threads[i]? = some t' ∧
      Dying t.conn 0 t' ∧ (t.conn.buffered = true → t.conn.writes = [] ∧ t.conn.sent = []) := by
  unfold Sys.step at hlog ⊢
  cases ht : s.threads[i]? with
  | none =>
    exfalso
    simp only [ht] at hlog
    have := congrArg List.length hlog
    simp at this
  | some t =>
    simp only [ht] at hlog ⊢
    have hlt : i < s.threads.length := (List.getElem?_eq_some_iff.mp ht).1
    refine ⟨t, _, rfl, by rw [List.getElem?_append_left (by simpa using hlt), List.getElem?_set_self hlt], ?_⟩
    have hkind := hk t (List.mem_of_getElem? ht)
    have hsame : ∀ w : World, w.log = s.world.log →
        w.log = s.world.log ++ [.invoked r cnt host id msg (.panic m)] → False := by
      intro w h1 h2
      rw [h1] at h2
      have := congrArg List.length h2
      simp at this
    obtain ⟨conn, prog, loop, deferred⟩ := t
    cases prog with
    | ret b => cases b <;> exact (hsame s.world rfl hlog).elim
    | panic m' => exact (hsame s.world rfl hlog).elim
    | op o k =>
      simp only [Thread.step] at hlog ⊢
      by_cases hen : enabled s.world o
      · rw [if_pos hen] at hlog ⊢
        dsimp only at hlog ⊢
        obtain ⟨l, hl, hinv, hnot⟩ := exec_log timeout a o conn s.world
        rw [hl] at hlog
        have hl' := List.append_cancel_left hlog
        have ho : ¬ o.notInvoke := fun h => hnot h r cnt host id msg (.panic m) (by rw [hl']; exact List.mem_singleton_self _)
        cases o with
        | invoke r' cnt' host' id' msg' =>
          have hl'' := hinv _ _ _ _ _ rfl
          rw [hl'] at hl''
          have hh : a.handle = .panic m := by
            have := (List.cons.inj hl'').1
            injection this with _ _ _ _ _ h6
            exact h6.symm
          have hx : exec C timeout a (.invoke r' cnt' host' id' msg') (conn, s.world) = (HRes.panic m, (conn,
              { s.world with log := s.world.log ++ [.invoked r' cnt' host' id' msg' (.panic m)] })) := by
            simp only [exec, hh]
            rfl
          rw [hx]
          dsimp only
          cases hkind with
          | conn h1 h2 h3 h4 =>
            have hp : k (HRes.panic m) = .panic m := h3.1 m
            rw [hp]
            dsimp only at h1 h2
            subst h2
            exact ⟨.conn0 h1, fun h => by rw [h1] at h; cases h⟩
          | packet h1 h2 h3 h4 h5 h6 h7 =>
            have hp : k (HRes.panic m) = .panic m := h4.1 m
            have hw := h5.2 (HRes.panic m)
            rw [hp] at hw ⊢
            have hw : conn.writes = [] := hw
            dsimp only at h1 h2
            subst h2
            exact ⟨.packet0 h1 (h6 hw), fun _ => ⟨hw, h7⟩⟩
          | other h1 h2 h3 => exact h1.1.elim
        | _ => exact absurd trivial ho
      · rw [if_neg hen] at hlog
        exact (hsame s.world rfl hlog).elim

/-! ## One request alone -/

/-- Nothing was written for the request. -/
theorem panic_pass {M : Manager C} (hM : M.Passive) (timeout : Nat) (ans : Nat → Answer C) (host : Except Err Bytes)
    (s s' : Seq) (m : String) (h : (connPass M host).run (seqI C timeout ans) s = (.panic m, s')) :
    s'.conn.writes = s.conn.writes ∧ s'.conn.output = s.conn.output := by
  have hsafe : SafeE (writesA C) (connPass M host) [] (fun _ _ => True) NothingWritten := by
    refine ⟨trivial, fun (closed : Bool) => ?_⟩
    cases closed with
    | true => trivial
    | false => exact ⟨trivial, fun _ => (outcome_serveRequest hM host).mono (fun _ _ _ => trivial) fun _ _ h => h⟩
  obtain ⟨ws, ⟨h1, h2⟩, h3⟩ := hsafe.run (seqI C timeout ans)
    (fun g s' => s'.conn.writes = s.conn.writes ++ g ∧ s'.conn.output = s.conn.output ++ accepted g)
    (writes_follow timeout ans s.conn.writes s.conn.output) s ⟨by simp, by simp [accepted]⟩
  rw [h] at h1 h2 h3
  have h3 : ws = [] := h3
  subst h3
  exact ⟨by simpa using h1, by simpa [accepted] using h2⟩

/-! ## Conversations over UDP -/

/-- What is buffered for an outcome. -/
def bufferedFor (C : Crypto) (key : Bytes) (counter : BitVec 64) : HRes → Bytes
  | .panic _ => []
  | res => responseTo C key counter res

/-- What is sent for an outcome. -/
def datagramFor (C : Crypto) (key : Bytes) (counter : BitVec 64) : HRes → List Bytes
  | .panic _ => []
  | res => [responseTo C key counter res]

/-- A fresh, authentic process message for which the handler panics. -/
theorem serve_panic (hC : C.Lawful) (timeout : Nat) (ans : Nat → Answer C) (host : Bytes)
    (s : Seq) (id : ID) (counter : BitVec 64) (ciphertext : Bytes) (hl : ciphertext.length ≤ 2 ^ 30)
    (expectReply : Bool)
    (h : flatten s.conn.input = (Wire.processRequest expectReply id.val counter.toNat ciphertext).map Sum.inl)
    (r : Ref) (t : Nat) (secret key message : Bytes) (m : String) (window : ReplayWindow) (acc : List Nat)
    (ht : s.world.table (sessionKey C host id) = some (r, t))
    (hh : s.world.heap[r]? = some (secret, window)) (hwin : Represents window acc)
    (hfresh : Fresh acc counter.toNat)
    (hk : deriveKey C secret kdfInfo aesKeySize = .ok key)
    (hopen : C.aeadOpen key (Wire.nonce12 0 counter.toNat) ciphertext = some message)
    (hres : (ans (s.pos + 5)).handle = .panic m) :
    ∃ evs, (serveRequest (inMemory C) (.ok host)).run (seqI C timeout ans) s =
      (.panic m, {
        conn := { s.conn with input := evs },
        world := (s.world.acceptedBy (sessionKey C host id) r (s.world.now + (ans (s.pos + 1)).tick) secret window
          counter).logged [.invoked r counter host id.val message (.panic m)],
        pos := s.pos + 6 }) := by
  obtain ⟨evs, -, h1⟩ := run_serveRequest hC timeout ans (inMemory C) (.ok host)
    (.process expectReply id counter ciphertext) hl s [] (by rw [List.append_nil]; exact h)
  have hc : (window.checkAndUpdate counter).1 = true :=
    (checkAndUpdate_spec window acc hwin counter).1.mpr hfresh
  obtain ⟨now, hnow, h2⟩ := run_process_known hC timeout ans host
    (parsedProcess expectReply id counter ciphertext)
    { s with conn := { s.conn with input := evs } } r t secret key window ht hh hc hk
  rw [show (parsedProcess expectReply id counter ciphertext).message = ciphertext from rfl,
    show (parsedProcess expectReply id counter ciphertext).counter = counter from rfl, hopen] at h2
  refine ⟨evs, ?_⟩
  subst hnow
  rw [h1, Prog.run_bind]
  dsimp only [afterParse]
  rw [h2]
  dsimp only
  rw [show (parsedProcess expectReply id counter ciphertext).id = id from rfl]
  simp only [runHandler, Prog.run, seqI, exec, hres]
  rfl

/-- A datagram with a fresh message is served, whatever the handler does. -/
theorem packet_called (hC : C.Lawful) {timeout : Nat} {ans : Nat → Answer C} {host : Bytes} {r : Ref}
    {session : ClientSession} {v : BitVec 64} {s : Seq} {key : Bytes} (message : Bytes)
    (hl : ServesUDP C timeout host r session v s)
    (hk : deriveKey C session.secret kdfInfo aesKeySize = .ok key) (hm : message.length + 16 ≤ 2 ^ 30)
    (hans : ∀ p, (ans p).write = (0, none))
    (htime : 0 < timeout → ∀ i j, (ans i).tick + (ans j).tick ≤ timeout)
    (hv : v.toNat + 1 < 2 ^ 64) (request : Bytes)
    (hreq : request = Wire.processRequest true session.id.val (v + 1).toNat
        (C.aeadSeal key (Wire.nonce12 0 (v + 1).toNat) message)) :
    ∃ p res s', (ans p).handle = res ∧
      ((packetBody (inMemory C) (.ok host)).run (seqI C timeout ans)
        { s with conn := .ofPeer (.udp (.ok host) request) }).2 = s' ∧
      s'.conn.output = bufferedFor C key (v + 1) res ∧
      s'.conn.sent = [] ∧ expired s'.world.packetBy (s'.world.now + (ans s'.pos).tick) = false ∧
      ServesUDP C timeout host r session (v + 1) s' ∧
      handledFor r s'.world.log = handledFor r s.world.log ++ [(message, res)] := by
  have hvn : (v + 1).toNat = v.toNat + 1 := by
    rw [BitVec.toNat_add]; exact Nat.mod_eq_of_lt (by simpa using hv)
  obtain ⟨t, ht⟩ := hl.stored
  obtain ⟨window, acc, hh, hwin, hmax⟩ := hl.window
  have hfresh : Fresh acc (v + 1).toNat := by
    rw [hvn]
    refine ⟨by omega, ?_, by omega⟩
    intro hmem
    have := le_largest hmem
    omega
  have hsl : (C.aeadSeal key (Wire.nonce12 0 (v + 1).toNat) message).length ≤ 2 ^ 30 := by
    rw [hC.seal_length]; exact hm
  have hspec := (checkAndUpdate_spec window acc hwin (v + 1))
  have hwin' := hspec.2.1 (hspec.1.mpr hfresh)
  have hlt : r < s.world.heap.length := (List.getElem?_eq_some_iff.mp hh).1
  have hdl : ∀ d, (Seq.packetReady timeout ans (.ok host) request s).conn.deadline = some d →
      ∀ p, (Seq.packetReady timeout ans (.ok host) request s).world.now +
        (ans (s.pos + 1 + 1)).tick + (ans p).tick ≤ d := by
    intro d hd p
    simp only [Seq.packetReady] at hd ⊢
    by_cases h0 : 0 < timeout
    · rw [if_pos h0] at hd
      cases hd
      have := htime h0 (s.pos + 1 + 1) p
      omega
    · rw [if_neg h0] at hd
      cases hd
  have hin : flatten (Seq.packetReady timeout ans (.ok host) request s).conn.input =
      (Wire.processRequest true session.id.val (v + 1).toNat
        (C.aeadSeal key (Wire.nonce12 0 (v + 1).toNat) message)).map Sum.inl := by
    rw [← hreq]; simp [Seq.packetReady, Conn.ofPeer, flatten]
  have hby : ∀ now', now' = (Seq.packetReady timeout ans (.ok host) request s).world.now +
        (ans (s.pos + 1 + 1)).tick → ∀ p,
      expired (Seq.packetReady timeout ans (.ok host) request s).world.packetBy (now' + (ans p).tick) = false := by
    rintro now' rfl p
    simp only [Seq.packetReady, expired]
    by_cases h0 : 0 < timeout
    · rw [if_pos h0]
      have := htime h0 (s.pos + 1 + 1) p
      exact decide_eq_false (by omega)
    · rw [if_neg h0, hl.noPacketDeadline (by omega)]
  have hpd : timeout = 0 → (Seq.packetReady timeout ans (.ok host) request s).world.packetBy = none := by
    intro h0
    refine Eq.trans (if_neg ?_) (hl.noPacketDeadline h0)
    omega
  by_cases hp : ∃ m, (ans (s.pos + 1 + 5)).handle = .panic m
  · obtain ⟨m, hres⟩ := hp
    obtain ⟨evs, hserve⟩ := serve_panic hC timeout ans host (Seq.packetReady timeout ans (.ok host) request s)
      session.id (v + 1) _ hsl true hin r t session.secret key message m
      window acc ht hh hwin hfresh hk (hC.open_seal _ _ _) hres
    rw [run_packetBody, hserve]
    refine ⟨_, .panic m, _, hres, rfl, rfl, rfl, hby _ rfl _, ⟨?_, ?_, hpd⟩, ?_⟩
    · exact ⟨_, if_pos rfl⟩
    · exact ⟨_, _, List.getElem?_set_self hlt, hwin', by simp only [largest]; omega⟩
    · show handledFor r (s.world.log ++ [.accepted r (v + 1)] ++ _) = _
      simp [handledFor]
  · generalize hres : (ans (s.pos + 1 + 5)).handle = res at hp
    have hreturns : ∀ m, res ≠ .panic m := fun m h => hp ⟨m, h⟩
    obtain ⟨evs, now, now', pos', hnow, hserve⟩ := serve_handled hC timeout ans host
      (Seq.packetReady timeout ans (.ok host) request s)
      session.id (v + 1) _ hsl hin r t session.secret key message res
      window acc ht hh hwin hfresh hk (hC.open_seal _ _ _) hres hreturns hans hdl
    rw [run_packetBody, hserve]
    refine ⟨_, res, _, hres, rfl, ?_, rfl, hby _ (hnow rfl) _, ⟨?_, ?_, hpd⟩, ?_⟩
    · refine (List.nil_append _).trans ?_
      cases res with
      | panic m => exact absurd rfl (hreturns m)
      | _ => rfl
    · exact ⟨_, if_pos rfl⟩
    · exact ⟨_, _, List.getElem?_set_self hlt, hwin', by simp only [largest]; omega⟩
    · show handledFor r (s.world.log ++ [.accepted r (v + 1)] ++ _) = _
      cases res <;> simp [handledFor, replyEvents]

/-- The datagrams sent. -/
theorem datagramsFor_called (hC : C.Lawful) {timeout : Nat} {ans : Nat → Answer C} {host : Bytes} {r : Ref}
    {session : ClientSession} {v : BitVec 64} {s : Seq} {key : Bytes} (message : Bytes)
    (hl : ServesUDP C timeout host r session v s)
    (hk : deriveKey C session.secret kdfInfo aesKeySize = .ok key) (hm : message.length + 16 ≤ 2 ^ 30)
    (hans : ∀ p, (ans p).write = (0, none))
    (htime : 0 < timeout → ∀ i j, (ans i).tick + (ans j).tick ≤ timeout)
    (hv : v.toNat + 1 < 2 ^ 64) :
    ∃ p res s', (ans p).handle = res ∧
      datagramsFor timeout ans host (Wire.processRequest true session.id.val (v + 1).toNat
        (C.aeadSeal key (Wire.nonce12 0 (v + 1).toNat) message)) s =
      (datagramFor C key (v + 1) res, s') ∧
      ServesUDP C timeout host r session (v + 1) s' ∧
      handledFor r s'.world.log = handledFor r s.world.log ++ [(message, res)] := by
  obtain ⟨p, res, s', h1, h2, h3, h4, h5, h6, h7⟩ := packet_called hC message hl hk hm hans htime hv _ rfl
  rw [datagramsFor, h2]
  simp only [Prog.run, packetDeferred]
  rw [seqI_other _ _ _ id]
  simp only [exec, hans]
  by_cases hp : ∃ m, res = .panic m
  · obtain ⟨m, rfl⟩ := hp
    rw [if_pos (.inl h3)]
    exact ⟨p, _, _, h1, Prod.ext h4 rfl, ⟨h6.stored, h6.window, h6.noPacketDeadline⟩, h7⟩
  · have hb : bufferedFor C key (v + 1) res = responseTo C key (v + 1) res := by
      cases res with
      | panic m => exact absurd ⟨m, rfl⟩ hp
      | _ => rfl
    rw [if_neg (by
      rintro (h | h | h)
      · rw [h3, hb] at h; exact responseTo_ne_nil _ _ _ h
      · exact Bool.false_ne_true (h5.symm.trans h)
      · cases h)]
    simp only [h4, List.nil_append, h3, hb]
    refine ⟨p, res, _, h1, Prod.ext ?_ rfl, ⟨h6.stored, h6.window, h6.noPacketDeadline⟩, h7⟩
    cases res with
    | panic m => exact absurd ⟨m, rfl⟩ hp
    | _ => rfl

/-- The client's half. -/
structure PatientHolder (session : ClientSession) (v : BitVec 64) (e : Ends) : Prop where
  has : e.client.session = some session
  buffer : e.client.buffer = []
  expectReply : e.client.expectReply = true
  counter : e.shared.counters[session.sendCounter]? = some v

/-- One message. -/
theorem patientExchange_called (hC : C.Lawful) {env : CEnv C} {timeout : Nat}
    {ans : Nat → Answer C} {host : Bytes} {r : Ref} {session : ClientSession} {v : BitVec 64} {e : Ends}
    (round : Bytes × List Nat) (hq : PatientHolder session v e) (hl : ServesUDP C timeout host r session v e.server)
    (hwd : env.writeDeadline = none) (hrd : env.readDeadline = none) (hwr : env.write = (0, none))
    (hm : round.1.length + 16 ≤ 2 ^ 30) (hsizes : ∃ n ns, round.2 = n :: ns ∧ 0 < n)
    (hans : ∀ p, (ans p).write = (0, none) ∧ Bearable round.2 (ans p).handle)
    (htime : 0 < timeout → ∀ i j, (ans i).tick + (ans j).tick ≤ timeout)
    (hv : v.toNat + 1 < 2 ^ 64) :
    ∃ res got e', patientExchange env timeout ans host round e = some (got, e') ∧ SeenAfter res got ∧
      (∃ p, (ans p).handle = res) ∧
      PatientHolder session (v + 1) e' ∧ ServesUDP C timeout host r session (v + 1) e'.server ∧
      handledFor r e'.server.world.log = handledFor r e.server.world.log ++ [(round.1, res)] := by
  obtain ⟨key, hk, -⟩ := newGCM_ok hC session.secret
  have hvn : (v + 1).toNat = v.toNat + 1 := by
    rw [BitVec.toNat_add]; exact Nat.mod_eq_of_lt (by simpa using hv)
  have hv0 : v + 1 ≠ 0 := by
    intro h
    rw [h] at hvn
    simp at hvn
  have hc : v + 1 = e.shared.counters.getD session.sendCounter 0 + 1 := by
    rw [List.getD_eq_getElem?_getD, hq.counter]; rfl
  have hcl : session.sendCounter < e.shared.counters.length :=
    (List.getElem?_eq_some_iff.mp hq.counter).1
  have hreq : writeRequest C e.client session key (v + 1) round.1 =
      Wire.processRequest true session.id.val (v + 1).toNat
        (C.aeadSeal key (Wire.nonce12 0 (v + 1).toNat) round.1) := by
    rw [writeRequest, hq.expectReply]
  have hwrite := write_run (s := e.conn) (w := e.shared) (p := round.1) hC hwd hq.has hk (v + 1)
    hc hv0 (by omega)
  rw [hreq, hwr] at hwrite
  dsimp only at hwrite
  obtain ⟨p, res, server, hp, hserve, hl', hlog⟩ := datagramsFor_called hC round.1 hl hk hm
    (fun p => (hans p).1) htime hv
  have hbear := (hans p).2
  rw [hp] at hbear
  obtain ⟨n, ns, hs, hn⟩ := hsizes
  unfold patientExchange
  rw [runClient, hwrite]
  dsimp only
  rw [List.getLast?_concat]
  dsimp only
  rw [Nat.sub_zero, List.take_length, hserve]
  have hheld : ∀ (conn : CConn) (server' : Seq), PatientHolder session (v + 1) (Ends.mk
      { e.client with lastSentCounter := v + 1 } conn
      (CShared.mk (e.shared.counters.set session.sendCounter (v + 1))
        (e.shared.sealed ++ [(key, Wire.nonce12 0 (v + 1).toNat, round.1)])) server') :=
    fun conn server' => ⟨hq.has, hq.buffer, hq.expectReply, List.getElem?_set_self hcl⟩
  by_cases hpan : ∃ m, res = .panic m
  · obtain ⟨m, rfl⟩ := hpan
    have hsilence : ∀ (conn : CConn) (shared : CShared), ∃ err, err.Is .timeout ∧
        readAll env { e.client with lastSentCounter := v + 1 }
          ({ conn with net := .udp false [] [.error .timeout] }, shared) (n :: ns) =
          some (([], some err), { e.client with lastSentCounter := v + 1 },
            ({ conn with net := .udp false [] [] }, shared)) :=
      fun conn shared => readAll_silence (n := n) hrd hq.buffer rfl
    dsimp only [datagramFor]
    rw [hs]
    obtain ⟨err, herr, hread⟩ := hsilence { e.conn with writes := e.conn.writes ++ [(_, _, none)] } _
    rw [hread]
    exact ⟨.panic m, _, _, rfl, ⟨rfl, err, rfl, herr⟩, ⟨p, hp⟩, hheld _ _, hl', hlog⟩
  · have hsent : datagramFor C key (v + 1) res = [responseTo C key (v + 1) res] := by
      cases res with
      | panic m => exact absurd ⟨m, rfl⟩ hpan
      | _ => rfl
    have hansw : Answerable round.2 res := by
      cases res with
      | panic m => exact absurd ⟨m, rfl⟩ hpan
      | _ => exact hbear
    rw [hsent]
    dsimp only
    obtain ⟨s', hread⟩ := readAll_seen (env := env) (c := { e.client with lastSentCounter := v + 1 })
      (s := { e.conn with net := .udp false [] [.ok (responseTo C key (v + 1) res)], writes := e.conn.writes ++ [(_, _, none)] })
      (w := CShared.mk (e.shared.counters.set session.sendCounter (v + 1))
        (e.shared.sealed ++ [(key, Wire.nonce12 0 (v + 1).toNat, round.1)]))
      hC hrd hq.buffer hq.has hk res hansw
      (by rw [hs]; rintro _ ⟨⟩; exact hn) (by rw [hs]; exact List.cons_ne_nil _ _)
      (by simp [Transport.stream, Transport.stream.received])
    rw [hread]
    refine ⟨res, _, _, rfl, ?_, ⟨p, hp⟩, hheld _ _, hl', hlog⟩
    cases res with
    | panic m => exact absurd ⟨m, rfl⟩ hpan
    | _ => rfl

/-- Any number of messages. -/
theorem patientConverse_called (hC : C.Lawful) {env : CEnv C} {timeout : Nat}
    {ans : Nat → Answer C} {host : Bytes} {r : Ref} {session : ClientSession}
    (hwd : env.writeDeadline = none) (hrd : env.readDeadline = none) (hwr : env.write = (0, none))
    (htime : 0 < timeout → ∀ i j, (ans i).tick + (ans j).tick ≤ timeout)
    (rounds : List (Bytes × List Nat)) (v : BitVec 64) (e : Ends) (hq : PatientHolder session v e)
    (hl : ServesUDP C timeout host r session v e.server)
    (hm : ∀ round ∈ rounds, round.1.length + 16 ≤ 2 ^ 30 ∧ ∃ n ns, round.2 = n :: ns ∧ 0 < n)
    (hans : ∀ round ∈ rounds, ∀ p, (ans p).write = (0, none) ∧ Bearable round.2 (ans p).handle)
    (hv : v.toNat + rounds.length < 2 ^ 64) :
    ∃ (outcomes : List HRes) (seen : List (Bytes × Option Err)) (e' : Ends),
      patientConverse env timeout ans host rounds e = some (seen, e') ∧ SeenAll outcomes seen ∧
      outcomes.length = rounds.length ∧ (∀ res ∈ outcomes, ∃ p, (ans p).handle = res) ∧
      handledFor r e'.server.world.log = handledFor r e.server.world.log ++ (rounds.map (·.1)).zip outcomes := by
  induction rounds generalizing v e with
  | nil => exact ⟨[], [], e, rfl, .nil, rfl, by simp, by simp⟩
  | cons round rounds ih =>
    simp only [List.length_cons] at hv
    obtain ⟨res, got, e₁, h1, h2, h3, h4, h5, h6⟩ := patientExchange_called hC round hq hl hwd hrd hwr
      (hm round List.mem_cons_self).1 (hm round List.mem_cons_self).2 (hans round List.mem_cons_self) htime (by omega)
    obtain ⟨outcomes, seen, e', h7, h8, h9, h10, h11⟩ := ih (v + 1) e₁ h4 h5
      (fun q hq => hm q (List.mem_cons_of_mem _ hq)) (fun q hq => hans q (List.mem_cons_of_mem _ hq))
      (by rw [BitVec.toNat_add, show (1 : BitVec 64).toNat = 1 from rfl]; omega)
    refine ⟨res :: outcomes, got :: seen, e', ?_, .cons h2 h8, by simp [h9], ?_, ?_⟩
    · rw [patientConverse, h1]
      dsimp only
      rw [h7]
      rfl
    · rintro res' (_ | ⟨_, h⟩)
      · exact h3
      · exact h10 _ h
    · rw [h11, h6]; simp

end

end Goe2ee
