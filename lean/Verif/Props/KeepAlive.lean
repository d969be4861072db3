import Verif.Props.Silent
import Verif.Proofs.Persist

/-!
# C181: a client that sends something now and then keeps its session

Requests are served and the collector visits entries one after the other, each as a whole; time passes between and within
them.  Load and the collector are in secret/secret.go:171-180 and 147-153.
-/

set_option autoImplicit false

namespace Goe2ee

section
variable {C : Crypto}

/-- Something happens at the server: a request is served, or the collector visits an entry of the table. -/
inductive SrvEvent (C : Crypto) where
  | request (x : Arrival C)
  | visit (key : Bytes) (v : Nat)

/-- The server afterwards. -/
def SrvEvent.after (ttl : Nat) (w : World) : SrvEvent C → World
  | .request x => x.serve w
  | .visit key v => (callAt C ttl w (.visit key, v)).2

/-- The server after several events. -/
def afterEvents (ttl : Nat) (w : World) (es : List (SrvEvent C)) : World := es.foldl (SrvEvent.after ttl) w

/-- The request is a message of the client with this id at this address; not necessarily one that decrypts. -/
def Arrival.IsMessage (x : Arrival C) (host : Bytes) (id : ID) : Prop :=
  x.host = host ∧ ∃ (expectReply : Bool) (counter : BitVec 64) (ciphertext : Bytes) (rest : List (Byte ⊕ Err)),
    ciphertext.length ≤ 2 ^ 30 ∧
    Delivers x.conn.input (Wire.processRequest expectReply id.val counter.toNat ciphertext) rest

/-- Time does not go back: the collector comes after what happened before. -/
def Forward (ttl : Nat) (w : World) (es : List (SrvEvent C)) : Prop :=
  ∀ pre k v post, es = pre ++ .visit k v :: post → (afterEvents ttl w pre).now ≤ v

/-- Whenever the collector comes to the client's entry, the session was last used (at time `t`), or a message of the
client arrived, at most the TTL ago. -/
def KeptAlive (ttl : Nat) (w : World) (es : List (SrvEvent C)) (host : Bytes) (id : ID) (t : Nat) : Prop :=
  ∀ pre v post, es = pre ++ .visit (sessionKey C host id) v :: post →
    v ≤ t + ttl ∨ ∃ a x b, pre = a ++ .request x :: b ∧ x.IsMessage host id ∧ v ≤ (afterEvents ttl w a).now + ttl

/-- Nobody sets up another session under this name (same address and id, or a collision of SHA-256). -/
def NoSetup (es : List (SrvEvent C)) (host : Bytes) (id : ID) : Prop :=
  ∀ x, .request x ∈ es → ∀ id' : ID, BeginsSetup x.conn.input id'.val →
    C.sha256 (x.host ++ id'.val) ≠ C.sha256 (host ++ id.val)

/-! ## Time -/

theorem seqI_later (timeout : Nat) (ans : Nat → Answer C) (o : SOp) (s : Seq) :
    s.world.now ≤ (seqI C timeout ans o s).2.world.now := by
  cases o with
  | write bs =>
    simp only [seqI, exec, execWrite]
    repeat' split
    all_goals first | exact Nat.le_refl _ | exact Nat.le_add_right _ _
  | _ =>
    simp only [seqI, exec]
    repeat' split
    all_goals first | exact Nat.le_refl _ | exact Nat.le_add_right _ _

theorem run_later {α : Type} (timeout : Nat) (ans : Nat → Answer C) (p : SProg C α) (s : Seq) :
    s.world.now ≤ (p.run (seqI C timeout ans) s).2.world.now := by
  induction p generalizing s with
  | ret a => exact Nat.le_refl _
  | panic m => exact Nat.le_refl _
  | op o k ih => exact Nat.le_trans (seqI_later timeout ans o s) (ih _ _)

/-! ## Using a session -/

/-- A process request for a session that is there renews it, whatever else comes of the request. -/
theorem run_process_renews {host : Bytes} {request : ProcessRequest} {s : Seq} {r : Ref} {t : Nat}
    (timeout : Nat) (ans : Nat → Answer C) (ht : s.world.table (sessionKey C host request.id) = some (r, t)) :
    ∃ t', ((processParsed (inMemory C) (.ok host) request).run (seqI C timeout ans) s).2.world.table
        (sessionKey C host request.id) = some (r, t') ∧ s.world.now ≤ t' ∧
      t' ≤ ((processParsed (inMemory C) (.ok host) request).run (seqI C timeout ans) s).2.world.now := by
  have hload : ∃ s1 : Seq, ((inMemory C).load (sessionKey C host request.id)).run (seqI C timeout ans) s =
      (.val (some r), s1) ∧ s1.world.now = s.world.now + (ans (s.pos + 1)).tick ∧
      s1.world.table (sessionKey C host request.id) = some (r, s.world.now + (ans (s.pos + 1)).tick) := by
    refine ⟨(((inMemory C).load (sessionKey C host request.id)).run (seqI C timeout ans) s).2, ?_, ?_, ?_⟩
    all_goals simp [inMemory, inMemoryLoad, Prog.run, seqI, exec, ht]
  obtain ⟨s1, h1, h2, h3⟩ := hload
  unfold processParsed
  rw [Prog.run_bind, h1]
  dsimp only
  refine ⟨s.world.now + (ans (s.pos + 1)).tick, ?_, Nat.le_add_right _ _, ?_⟩
  · refine (run_spares (k := sessionKey C host request.id) ?_ timeout ans s1).trans h3
    refine ⟨trivial, fun fresh => ?_⟩
    cases fresh with
    | false => exact spares_failWith _ _ _
    | true =>
      refine ⟨trivial, fun (secret : Bytes) => ?_⟩
      dsimp only
      split
      · exact spares_failWith _ _ _
      split
      · exact spares_failWith _ _ _
      split
      · exact spares_failWith _ _ _
      rw [show gcmNonceSize = 12 from rfl, C12_nonce_layout]
      dsimp only [ofRes, Prog.ret_bind]
      split
      · exact spares_failWith _ _ _
      unfold runHandler
      refine ⟨trivial, fun (handled : HRes) => ?_⟩
      rcases handled with written | e | m
      rotate_left
      · exact spares_failWith _ _ _
      · trivial
      dsimp only
      split
      · rw [show gcmNonceSize = 12 from rfl, C12_nonce_layout]
        exact ⟨trivial, fun _ => spares_respondWith _ _⟩
      · trivial
  · rw [← h2]
    exact run_later timeout ans _ s1

/-- Serving any request, except a setup request for this entry, leaves the session in its entry. -/
theorem serveOne_keeps (timeout : Nat) (ans : Nat → Answer C) (host k : Bytes) (s : Seq) (r : Ref) (t : Nat)
    (ht : s.world.table k = some (r, t)) (hle : t ≤ s.world.now)
    (hs : ∀ id : ID, BeginsSetup s.conn.input id.val → sessionKey C host id ≠ k) :
    ∃ t', (serveOne timeout ans host s).world.table k = some (r, t') ∧ t ≤ t' ∧
      t' ≤ (serveOne timeout ans host s).world.now := by
  by_cases hm : ∀ id : ID, BeginsMessage s.conn.input id.val → sessionKey C host id ≠ k
  · exact ⟨t, (serveOne_table timeout ans host k s hs (.inr hm)).trans ht, Nat.le_refl _,
      Nat.le_trans hle (run_later timeout ans _ s)⟩
  rw [serveOne, serveRequest_eq, Prog.run_bind, run_onConn]
  have unchanged : ∃ t', s.world.table k = some (r, t') ∧ t ≤ t' ∧ t' ≤ s.world.now :=
    ⟨t, ht, Nat.le_refl _, hle⟩
  have spared : ∀ {α : Type} {p : SProg C α} (s' : Seq), Uses (S := SSig C) (SOp.spares k) p → s'.world = s.world →
      ∃ t', (p.run (seqI C timeout ans) s').2.world.table k = some (r, t') ∧ t ≤ t' ∧
        t' ≤ (p.run (seqI C timeout ans) s').2.world.now := by
    intro α p s' hp hw
    refine ⟨t, ?_, Nat.le_refl _, Nat.le_trans hle ?_⟩
    · rw [run_spares hp, hw, ht]
    · rw [← hw]; exact run_later timeout ans p s'
  rcases hr : runEv parseRequestCommon s.conn.input with ⟨res, evs⟩
  rcases res with res | m
  swap
  · exact unchanged
  rcases res with e | common
  · exact unchanged
  have hcommon := parseRequestCommon_inv (runEv_inv hr)
  dsimp only
  split
  · exact unchanged
  rename_i hv
  have hv : common.version = version1 := by simpa using hv
  rw [Prog.run_bind]
  have key : ∃ t', ((handle (inMemory C) (.ok host) common).run (seqI C timeout ans)
      { s with conn := { s.conn with input := evs } }).2.world.table k = some (r, t') ∧ t ≤ t' ∧
      t' ≤ ((handle (inMemory C) (.ok host) common).run (seqI C timeout ans)
      { s with conn := { s.conn with input := evs } }).2.world.now := by
    unfold handle
    split
    · exact spared _ (spares_respondWith _ _) rfl
    split
    · rename_i ha
      rw [setupHandler_eq, Prog.run_bind, run_onConn]
      rcases hr2 : runEv (parseSetupRequest C common) evs with ⟨res, evs2⟩
      dsimp only
      rcases res with (e | request) | m
      · exact spared _ (spares_failWith _ _ _) rfl
      · obtain ⟨pk, -, -, -, hpk⟩ := parseSetupRequest_inv (runEv_inv hr2)
        refine spared _ (spares_setupParsed (hs request.id ⟨(beEnc 4 pk.length ++ pk).map Sum.inl ++ flatten evs2, ?_⟩))
          rfl
        rw [Delivers, hcommon, hpk, RequestCommon.bytes, hv, ha]
        simp [version1, actionSetup]
      · exact unchanged
    split
    · rw [processHandler_eq, Prog.run_bind, run_onConn]
      rcases hr2 : runEv (parseProcessRequest common) evs with ⟨res, evs2⟩
      dsimp only
      rcases res with (e | request) | m
      · exact spared _ (spares_failWith _ _ _) rfl
      · by_cases hk : sessionKey C host request.id = k
        · subst hk
          obtain ⟨t', h1, h2, h3⟩ := run_process_renews (request := request) (host := host)
            (s := { s with conn := { s.conn with input := evs2 } }) timeout ans ht
          exact ⟨t', h1, Nat.le_trans hle h2, h3⟩
        · exact spared _ (spares_processParsed hk) rfl
      · exact unchanged
    split
    · exact spared _ (spares_fetchKey _) rfl
    · exact unchanged
  revert key
  rcases (handle (inMemory C) (.ok host) common).run (seqI C timeout ans)
      { s with conn := { s.conn with input := evs } } with ⟨res, s'⟩
  intro key
  rcases res with (_ | _) | _ <;> exact key

theorem serve_message_renews (hC : C.Lawful) (x : Arrival C) (w : World) (host : Bytes) (id : ID) (r : Ref) (t : Nat)
    (hx : x.IsMessage host id) (ht : w.table (sessionKey C host id) = some (r, t)) :
    ∃ t', (x.serve w).table (sessionKey C host id) = some (r, t') ∧ w.now ≤ t' ∧ t' ≤ (x.serve w).now := by
  obtain ⟨rfl, expectReply, counter, ciphertext, rest, hl, hd⟩ := hx
  obtain ⟨evs, hp⟩ := serveOne_process hC x.timeout x.ans x.host { conn := x.conn, world := w, pos := 0 } expectReply id
    counter ciphertext rest hl hd
  rw [Arrival.serve, hp]
  exact run_process_renews (request := parsedProcess expectReply id counter ciphertext) x.timeout x.ans ht

theorem afterEvents_snoc (ttl : Nat) (w : World) (es : List (SrvEvent C)) (e : SrvEvent C) :
    afterEvents ttl w (es ++ [e]) = e.after ttl (afterEvents ttl w es) := by
  simp [afterEvents, List.foldl_append]

theorem events_snoc {P : List (SrvEvent C) → Prop} (h0 : P []) (h1 : ∀ a x, P a → P (a ++ [x])) : ∀ a, P a := by
  intro a
  have : ∀ n (a : List (SrvEvent C)), a.length = n → P a := by
    intro n
    induction n with
    | zero => intro a ha; rw [List.length_eq_zero_iff.mp ha]; exact h0
    | succ n ih =>
      intro a ha
      have hne : a ≠ [] := by intro h; subst h; cases ha
      rw [← List.dropLast_concat_getLast hne]
      exact h1 _ _ (ih _ (by simp [ha]))
  exact this _ a rfl

/-! ## The replay windows -/

/-- The windows represent the counters that were accepted. -/
def WindowsTell (w : World) : Prop :=
  (∀ (r : Nat) x, w.heap[r]? = some x → Represents x.2 (acceptedOf r w.log)) ∧
  (∀ r c, .accepted r c ∈ w.log → r < w.heap.length)

theorem WindowsTell.event {w : World} (h : WindowsTell w) (e : Event) (he : ∀ r c, e ≠ .accepted r c) :
    WindowsTell { w with log := w.log ++ [e] } := by
  have hof : ∀ r, acceptedOf r (w.log ++ [e]) = acceptedOf r w.log := by
    intro r
    simp only [acceptedOf, List.filterMap_append, List.reverse_append]
    cases e <;> first | exact absurd rfl (he _ _) | rfl
  refine ⟨fun r x hx => ?_, fun r c hm => ?_⟩
  · show Represents x.2 (acceptedOf r (w.log ++ [e]))
    rw [hof]; exact h.1 r x hx
  · rcases List.mem_append.mp hm with hm | hm
    · exact h.2 r c hm
    · exact absurd (List.mem_singleton.mp hm).symm (he r c)

theorem WindowsTell.newSession {w : World} (h : WindowsTell w) (secret : Bytes) :
    WindowsTell { w with heap := w.heap ++ [(secret, .fresh)] } := by
  refine ⟨fun r x hx => ?_, fun r c hm => ?_⟩
  · by_cases hr : r < w.heap.length
    · exact h.1 r x ((List.getElem?_append_left hr).symm.trans hx)
    · have hx : (w.heap ++ [(secret, ReplayWindow.fresh)])[r]? = some x := hx
      rw [List.getElem?_append_right (Nat.le_of_not_lt hr), List.getElem?_singleton] at hx
      split at hx
      · cases hx
        have : acceptedOf r w.log = [] := by
          rw [List.eq_nil_iff_forall_not_mem]
          intro n hn
          simp only [acceptedOf, List.mem_reverse, List.mem_filterMap] at hn
          obtain ⟨e, he, hen⟩ := hn
          cases e with
          | accepted r' c' =>
            simp only at hen
            split at hen
            · rename_i hrr
              subst hrr
              exact absurd (h.2 _ _ he) hr
            · cases hen
          | _ => cases hen
        show Represents ReplayWindow.fresh (acceptedOf r w.log)
        rw [this]; exact represents_fresh
      · cases hx
  · show r < (w.heap ++ [(secret, ReplayWindow.fresh)]).length
    rw [List.length_append]
    exact Nat.lt_add_right _ (h.2 r c hm)

theorem WindowsTell.exec {w : World} (h : WindowsTell w) (timeout : Nat) (a : Answer C) (o : SOp) (c : Conn) :
    WindowsTell (exec C timeout a o (c, w)).2.2 := by
  cases o with
  | newSession secret host id =>
    exact (h.newSession secret).event (.established w.heap.length host id) (fun _ _ e => by cases e)
  | check r counter =>
    simp only [Goe2ee.exec]
    rcases hx : w.heap[r]? with _ | ⟨secret, window⟩
    · exact h
    obtain ⟨hr, -⟩ := List.getElem?_eq_some_iff.mp hx
    have hspec := checkAndUpdate_spec window _ (h.1 r _ hx) counter
    dsimp only
    cases hc : (window.checkAndUpdate counter).1 with
    | true =>
      rw [if_pos rfl]
      refine ⟨fun r' y hy => ?_, fun r' c' hm => ?_⟩
      · have happ : acceptedOf r' (w.log ++ [Event.accepted r counter]) =
            if r = r' then counter.toNat :: acceptedOf r' w.log else acceptedOf r' w.log := by
          simp only [acceptedOf, List.filterMap_append, List.reverse_append]
          by_cases hrr : r = r'
          · simp [hrr]
          · simp [hrr]
        show Represents y.2 (acceptedOf r' (w.log ++ [Event.accepted r counter]))
        have hy : (w.heap.set r (secret, (window.checkAndUpdate counter).2))[r']? = some y := hy
        rw [happ]
        by_cases hrr : r = r'
        · subst hrr
          rw [List.getElem?_set_self hr] at hy
          cases hy
          rw [if_pos rfl]
          exact hspec.2.1 hc
        · rw [List.getElem?_set_ne hrr] at hy
          rw [if_neg hrr]
          exact h.1 r' y hy
      · show r' < (w.heap.set r _).length
        rw [List.length_set]
        have hm : Event.accepted r' c' ∈ w.log ++ [Event.accepted r counter] := hm
        rcases List.mem_append.mp hm with hm | hm
        · exact h.2 r' c' hm
        · simp only [List.mem_singleton, Event.accepted.injEq] at hm
          rw [hm.1]; exact hr
    | false =>
      rw [if_neg (by decide)]
      have hself : w.heap.set r (secret, (window.checkAndUpdate counter).2) = w.heap := by
        rw [checkAndUpdate_rejected _ _ hc]
        apply List.ext_getElem?
        intro i
        by_cases hi : r = i
        · subst hi; rw [List.getElem?_set_self hr]; exact hx.symm
        · rw [List.getElem?_set_ne hi]
      refine ⟨fun r' y hy => h.1 r' y ?_, fun r' c' hm => ?_⟩
      · rw [← hself]; exact hy
      · show r' < (w.heap.set r _).length
        rw [List.length_set]
        exact h.2 r' c' hm
  | write bs =>
    simp only [Goe2ee.exec, execWrite]
    repeat' split
    all_goals exact h
  | flush =>
    simp only [Goe2ee.exec]
    split <;> exact h
  | invoke r n host id m => exact h.event _ (fun _ _ e => by cases e)
  | aead r k n p => exact h.event _ (fun _ _ e => by cases e)
  | closeReturned => exact h.event _ (fun _ _ e => by cases e)
  | _ => exact h

theorem seqI_memory (timeout : Nat) (ans : Nat → Answer C) (o : SOp) (s : Seq) :
    (seqI C timeout ans o s).2.world = (exec C timeout (ans s.pos) o (s.conn, s.world)).2.2 := by
  cases o <;> rfl

theorem WindowsTell.run {α : Type} (timeout : Nat) (ans : Nat → Answer C) (p : SProg C α) (s : Seq)
    (h : WindowsTell s.world) : WindowsTell (p.run (seqI C timeout ans) s).2.world := by
  induction p generalizing s with
  | ret a => exact h
  | panic m => exact h
  | op o k ih => exact ih _ _ (by rw [seqI_memory]; exact h.exec timeout (ans s.pos) o s.conn)

theorem secret_stays {α : Type} (timeout : Nat) (ans : Nat → Answer C) (p : SProg C α) (s : Seq) (r : Ref) (secret : Bytes)
    (h : ∃ window, s.world.heap[r]? = some (secret, window)) :
    ∃ window, (p.run (seqI C timeout ans) s).2.world.heap[r]? = some (secret, window) := by
  induction p generalizing s with
  | ret a => exact h
  | panic m => exact h
  | op o k ih => exact ih _ _ (by rw [seqI_memory]; exact exec_secret timeout (ans s.pos) o s.conn s.world r secret h)

/-- The collector changes the table and the time only. -/
theorem visit_rest (ttl : Nat) (w : World) (key : Bytes) (v : Nat) (hv : w.now ≤ v) :
    (callAt C ttl w (.visit key, v)).2.heap = w.heap ∧ (callAt C ttl w (.visit key, v)).2.log = w.log ∧
    w.now ≤ (callAt C ttl w (.visit key, v)).2.now ∧ v ≤ (callAt C ttl w (.visit key, v)).2.now := by
  rcases h : w.table key with _ | ⟨r, u⟩
  · simp only [callAt, MCall.prog, gcVisitKey, Prog.bind, Prog.run, exec, h]
    exact ⟨trivial, trivial, hv, Nat.le_refl _⟩
  · simp only [callAt, MCall.prog, gcVisitKey, Prog.bind, Prog.run, exec, h, clock, Nat.add_zero]
    by_cases ht : v - u > ttl
    · simp only [ht, if_true, Prog.bind, Prog.run]
      exact ⟨rfl, rfl, hv, Nat.le_refl _⟩
    · simp only [ht, if_false, Prog.bind, Prog.run]
      exact ⟨trivial, trivial, hv, Nat.le_refl _⟩

/-! ## The property -/

theorem Forward.init {ttl : Nat} {w : World} {es : List (SrvEvent C)} {e : SrvEvent C} (h : Forward ttl w (es ++ [e])) :
    Forward ttl w es := by
  intro pre k v post he
  exact h pre k v (post ++ [e]) (by rw [he]; simp)

theorem KeptAlive.init {ttl : Nat} {w : World} {es : List (SrvEvent C)} {e : SrvEvent C} {host : Bytes} {id : ID} {t : Nat}
    (h : KeptAlive ttl w (es ++ [e]) host id t) : KeptAlive ttl w es host id t := by
  intro pre v post he
  exact h pre v (post ++ [e]) (by rw [he]; simp)

/-- What holds along the way. -/
structure Alive (ttl : Nat) (w : World) (es : List (SrvEvent C)) (host : Bytes) (id : ID) (r : Ref) (t : Nat) : Prop where
  entry : ∃ t', (afterEvents ttl w es).table (sessionKey C host id) = some (r, t') ∧ t ≤ t' ∧
    t' ≤ (afterEvents ttl w es).now ∧
    ∀ a x b, es = a ++ .request x :: b → x.IsMessage host id → (afterEvents ttl w a).now ≤ t'

theorem alive (hC : C.Lawful) (ttl : Nat) (w : World) (host : Bytes) (id : ID) (r : Ref) (t : Nat)
    (ht : w.table (sessionKey C host id) = some (r, t)) (hle : t ≤ w.now) (es : List (SrvEvent C))
    (hf : Forward ttl w es) (hs : NoSetup es host id) (hk : KeptAlive ttl w es host id t) :
    Alive ttl w es host id r t := by
  induction es using events_snoc with
  | h0 => exact ⟨t, ht, Nat.le_refl _, hle, fun a x b h => by simp at h⟩
  | h1 es e ih =>
    obtain ⟨t', h1, h2, h3, h4⟩ := (ih hf.init (fun x hx => hs x (List.mem_append_left _ hx)) hk.init).entry
    have split : ∀ (P : Prop) a x b, es ++ [e] = a ++ SrvEvent.request x :: b →
        (∀ b', es = a ++ .request x :: b' → P) → (es = a → e = .request x → P) → P := by
      intro P a x b h hold hnew
      rcases List.eq_nil_or_concat b with rfl | ⟨b', y, rfl⟩
      · obtain ⟨ha, he⟩ := List.append_inj' h rfl
        exact hnew ha (by simpa using he)
      · refine hold b' ?_
        have h : es ++ [e] = (a ++ SrvEvent.request x :: b') ++ [y] := by rw [h]; simp
        exact (List.append_inj' h rfl).1
    cases e with
    | visit key v =>
      have hv : (afterEvents ttl w es).now ≤ v := hf es key v [] rfl
      obtain ⟨-, -, h5, -⟩ := visit_rest (C := C) ttl (afterEvents ttl w es) key v hv
      refine ⟨t', ?_, h2, ?_, fun a x b h hx => split _ a x b h (fun b' he => h4 a x b' he hx) (fun _ he => by cases he)⟩
      · rw [afterEvents_snoc]
        by_cases hkey : key = sessionKey C host id
        · subst hkey
          show (callAt C ttl _ (.visit _, v)).2.table _ = _
          rw [callAt_visit_some ttl _ _ r t' v h1]
          have hnot : ¬ v - t' > ttl := by
            rcases hk es v [] rfl with hv | ⟨a, x, b, he, hx, hv⟩
            · omega
            · have := h4 a x b he hx
              omega
          exact (if_neg fun h => hnot h.2).trans h1
        · exact (callAt_other ttl _ (.visit key, v) _ hkey).trans h1
      · rw [afterEvents_snoc]
        exact Nat.le_trans h3 h5
    | request x =>
      by_cases hx : x.IsMessage host id
      · obtain ⟨u, h5, h6, h7⟩ := serve_message_renews hC x (afterEvents ttl w es) host id r t' hx h1
        refine ⟨u, by rw [afterEvents_snoc]; exact h5, by omega, by rw [afterEvents_snoc]; exact h7, ?_⟩
        intro a y b h hy
        refine split _ a y b h (fun b' he => ?_) (fun ha _ => ?_)
        · have := h4 a y b' he hy
          omega
        · subst ha; exact h6
      · obtain ⟨u, h5, h6, h7⟩ := serveOne_keeps x.timeout x.ans x.host (sessionKey C host id)
          { conn := x.conn, world := afterEvents ttl w es, pos := 0 } r t' h1 h3
          (fun id' hid he => hs x (by simp) id' hid (b64Encode_inj _ _ he))
        refine ⟨u, by rw [afterEvents_snoc]; exact h5, by omega, by rw [afterEvents_snoc]; exact h7, ?_⟩
        intro a y b h hy
        refine split _ a y b h (fun b' he => ?_) (fun _ he => ?_)
        · have := h4 a y b' he hy
          omega
        · cases he; exact absurd hy hx

/-- **C181.** A client that is heard of often enough keeps its session: if, whenever the collector comes to its entry, no
more than the TTL has passed since the session was stored or since a message of the client arrived, then the session is
still there, and it is the same one, whatever else the server was asked in the meantime and in whatever order the
collector visits the entries. -/
theorem C181_kept (hC : C.Lawful) (ttl : Nat) (w : World) (host : Bytes) (id : ID) (r : Ref) (t : Nat)
    (ht : w.table (sessionKey C host id) = some (r, t)) (hle : t ≤ w.now) (es : List (SrvEvent C))
    (hf : Forward ttl w es) (hs : NoSetup es host id) (hk : KeptAlive ttl w es host id t) :
    ∃ t', (afterEvents ttl w es).table (sessionKey C host id) = some (r, t') ∧ t ≤ t' := by
  obtain ⟨t', h1, h2, -⟩ := (alive hC ttl w host id r t ht hle es hf hs hk).entry
  exact ⟨t', h1, h2⟩

theorem after_tells (ttl : Nat) (w : World) (r : Ref) (secret : Bytes) (es : List (SrvEvent C)) (hf : Forward ttl w es)
    (hw : WindowsTell w) (hh : ∃ window, w.heap[r]? = some (secret, window)) :
    WindowsTell (afterEvents ttl w es) ∧ ∃ window, (afterEvents ttl w es).heap[r]? = some (secret, window) := by
  induction es using events_snoc with
  | h0 => exact ⟨hw, hh⟩
  | h1 es e ih =>
    obtain ⟨h1, h2⟩ := ih hf.init
    rw [afterEvents_snoc]
    cases e with
    | request x => exact ⟨h1.run x.timeout x.ans _ _, secret_stays x.timeout x.ans _ _ r secret h2⟩
    | visit key v =>
      obtain ⟨h3, h4, -⟩ := visit_rest (C := C) ttl (afterEvents ttl w es) key v (hf es key v [] rfl)
      refine ⟨⟨fun r' x hx => ?_, fun r' c hm => ?_⟩, ?_⟩
      · show Represents x.2 (acceptedOf r' (callAt C ttl _ _).2.log)
        rw [h4]
        exact h1.1 r' x (by rw [← h3]; exact hx)
      · show r' < (callAt C ttl _ _).2.heap.length
        rw [h3]
        exact h1.2 r' c (by rw [← h4]; exact hm)
      · show ∃ window, (callAt C ttl _ _).2.heap[r]? = _
        rw [h3]; exact h2

/-- **C181**, what the client gets from it: its next message, if it decrypts and its counter is fresh, is handed to the
application, however long ago the session was set up. -/
theorem C181_served (hC : C.Lawful) (ttl : Nat) (w : World) (hw : Reachable C w) (host : Bytes) (id : ID) (r : Ref)
    (t : Nat) (secret : Bytes) (window : ReplayWindow) (hh : w.heap[r]? = some (secret, window))
    (ht : w.table (sessionKey C host id) = some (r, t)) (hle : t ≤ w.now) (es : List (SrvEvent C))
    (hf : Forward ttl w es) (hs : NoSetup es host id) (hk : KeptAlive ttl w es host id t)
    (timeout : Nat) (ans : Nat → Answer C) (conn : Conn) (pos : Nat) (expectReply : Bool) (counter : BitVec 64)
    (ciphertext : Bytes) (rest : List (Byte ⊕ Err)) (hl : ciphertext.length ≤ 2 ^ 30)
    (h : Delivers conn.input (Wire.processRequest expectReply id.val counter.toNat ciphertext) rest)
    (hfresh : Fresh (acceptedOf r (afterEvents ttl w es).log) counter.toNat) (key message : Bytes)
    (hkey : deriveKey C secret kdfInfo aesKeySize = .ok key)
    (hopen : C.aeadOpen key (Wire.nonce12 0 counter.toNat) ciphertext = some message) :
    ∃ result, .invoked r counter host id.val message result ∈
      (serveOne timeout ans host ⟨conn, afterEvents ttl w es, pos⟩).world.log := by
  obtain ⟨t', h1, -⟩ := C181_kept hC ttl w host id r t ht hle es hf hs hk
  obtain ⟨h2, window', h3⟩ := after_tells ttl w r secret es hf hw.windows ⟨window, hh⟩
  obtain ⟨result, hlog, -⟩ := delivered hC timeout ans host ⟨conn, afterEvents ttl w es, pos⟩ expectReply id counter
    ciphertext rest hl h r t' secret key message window' _ h1 h3 (h2.1 r _ h3) hfresh hkey hopen
  exact ⟨result, by rw [hlog]; simp⟩

namespace KeepAliveExample

/-- The collector comes at 90, the client's message after it, the collector again at 190. -/
def events : List (SrvEvent Toy.crypto) :=
  [.visit (sessionKey Toy.crypto (str "10.0.0.1") OnceExample.id) 90,
   .request (SilentExample.arrival "10.0.0.1" SessionExample.genuine),
   .visit (sessionKey Toy.crypto (str "10.0.0.1") OnceExample.id) 190]

/-- The client's second message. -/
def second : Bytes :=
  Wire.processRequest true OnceExample.id.val 2 (Toy.crypto.aeadSeal OnceExample.key (Wire.nonce12 0 2) (str "ping"))

theorem isMessage : (SilentExample.arrival "10.0.0.1" SessionExample.genuine).IsMessage (str "10.0.0.1") OnceExample.id :=
  ⟨rfl, true, 1, Toy.crypto.aeadSeal OnceExample.key (Wire.nonce12 0 1) (str "ping"), [], by decide +kernel,
    by unfold Delivers; decide +kernel⟩

theorem kept : KeptAlive 100 SessionExample.world events (str "10.0.0.1") OnceExample.id 2 := by
  intro pre v post he
  match pre, he with
  | [], he =>
    cases he
    exact .inl (by decide)
  | [_], he => simp [events] at he
  | [_, _], he =>
    cases he
    exact .inr ⟨[.visit _ 90], _, [], rfl, isMessage, by decide +kernel⟩
  | _ :: _ :: _ :: pre, he => cases pre <;> simp [events] at he

theorem forward : Forward 100 SessionExample.world events := by
  intro pre k v post he
  match pre, he with
  | [], he => cases he; decide +kernel
  | [_], he => simp [events] at he
  | [_, _], he => cases he; decide +kernel
  | _ :: _ :: _ :: pre, he => cases pre <;> simp [events] at he

end KeepAliveExample

open KeepAliveExample in
/-- A session of time 2 is there after the collector's visit at 190 with a TTL of 100, thanks to the message, and the
client's second message is answered; without the first one it is gone. -/
example :
    SessionExample.world.table (sessionKey Toy.crypto (str "10.0.0.1") OnceExample.id) = some (0, 2) ∧
    2 ≤ SessionExample.world.now ∧
    Forward 100 SessionExample.world events ∧
    KeptAlive 100 SessionExample.world events (str "10.0.0.1") OnceExample.id 2 ∧
    ((afterEvents 100 SessionExample.world events).table
      (sessionKey Toy.crypto (str "10.0.0.1") OnceExample.id)).map (·.1) = some 0 ∧
    (serveOne 5000 SessionExample.env (str "10.0.0.1") (SessionExample.start (afterEvents 100 SessionExample.world events)
      second)).conn.output = Wire.processResponse 2 (Toy.crypto.aeadSeal OnceExample.key (Wire.nonce12 1 2) (str "pong")) ∧
    (afterEvents 100 SessionExample.world (events.eraseIdx 1)).table
      (sessionKey Toy.crypto (str "10.0.0.1") OnceExample.id) = none :=
  ⟨by decide +kernel, by decide +kernel, forward, kept, by decide +kernel, by decide +kernel, by decide +kernel⟩

end

end Goe2ee
