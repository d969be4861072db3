import Verif.Spec.LongTermKey
import Verif.Props.Codec
import Verif.Proofs.Safe

/-!
# What depends on the long-term key of the server
-/

set_option autoImplicit false

namespace Goe2ee

section
variable {C : Crypto}

/-! ## Octets -/

theorem AlikeMessage.empty {m m' : Bytes} (h : AlikeMessage m m') : m = [] ↔ m' = [] := by
  cases h <;> simp [Wire.setupResponse, Wire.fetchKeyResponse]

theorem AlikeOctets.empty {o o' : Bytes} (h : AlikeOctets o o') : o = [] ↔ o' = [] := by
  induction h with
  | nil => simp
  | append _ hm ih => simp [ih, hm.empty]

theorem AlikeOctets.refl_append {o o' : Bytes} (h : AlikeOctets o o') (m : Bytes) :
    AlikeOctets (o ++ m) (o' ++ m) := .append h (.same m)

theorem AlikeDatagrams.concat {l l' : List Bytes} {o o' : Bytes} (h : AlikeDatagrams l l') (ho : AlikeOctets o o') :
    AlikeDatagrams (l ++ [o]) (l' ++ [o']) := by
  refine ⟨by simp [h.1], ?_⟩
  rw [List.zip_append h.1]
  intro d hd
  rcases List.mem_append.mp hd with hd | hd
  · exact h.2 d hd
  · simp only [List.zip_cons_cons, List.zip_nil_right, List.mem_singleton] at hd
    subst hd
    exact ho

/-! ## Programs -/

/-- Two programs about to write responses that are alike, and then the same. -/
def Pending {α : Type} (p p' : SProg C α) : Prop :=
  ∃ (bs bs' : Bytes) (k k' : Nat × Option Err → SProg C α),
    p = .op (.write bs) k ∧ p' = .op (.write bs') k' ∧ AlikeMessage bs bs' ∧ bs ≠ [] ∧
    bs.length ≤ 2 ^ 20 ∧ bs'.length ≤ 2 ^ 20 ∧
    (∀ e, k (bs.length, e) = k' (bs'.length, e)) ∧ ∀ e, k (0, e) = k' (0, e)

/-- The results of the long-term key are used for responses only. -/
def KeyBlind {α : Type} : SProg C α → Prop
  | .ret _ => True
  | .panic _ => True
  | .op (.sign hash _) k => (∀ r, KeyBlind (k r)) ∧ hash = 7 ∧ ∀ s s' : Bytes, 0 < s.length → s.length ≤ 65536 → 0 < s'.length →
      s'.length ≤ 65536 → Pending (k (.ok s : Except Err Bytes)) (k (.ok s' : Except Err Bytes))
  | .op .fetchKey k => (∀ r, KeyBlind (k r)) ∧ ∀ (x x' : KeyAlgorithm × PublicKey) (raw raw' : Bytes),
      C.marshalPKIX x.2 = .ok raw → C.marshalPKIX x'.2 = .ok raw' → raw.length ≤ 65536 → raw'.length ≤ 65536 →
      Pending (k (.ok x : Except Err (KeyAlgorithm × PublicKey))) (k (.ok x' : Except Err (KeyAlgorithm × PublicKey)))
  | .op _ k => ∀ r, KeyBlind (k r)

theorem KeyBlind.next {α : Type} {o : SOp} {k : SOp.Ret C o → SProg C α} (h : KeyBlind (.op o k)) (r : SOp.Ret C o) :
    KeyBlind (k r) := by
  cases o <;> first | exact h r | exact h.1 r

/-- Programs that do not use the long-term key. -/
def SOp.keyFree : SOp → Prop
  | .sign _ _ => False
  | .fetchKey => False
  | _ => True

theorem KeyBlind.of_uses {α : Type} {p : SProg C α} (h : Uses SOp.keyFree p) : KeyBlind p := by
  induction p with
  | ret a => trivial
  | panic m => trivial
  | op o k ih =>
    cases o <;> first | exact h.1.elim | exact fun r => ih r (h.2 r)

theorem Pending.bind {α β : Type} {p p' : SProg C α} (h : Pending p p') (f : α → SProg C β) :
    Pending (p.bind f) (p'.bind f) := by
  obtain ⟨bs, bs', k, k', rfl, rfl, h1, h2, h3, h4, h5, h6⟩ := h
  exact ⟨bs, bs', _, _, rfl, rfl, h1, h2, h3, h4, fun e => congrArg (Prog.bind · f) (h5 e),
    fun e => congrArg (Prog.bind · f) (h6 e)⟩

theorem KeyBlind.bind {α β : Type} {p : SProg C α} {f : α → SProg C β} (h : KeyBlind p) (hf : ∀ a, KeyBlind (f a)) :
    KeyBlind (p.bind f) := by
  induction p with
  | ret a => exact hf a
  | panic m => trivial
  | op o k ih =>
    cases o
    case sign => exact ⟨fun r => ih r (h.1 r), h.2.1, fun s s' h1 h2 h3 h4 => (h.2.2 s s' h1 h2 h3 h4).bind f⟩
    case fetchKey => exact ⟨fun r => ih r (h.1 r), fun x x' r r' h1 h2 h3 h4 => (h.2 x x' r r' h1 h2 h3 h4).bind f⟩
    all_goals exact fun r => ih r (h r)

/-- Two responses that are alike are sent in the same way. -/
theorem pending_respond {bs bs' : Bytes} (h : AlikeMessage bs bs') (h0 : bs ≠ []) (hl : bs.length ≤ 2 ^ 20)
    (hl' : bs'.length ≤ 2 ^ 20) : Pending (C := C) (respondWith bs) (respondWith bs') := by
  have h0' : bs' ≠ [] := fun e => h0 (h.empty.mpr e)
  refine ⟨bs, bs', _, _, rfl, rfl, h, h0, hl, hl', ?_, ?_⟩
  · intro e
    cases e with
    | none => simp
    | some e => simp [List.length_pos_iff.mpr h0, List.length_pos_iff.mpr h0']
  · intro e
    have h1 : ¬ (0 = bs.length) := by simpa using fun e => h0 (List.length_eq_zero_iff.mp e.symm)
    have h2 : ¬ (0 = bs'.length) := by simpa using fun e => h0' (List.length_eq_zero_iff.mp e.symm)
    cases e with
    | none => simp [h1, h2]
    | some e => rfl

/-! ## The server's programs -/

theorem KeyBlind.onConn {α : Type} (p : RProg α) : KeyBlind (C := C) (onConn p) :=
  .of_uses ((uses_onConn p).mono fun o h => by cases o <;> first | trivial | exact h.elim)

theorem KeyBlind.ofRes {α : Type} (r : Res α) : KeyBlind (C := C) (ofRes r) := by
  cases r <;> trivial

theorem keyBlind_writeError (bs : Bytes) : KeyBlind (C := C) (writeErrorResponse bs) := by
  rintro ⟨n, e⟩
  cases e with
  | none => dsimp only; split <;> trivial
  | some e => trivial

theorem keyBlind_fail (code : ErrorCode) (text : String) : KeyBlind (C := C) (failWith code text) :=
  (keyBlind_writeError _).bind fun ok => by cases ok <;> trivial

theorem keyBlind_respond (bs : Bytes) : KeyBlind (C := C) (respondWith bs) := by
  refine KeyBlind.bind ?_ fun ok => by cases ok <;> trivial
  rintro ⟨n, e⟩
  cases e with
  | none => dsimp only; split <;> trivial
  | some e =>
    dsimp only
    split
    · trivial
    · split
      · trivial
      · exact keyBlind_writeError _

theorem keyBlind_setup (host : Except Err Bytes) (common : RequestCommon) (hC : C.Lawful) :
    KeyBlind (setupHandler (inMemory C) host common) := by
  refine (KeyBlind.onConn _).bind fun parsed => ?_
  rcases parsed with _ | request
  · exact keyBlind_fail _ _
  rintro (_ | serverKey)
  · exact keyBlind_fail _ _
  dsimp only
  split
  · exact keyBlind_fail _ _
  split
  · exact keyBlind_fail _ _
  intro session
  refine KeyBlind.bind (f := _) (fun _ _ => trivial) fun stored => ?_
  rcases stored with _ | ⟨⟩
  · exact keyBlind_fail _ _
  refine ⟨?_, rfl, ?_⟩
  · rintro (_ | signature)
    · exact keyBlind_fail _ _
    · exact (KeyBlind.ofRes _).bind fun _ => keyBlind_respond _
  · intro s s' h1 h2 h3 h4
    show Pending (respondWith ((newSetupResponse C (C.epub serverKey)).setSignature 4 s).bytes)
      (respondWith ((newSetupResponse C (C.epub serverKey)).setSignature 4 s').bytes)
    rw [C03_setup_response_layout _ _ _ _ h1, C03_setup_response_layout _ _ _ _ h3]
    refine pending_respond (.setup _ _ _) (by simp [Wire.setupResponse]) ?_ ?_ <;>
    · simp only [Wire.setupResponse, Wire.be32, List.length_append, List.length_cons, List.length_nil, hC.marshalEPub_length]
      omega

theorem keyBlind_process (host : Except Err Bytes) (common : RequestCommon) :
    KeyBlind (processHandler (inMemory C) host common) := by
  refine (KeyBlind.onConn _).bind fun parsed => ?_
  rcases parsed with _ | request
  · exact keyBlind_fail _ _
  dsimp only
  split
  · exact keyBlind_fail _ _
  refine KeyBlind.bind (f := _) ?_ fun loaded => ?_
  · intro value
    rcases value with _ | ⟨session, t⟩
    · trivial
    · exact fun _ _ => trivial
  rcases loaded with _ | session
  · exact keyBlind_fail _ _
  intro fresh
  dsimp only
  split
  case isFalse => exact keyBlind_fail _ _
  intro secret
  dsimp only
  split
  · exact keyBlind_fail _ _
  split
  · exact keyBlind_fail _ _
  split
  · exact keyBlind_fail _ _
  refine (KeyBlind.ofRes _).bind fun nonce => ?_
  split
  · exact keyBlind_fail _ _
  intro handled
  cases handled with
  | panic m => trivial
  | error e => exact keyBlind_fail _ _
  | reply written =>
    dsimp only
    split
    · exact (KeyBlind.ofRes _).bind fun _ _ => keyBlind_respond _
    · trivial

theorem keyBlind_fetchKey : KeyBlind (fetchKeyHandler (C := C)) := by
  refine ⟨?_, ?_⟩
  · rintro (_ | ⟨algorithm, key⟩)
    · exact keyBlind_fail _ _
    · dsimp only
      split
      · exact keyBlind_fail _ _
      · exact keyBlind_respond _
  · rintro ⟨algorithm, key⟩ ⟨algorithm', key'⟩ raw raw' h1 h2 h3 h4
    dsimp only at h1 h2 ⊢
    rw [h1, h2]
    dsimp only
    rw [C06_fetch_key_response_layout _ _ (by omega), C06_fetch_key_response_layout _ _ (by omega)]
    refine pending_respond (.published _ _ _ _) (by simp [Wire.fetchKeyResponse]) ?_ ?_ <;>
    · simp only [Wire.fetchKeyResponse, Wire.be64, List.length_append, List.length_cons, List.length_nil]
      omega

theorem keyBlind_serve (hC : C.Lawful) (host : Except Err Bytes) : KeyBlind (serveRequest (inMemory C) host) := by
  refine (KeyBlind.onConn _).bind fun parsed => ?_
  rcases parsed with _ | common
  · trivial
  dsimp only
  split
  · trivial
  refine KeyBlind.bind ?_ fun e => by cases e <;> trivial
  unfold handle
  split
  · exact keyBlind_respond _
  split
  · exact keyBlind_setup _ _ hC
  split
  · exact keyBlind_process _ _
  split
  · exact keyBlind_fetchKey
  · trivial

/-! ## Goroutines -/

/-- Two connections that differ in what was written. -/
structure ConnAlike (c c' : Conn) : Prop where
  input : c'.input = c.input
  buffered : c'.buffered = c.buffered
  deadline : c'.deadline = c.deadline
  closed : c'.closed = c.closed
  output : AlikeOctets c.output c'.output
  sent : AlikeDatagrams c.sent c'.sent

/-- Two goroutines of servers that differ in their long-term key. -/
structure ThreadAlike (t t' : Thread C) : Prop where
  conn : ConnAlike t.conn t'.conn
  prog : (t'.prog = t.prog ∨ Pending t.prog t'.prog) ∧ KeyBlind t.prog
  loop : t'.loop = t.loop ∧ KeyBlind t.loop
  deferred : t'.deferred = t.deferred ∧ KeyBlind t.deferred

theorem ConnAlike.refl_none : ConnAlike .none .none := ⟨rfl, rfl, rfl, rfl, .nil, rfl, by simp [Conn.none]⟩

theorem ConnAlike.refl_peer (p : Peer) : ConnAlike (.ofPeer p) (.ofPeer p) := by
  cases p <;> exact ⟨rfl, rfl, rfl, rfl, .nil, rfl, by simp [Conn.ofPeer, Conn.none]⟩

/-- Two results of `Write`: both complete, both nothing, or (for the same long message) the same. -/
def Accepted (bs bs' : Bytes) (n n' : Nat) : Prop :=
  (2 ^ 20 < bs.length ∧ bs = bs' ∧ n = n') ∨ (n = bs.length ∧ n' = bs'.length) ∨ (n = 0 ∧ n' = 0)

/-- Writing responses that are alike. -/
theorem write_alike {a a' : Answer C} (h : OtherKey a a') {c c' : Conn} (hc : ConnAlike c c') {bs bs' : Bytes}
    (hm : AlikeMessage bs bs') (hl : bs = bs' ∨ bs.length ≤ 2 ^ 20 ∧ bs'.length ≤ 2 ^ 20) (w : World) :
    ∃ e n n', Accepted bs bs' n n' ∧
      (execWrite C a bs c w).1 = (n, e) ∧ (execWrite C a' bs' c' w).1 = (n', e) ∧
      (execWrite C a bs c w).2.2 = (execWrite C a' bs' c' w).2.2 ∧
      ConnAlike (execWrite C a bs c w).2.1 (execWrite C a' bs' c' w).2.1 := by
  obtain ⟨input, output, writes, sent, buffered, deadline, closed⟩ := c
  obtain ⟨input', output', writes', sent', buffered', deadline', closed'⟩ := c'
  obtain ⟨h1, h2, h3, h4, ho, hsent⟩ := hc
  dsimp only at h1 h2 h3 h4 ho hsent
  subst h1 h2 h3 h4
  have key : ∀ n n' : Nat, Accepted bs bs' n n' → AlikeOctets (output ++ bs.take n) (output' ++ bs'.take n') := by
    rintro n n' (⟨-, rfl, rfl⟩ | ⟨rfl, rfl⟩ | ⟨rfl, rfl⟩)
    · exact ho.refl_append _
    · rw [List.take_length, List.take_length]
      exact .append ho hm
    · simpa using ho
  have hn : Accepted bs bs' (bs.length - a.write.1) (bs'.length - a.write.1) := by
    rcases h.whole with h0 | h0
    · rw [h0]; exact .inr (.inl ⟨rfl, rfl⟩)
    · rcases hl with rfl | ⟨h1, h2⟩
      · by_cases hb : 2 ^ 20 < bs.length
        · exact .inl ⟨hb, rfl, rfl⟩
        · exact .inr (.inr ⟨by omega, by omega⟩)
      · exact .inr (.inr ⟨by omega, by omega⟩)
  have hfull : Accepted bs bs' bs.length bs'.length := .inr (.inl ⟨rfl, rfl⟩)
  have hzero : Accepted bs bs' 0 0 := .inr (.inr ⟨rfl, rfl⟩)
  unfold execWrite
  rw [h.tick, h.write]
  cases buffered' with
  | true => exact ⟨_, _, _, hfull, rfl, rfl, rfl, rfl, rfl, rfl, rfl, key _ _ hfull, hsent⟩
  | false =>
    cases deadline' with
    | none => exact ⟨_, _, _, hn, rfl, rfl, rfl, rfl, rfl, rfl, rfl, key _ _ hn, hsent⟩
    | some d =>
      by_cases he : d < w.now + a.tick
      · simp only [Bool.false_eq_true, if_false, if_pos he]
        exact ⟨_, _, _, hzero, rfl, rfl, trivial, rfl, rfl, rfl, rfl, key _ _ hzero, hsent⟩
      · simp only [Bool.false_eq_true, if_false, if_neg he]
        exact ⟨_, _, _, hn, rfl, rfl, trivial, rfl, rfl, rfl, rfl, key _ _ hn, hsent⟩

/-- An effect that does not use the long-term key. -/
theorem exec_alike {a a' : Answer C} (h : OtherKey a a') {c c' : Conn} (hc : ConnAlike c c') (timeout : Nat) (w : World)
    (o : SOp) (ho : o.keyFree) :
    (exec C timeout a' o (c', w)).1 = (exec C timeout a o (c, w)).1 ∧
    (exec C timeout a' o (c', w)).2.2 = (exec C timeout a o (c, w)).2.2 ∧
    ConnAlike (exec C timeout a o (c, w)).2.1 (exec C timeout a' o (c', w)).2.1 := by
  cases o with
  | sign => exact ho.elim
  | fetchKey => exact ho.elim
  | read o =>
    have hr : ∀ c : Conn, exec C timeout a' (.read o) (c, w) = ((readInterp readEv o c.input).1,
        ({ c with input := (readInterp readEv o c.input).2 }, w)) := fun _ => rfl
    have hr' : ∀ c : Conn, exec C timeout a (.read o) (c, w) = ((readInterp readEv o c.input).1,
        ({ c with input := (readInterp readEv o c.input).2 }, w)) := fun _ => rfl
    rw [hr, hr', hc.input]
    exact ⟨rfl, rfl, rfl, hc.buffered, hc.deadline, hc.closed, hc.output, hc.sent⟩
  | write bs =>
    obtain ⟨e, n, n', h1, h2, h3, h4, h5⟩ := write_alike h hc (.same bs) (.inl rfl) w
    refine ⟨?_, h4.symm, h5⟩
    show (execWrite C a' bs c' w).1 = (execWrite C a bs c w).1
    rw [h2, h3]
    rcases h1 with ⟨-, -, h⟩ | ⟨h, h'⟩ | ⟨h, h'⟩
    · rw [h]
    · rw [h, h']
    · rw [h, h']
  | setDeadlines =>
    obtain ⟨input, output, writes, sent, buffered, deadline, closed⟩ := c
    obtain ⟨input', output', writes', sent', buffered', deadline', closed'⟩ := c'
    obtain ⟨h1, h2, h3, h4, ho, hsent⟩ := hc
    dsimp only at h1 h2 h3 h4 ho hsent
    subst h1 h2 h3 h4
    simp only [exec, h.tick]
    exact ⟨by trivial, by trivial, rfl, rfl, rfl, rfl, ho, hsent⟩
  | flush =>
    simp only [exec, h.tick, h.write, hc.output.empty]
    split
    · exact ⟨rfl, rfl, hc⟩
    · exact ⟨rfl, rfl, hc.input, hc.buffered, hc.deadline, hc.closed, .nil, hc.sent.concat hc.output⟩
  | check r counter =>
    simp only [exec]
    split <;> exact ⟨rfl, rfl, hc⟩
  | closeConn => exact ⟨rfl, rfl, hc.input, hc.buffered, hc.deadline, rfl, hc.output, hc.sent⟩
  | _ => simp only [exec, h.tick, h.genKey, h.handle, h.key, h.choose, h.peer]; exact ⟨by trivial, by trivial, hc⟩

/-- One step of a goroutine. -/
theorem step_alike {a a' : Answer C} (h : OtherKey a a') {t t' : Thread C} (ht : ThreadAlike t t') (timeout : Nat)
    (w : World) : ThreadAlike (t.step timeout a w).1 (t'.step timeout a' w).1 ∧
      (t'.step timeout a' w).2 = (t.step timeout a w).2 := by
  obtain ⟨hc, ⟨hp, hk⟩, hl, hd⟩ := ht
  obtain ⟨conn, prog, loop, deferred⟩ := t
  obtain ⟨conn', prog', loop', deferred'⟩ := t'
  obtain ⟨hl1, hl2⟩ := hl
  obtain ⟨hd1, hd2⟩ := hd
  dsimp only at hc hp hk hl1 hl2 hd1 hd2
  subst hl1 hd1
  rcases hp with rfl | ⟨bs, bs', k, k', rfl, rfl, h1, h2, h3, h4, h5, h6⟩
  · cases prog' with
    | ret b =>
      cases b with
      | true => exact ⟨⟨hc, ⟨.inl rfl, hl2⟩, ⟨rfl, hl2⟩, ⟨rfl, hd2⟩⟩, rfl⟩
      | false => exact ⟨⟨hc, ⟨.inl rfl, hd2⟩, ⟨rfl, trivial⟩, ⟨rfl, trivial⟩⟩, rfl⟩
    | panic m => exact ⟨⟨hc, ⟨.inl rfl, hd2⟩, ⟨rfl, trivial⟩, ⟨rfl, trivial⟩⟩, rfl⟩
    | op o k =>
      simp only [Thread.step]
      split
      case isFalse => exact ⟨⟨hc, ⟨.inl rfl, hk⟩, ⟨rfl, hl2⟩, ⟨rfl, hd2⟩⟩, rfl⟩
      by_cases ho : o.keyFree
      · obtain ⟨e1, e2, e3⟩ := exec_alike h hc timeout w o ho
        exact ⟨⟨e3, ⟨.inl (by dsimp only; rw [e1]), hk.next _⟩, ⟨rfl, hl2⟩, ⟨rfl, hd2⟩⟩, e2⟩
      · cases o with
        | sign hash content =>
          obtain ⟨hk1, rfl, hk2⟩ := hk
          obtain ⟨s, s', e1, e2, b1, b2, b3, b4⟩ := h.signs content
          simp only [exec, e1, e2]
          exact ⟨⟨hc, ⟨.inr (hk2 s s' b1 b2 b3 b4), hk1 _⟩, ⟨rfl, hl2⟩, ⟨rfl, hd2⟩⟩, trivial⟩
        | fetchKey =>
          obtain ⟨al, al', key, key', raw, raw', e1, e2, b1, b2, b3, b4⟩ := h.publishes
          simp only [exec, e1, e2]
          exact ⟨⟨hc, ⟨.inr (hk.2 _ _ raw raw' b1 b2 b3 b4), hk.1 _⟩, ⟨rfl, hl2⟩, ⟨rfl, hd2⟩⟩, trivial⟩
        | _ => exact absurd trivial ho
  · obtain ⟨e, n, n', e1, e2, e3, e4, e5⟩ := write_alike h hc h1 (.inr ⟨h3, h4⟩) w
    have hstep : ∀ (a : Answer C) (c : Conn) (bs : Bytes) (k : Nat × Option Err → SProg C Bool) (l d : SProg C Bool),
        Thread.step timeout a ⟨c, .op (.write bs) k, l, d⟩ w =
          (⟨(execWrite C a bs c w).2.1, k (execWrite C a bs c w).1, l, d⟩, (execWrite C a bs c w).2.2) :=
      fun _ _ _ _ _ _ => rfl
    rw [hstep, hstep]
    refine ⟨⟨e5, ⟨.inl ?_, hk _⟩, ⟨rfl, hl2⟩, ⟨rfl, hd2⟩⟩, e4.symm⟩
    dsimp only
    rw [e2, e3]
    rcases e1 with ⟨b1, -, -⟩ | ⟨b1, b2⟩ | ⟨b1, b2⟩
    · omega
    · rw [b1, b2, h5]
    · rw [b1, b2, h6]

/-! ## The server -/

/-- Two servers in the same state, except for what their goroutines wrote. -/
structure SysAlike (s s' : Sys C) : Prop where
  world : s'.world = s.world
  count : s'.threads.length = s.threads.length
  threads : ∀ (i : Nat) (t t' : Thread C), s.threads[i]? = some t → s'.threads[i]? = some t' → ThreadAlike t t'

theorem ThreadAlike.refl_peer (hC : C.Lawful) (p : Peer) :
    ThreadAlike (Thread.ofPeer (inMemory C) p) (Thread.ofPeer (inMemory C) p) := by
  cases p with
  | tcp host input =>
    have hpass : KeyBlind (connPass (inMemory C) host) := by
      intro closed
      dsimp only
      split
      · trivial
      · exact fun _ => keyBlind_serve hC host
    exact ⟨.refl_peer (.tcp host input), ⟨.inl rfl, hpass⟩, ⟨rfl, hpass⟩, ⟨rfl, fun _ _ => trivial⟩⟩
  | udp host datagram =>
    exact ⟨.refl_peer (.udp host datagram), ⟨.inl rfl, fun _ => (keyBlind_serve hC host).bind fun _ => trivial⟩,
      ⟨rfl, trivial⟩, ⟨rfl, fun _ => trivial⟩⟩

theorem sys_step_alike (hC : C.Lawful) {a a' : Answer C} (h : OtherKey a a') {s s' : Sys C} (hs : SysAlike s s')
    (timeout i : Nat) :
    SysAlike (s.step (inMemory C) timeout (i, a)) (s'.step (inMemory C) timeout (i, a')) := by
  unfold Sys.step
  dsimp only
  cases hi : s.threads[i]? with
  | none =>
    have hi' : s'.threads[i]? = none := by
      rw [List.getElem?_eq_none_iff] at hi ⊢
      rw [hs.count]; exact hi
    rw [hi']
    exact hs
  | some t =>
    have hlt := (List.getElem?_eq_some_iff.mp hi).1
    have hlt' : i < s'.threads.length := by rw [hs.count]; exact hlt
    have hi' : s'.threads[i]? = some s'.threads[i] := List.getElem?_eq_getElem hlt'
    rw [hi']
    dsimp only
    obtain ⟨h1, h2⟩ := step_alike h (hs.threads i _ _ hi hi') timeout s.world
    rw [hs.world, h2]
    refine ⟨rfl, by simp [hs.count], ?_⟩
    intro j u u' hu hu'
    by_cases hj : j < s.threads.length
    · rw [List.getElem?_append_left (by simpa using hj)] at hu
      rw [List.getElem?_append_left (by rw [List.length_set, hs.count]; exact hj)] at hu'
      by_cases hij : i = j
      · subst hij
        rw [List.getElem?_set_self hj] at hu
        rw [List.getElem?_set_self (by rw [hs.count]; exact hj)] at hu'
        cases hu
        cases hu'
        exact h1
      · rw [List.getElem?_set_ne hij] at hu hu'
        exact hs.threads j u u' hu hu'
    · rw [List.getElem?_append_right (by simpa using hj)] at hu
      rw [List.getElem?_append_right (by rw [List.length_set, hs.count]; omega)] at hu'
      rw [List.length_set] at hu hu'
      rw [hs.count, hu] at hu'
      cases hu'
      rw [List.getElem?_map] at hu
      obtain ⟨p, -, rfl⟩ := Option.map_eq_some_iff.mp hu
      exact .refl_peer hC p

theorem sys_run_alike (hC : C.Lawful) {acts acts' : List (Nat × Answer C)} (h : OtherKeys acts acts') {s s' : Sys C}
    (hs : SysAlike s s') (timeout : Nat) :
    SysAlike (s.run (inMemory C) timeout acts) (s'.run (inMemory C) timeout acts') := by
  induction h generalizing s s' with
  | nil => exact hs
  | cons ha _ ih => exact ih (sys_step_alike hC ha hs timeout _)

theorem sys_start_alike (ttl closers : Nat) : SysAlike (Sys.start (C := C) ttl closers) (Sys.start ttl closers) := by
  refine ⟨rfl, rfl, ?_⟩
  intro i t t' ht ht'
  rw [ht] at ht'
  cases ht'
  have hrep : ∀ body : SProg C Bool, Uses SOp.keyFree body →
      ThreadAlike (Thread.repeating body) (Thread.repeating body) := fun body hb =>
    ⟨.refl_none, ⟨.inl rfl, .of_uses hb⟩, ⟨rfl, .of_uses hb⟩, ⟨rfl, trivial⟩⟩
  have hm := List.mem_of_getElem? ht
  simp only [Sys.start, List.mem_append, List.mem_cons, List.not_mem_nil, or_false] at hm
  rcases hm with ((rfl | rfl) | hm) | hm
  · refine hrep _ ⟨trivial, fun closed => ?_⟩
    cases closed with
    | true => trivial
    | false => exact ⟨trivial, fun accepted => by rcases accepted with _ | p <;> simp [Uses, SOp.keyFree]⟩
  · refine hrep _ ⟨trivial, fun closed => ?_⟩
    cases closed with
    | true => trivial
    | false => exact ⟨trivial, fun accepted => by rcases accepted with _ | p <;> simp [Uses, SOp.keyFree]⟩
  · split at hm
    · rw [List.mem_singleton] at hm
      subst hm
      refine hrep _ ⟨trivial, fun key => ⟨trivial, fun value => ?_⟩⟩
      rcases value with _ | ⟨r, t⟩
      · trivial
      · refine ⟨trivial, fun t => ?_⟩
        dsimp only
        split
        · exact ⟨trivial, fun _ => trivial⟩
        · trivial
    · cases hm
  · obtain ⟨-, rfl⟩ := List.mem_replicate.mp hm
    refine ⟨.refl_none, ⟨.inl rfl, .of_uses ⟨trivial, fun ok => ?_⟩⟩, ⟨rfl, trivial⟩, ⟨rfl, trivial⟩⟩
    cases ok with
    | true => exact ⟨trivial, fun _ => ⟨trivial, fun _ => trivial⟩⟩
    | false => trivial

end

end Goe2ee
