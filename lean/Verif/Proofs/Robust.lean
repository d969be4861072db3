import Verif.Proofs.Seq
import Verif.Proofs.Parsers

/-!
# Panics, progress and logs of one goroutine
-/

set_option autoImplicit false

namespace Goe2ee

/-! ## Panics -/

/-- The program never panics, whatever its effects return. -/
def NoPanic {S : Sig} {α : Type} : Prog S α → Prop
  | .ret _ => True
  | .panic _ => False
  | .op _ k => ∀ r, NoPanic (k r)

theorem NoPanic.bind {S : Sig} {α β : Type} {p : Prog S α} {f : α → Prog S β} (hp : NoPanic p)
    (hf : ∀ a, NoPanic (f a)) : NoPanic (p.bind f) := by
  induction p with
  | ret a => exact hf a
  | panic m => exact hp.elim
  | op o k ih => exact fun r => ih r (hp r)

theorem NoPanic.readField {α : Type} {n : Nat} {w : String} {k : Bytes → RProg (Except Err α)}
    (hk : ∀ bs, NoPanic (k bs)) : NoPanic (readField n w k) := by
  intro r
  cases r with
  | ok bs => exact hk bs
  | error e => cases e <;> exact trivial

theorem NoPanic.readOctet {α : Type} {w : String} {k : Byte → RProg (Except Err α)}
    (hk : ∀ b, NoPanic (k b)) : NoPanic (readOctet w k) := by
  intro r
  dsimp only
  split
  · split
    · exact trivial
    · split
      · exact trivial
      · exact hk _
      · exact trivial
  · exact trivial
  · exact hk _
  · exact trivial

theorem NoPanic.ite {S : Sig} {α : Type} {c : Prop} [Decidable c] {p q : Prog S α}
    (hp : NoPanic p) (hq : NoPanic q) : NoPanic (if c then p else q) := by
  split <;> assumption

theorem NoPanic.requestCommon : NoPanic parseRequestCommon := .readOctet fun _ => trivial

theorem NoPanic.setupRequest (C : Crypto) (c : RequestCommon) : NoPanic (parseSetupRequest C c) :=
  .readField fun _ => .readField fun _ => .ite trivial fun _ => .readField fun _ => by
    unfold parseEPub
    split <;> exact trivial

theorem NoPanic.processRequest (c : RequestCommon) : NoPanic (parseProcessRequest c) :=
  .readOctet fun _ => .readField fun _ => .readField fun _ => .readField fun _ =>
    .ite trivial fun _ => .readField fun _ => trivial

theorem NoPanic.onConn {C : Crypto} {α : Type} {p : RProg α} (hp : NoPanic p) :
    NoPanic (onConn (C := C) p) := by
  unfold Goe2ee.onConn
  induction p with
  | ret a => exact trivial
  | panic m => exact hp
  | op o k ih => exact fun r => ih r (hp r)

section
variable {C : Crypto}

/-- The ghost state is the message with which the application handler panicked. -/
def panicA (C : Crypto) : Auto (SSig C) (Option String) where
  pre _ _ := True
  next
    | .invoke _ _ _ _ _, .panic m, _ => some m
    | _, _, g => g

/-- Effects other than calling the handler. -/
def SOp.notInvoke : SOp → Prop
  | .invoke _ _ _ _ _ => False
  | _ => True

/-- If it panics, the handler has panicked. -/
abbrev Handlers : String → Option String → Prop := fun m g => g = some m

theorem panicA_safe {α : Type} {p : SProg C α} (hu : Uses (S := SSig C) SOp.notInvoke p)
    (hp : NoPanic p) {g : Option String} {Q : α → Option String → Prop} (hQ : ∀ a, Q a g) :
    SafeE (panicA C) p g Q Handlers := by
  induction p with
  | ret a => exact hQ a
  | panic m => exact hp.elim
  | op o k ih =>
    refine ⟨trivial, fun r => ?_⟩
    have : (panicA C).next o r g = g := by
      cases o <;> first | rfl | exact hu.1.elim
    rw [this]
    exact ih r (hu.2 r) (hp r)

/-- A session manager that never panics. -/
structure Manager.Quiet (M : Manager C) : Prop where
  store : ∀ k r, NoPanic (M.store k r)
  load : ∀ k, NoPanic (M.load k)

theorem inMemory_quiet (C : Crypto) : (inMemory C).Quiet where
  store k r := fun _ _ => trivial
  load k := by
    intro v
    match v with
    | none => exact trivial
    | some (r, t) => exact fun _ _ => trivial

theorem NoPanic.writeError (bs : Bytes) : NoPanic (writeErrorResponse (C := C) bs) := by
  intro r
  rcases r with ⟨n, _ | e⟩
  · exact .ite trivial trivial
  · exact trivial

theorem NoPanic.failWith (code : ErrorCode) (text : String) :
    NoPanic (failWith (C := C) code text) :=
  (NoPanic.writeError _).bind fun _ => .ite trivial trivial

theorem NoPanic.respondWith (bs : Bytes) : NoPanic (respondWith (C := C) bs) := by
  refine NoPanic.bind ?_ fun _ => .ite trivial trivial
  intro r
  rcases r with ⟨n, _ | e⟩
  · exact .ite trivial trivial
  · exact .ite trivial (.ite trivial (.writeError _))

theorem isWrite_notInvoke (o : SOp) (h : o.isWrite) : o.notInvoke := by
  cases o <;> first | trivial | exact h.elim
theorem isRead_notInvoke (o : SOp) (h : o.isRead) : o.notInvoke := by
  cases o <;> first | trivial | exact h.elim
theorem isTable_notInvoke (o : SOp) (h : o.isTable) : o.notInvoke := by
  cases o <;> first | trivial | exact h.elim

abbrev AnyP {α : Type} : α → Option String → Prop := fun _ _ => True

theorem panic_failWith (code : ErrorCode) (text : String) (g : Option String) :
    SafeE (panicA C) (failWith code text) g AnyP Handlers :=
  panicA_safe ((uses_failWith code text).mono isWrite_notInvoke) (.failWith _ _) fun _ => trivial

theorem panic_respondWith (bs : Bytes) (g : Option String) :
    SafeE (panicA C) (respondWith bs) g AnyP Handlers :=
  panicA_safe ((uses_respondWith bs).mono isWrite_notInvoke) (.respondWith _) fun _ => trivial

theorem panic_setupParsed {M : Manager C} (hM : M.Passive) (hQ : M.Quiet) (host : Except Err Bytes)
    (request : SetupRequest C) : SafeE (panicA C) (setupParsed M host request) none AnyP Handlers := by
  unfold setupParsed
  refine ⟨trivial, fun (generated : Except Err C.EPriv) => ?_⟩
  rcases generated with _ | serverPrivateKey
  · exact panic_failWith _ _ _
  dsimp only
  split
  · exact panic_failWith _ _ _
  split
  · exact panic_failWith _ _ _
  refine ⟨trivial, fun session => ?_⟩
  refine SafeE.bind (panicA_safe ((hM.store _ _).mono isTable_notInvoke) (hQ.store _ _) fun stored => ?_)
  split
  · exact panic_failWith _ _ _
  refine ⟨trivial, fun (signed : Except Err Bytes) => ?_⟩
  rcases signed with _ | signature
  · exact panic_failWith _ _ _
  exact panic_respondWith _ _

theorem panic_processParsed {M : Manager C} (hM : M.Passive) (hQ : M.Quiet) (host : Except Err Bytes)
    (request : ProcessRequest) :
    SafeE (panicA C) (processParsed M host request) none AnyP Handlers := by
  unfold processParsed
  split
  · exact panic_failWith _ _ _
  refine SafeE.bind (panicA_safe ((hM.load _).mono isTable_notInvoke) (hQ.load _) fun loaded => ?_)
  split
  · exact panic_failWith _ _ _
  refine ⟨trivial, fun fresh => ?_⟩
  cases fresh with
  | false => exact panic_failWith _ _ _
  | true =>
    refine ⟨trivial, fun (secret : Bytes) => ?_⟩
    dsimp only
    split
    · exact panic_failWith _ _ _
    split
    · exact panic_failWith _ _ _
    split
    · exact panic_failWith _ _ _
    rw [show gcmNonceSize = 12 from rfl, C12_nonce_layout]
    dsimp only [ofRes, Prog.ret_bind]
    split
    · exact panic_failWith _ _ _
    unfold runHandler
    refine ⟨trivial, fun (handled : HRes) => ?_⟩
    rcases handled with written | e | m
    rotate_left
    · exact panic_failWith _ _ _
    · rfl
    dsimp only
    split
    · rw [show gcmNonceSize = 12 from rfl, C12_nonce_layout]
      refine ⟨trivial, fun sealed => ?_⟩
      exact panic_respondWith _ _
    · trivial

theorem panic_fetchKey : SafeE (panicA C) fetchKeyHandler none AnyP Handlers := by
  unfold fetchKeyHandler
  refine ⟨trivial, fun (fetched : Except Err (KeyAlgorithm × PublicKey)) => ?_⟩
  rcases fetched with _ | ⟨alg, pk⟩
  · exact panic_failWith _ _ _
  dsimp only
  split
  · exact panic_failWith _ _ _
  · exact panic_respondWith _ _

theorem panic_serveRequest {M : Manager C} (hM : M.Passive) (hQ : M.Quiet) (host : Except Err Bytes) :
    SafeE (panicA C) (serveRequest M host) none AnyP Handlers := by
  unfold serveRequest
  refine SafeE.bind (panicA_safe ((uses_onConn _).mono isRead_notInvoke)
    (NoPanic.onConn .requestCommon) fun parsed => ?_)
  rcases parsed with _ | common
  · trivial
  dsimp only
  split
  · trivial
  refine SafeE.bind (SafeE.mono (Q := AnyP) (E := Handlers) ?_ ?_ fun _ _ h => h)
  · unfold handle
    split
    · exact panic_respondWith _ _
    split
    · rw [setupHandler_eq]
      refine SafeE.bind (panicA_safe ((uses_onConn _).mono isRead_notInvoke)
        (NoPanic.onConn (.setupRequest C common)) fun parsed => ?_)
      rcases parsed with _ | request
      · exact panic_failWith _ _ _
      · exact panic_setupParsed hM hQ host request
    split
    · rw [processHandler_eq]
      refine SafeE.bind (panicA_safe ((uses_onConn _).mono isRead_notInvoke)
        (NoPanic.onConn (.processRequest common)) fun parsed => ?_)
      rcases parsed with _ | request
      · exact panic_failWith _ _ _
      · exact panic_processParsed hM hQ host request
    split
    · exact panic_fetchKey
    · trivial
  · intro err g _
    cases err <;> trivial

theorem panic_connPass {M : Manager C} (hM : M.Passive) (hQ : M.Quiet) (host : Except Err Bytes) :
    SafeE (panicA C) (connPass M host) none AnyP Handlers := by
  refine ⟨trivial, fun (closed : Bool) => ?_⟩
  cases closed with
  | true => trivial
  | false => exact ⟨trivial, fun _ => panic_serveRequest hM hQ host⟩

/-! ## The log only grows -/

/-- The events an effect logs. -/
theorem exec_log (timeout : Nat) (a : Answer C) (o : SOp) (c : Conn) (w : World) :
    ∃ l, (exec C timeout a o (c, w)).2.2.log = w.log ++ l ∧
      (∀ r cnt host id msg, o = .invoke r cnt host id msg →
        l = [.invoked r cnt host id msg a.handle]) ∧
      (o.notInvoke → ∀ r cnt host id msg res, Event.invoked r cnt host id msg res ∉ l) := by
  cases o with
  | check r cnt =>
    simp only [exec]
    split
    · exact ⟨[], by simp, by simp, by simp⟩
    · dsimp only
      split
      · exact ⟨_, rfl, by simp, by simp⟩
      · exact ⟨[], by simp, by simp, by simp⟩
  | newSession s h i => exact ⟨_, rfl, by simp, by simp⟩
  | aead r k n p => exact ⟨_, rfl, by simp, by simp⟩
  | closeReturned => exact ⟨_, rfl, by simp, by simp⟩
  | invoke r cnt host id msg =>
    refine ⟨_, rfl, ?_, fun h => h.elim⟩
    intro r' cnt' host' id' msg' h
    cases h
    rfl
  | write bs =>
    refine ⟨[], ?_, by simp, by simp⟩
    simp only [exec, execWrite]
    split
    · simp
    · split
      · split <;> simp
      · simp
  | flush =>
    refine ⟨[], ?_, by simp, by simp⟩
    simp only [exec]
    split <;> simp
  | _ => exact ⟨[], by simp [exec], by simp, by simp⟩

theorem seqI_log (timeout : Nat) (ans : Nat → Answer C) (o : SOp) (s : Seq) :
    ∃ l, (seqI C timeout ans o s).2.world.log = s.world.log ++ l ∧
      (∀ r cnt host id msg, o = .invoke r cnt host id msg →
        l = [.invoked r cnt host id msg (ans s.pos).handle]) ∧
      (o.notInvoke → ∀ r cnt host id msg res, Event.invoked r cnt host id msg res ∉ l) := by
  by_cases hr : o.isRead
  · cases o with
    | read o => exact ⟨[], by simp [seqI], by simp, by simp⟩
    | _ => exact hr.elim
  · rw [seqI_other _ _ _ hr]
    exact exec_log timeout _ o _ _

/-- What an effect appends to the recorded writes. -/
theorem seqI_writes (timeout : Nat) (ans : Nat → Answer C) (o : SOp) (ho : o ≠ .flush) (s : Seq) :
    ∃ ws, (seqI C timeout ans o s).2.conn.writes = s.conn.writes ++ ws ∧
      (seqI C timeout ans o s).2.conn.output = s.conn.output ++ accepted ws ∧
      (∀ bs, o = .write bs → ∃ r, ws = [(bs, r)]) ∧ ((∀ bs, o ≠ .write bs) → ws = []) := by
  obtain ⟨h1, h2⟩ := writes_follow timeout ans s.conn.writes s.conn.output o [] s
    (by cases o <;> first | trivial | (intro w hw; cases hw) | exact absurd rfl ho)
    ⟨by simp, by simp [accepted]⟩
  refine ⟨_, h1, h2, ?_, ?_⟩
  · rintro bs rfl
    exact ⟨_, rfl⟩
  · intro hw
    cases o with
    | write bs => exact absurd rfl (hw bs)
    | _ => rfl

/-- A panic that comes out of a pass comes from the application handler. -/
theorem run_panic {α : Type} {p : SProg C α} (hp : SafeE (panicA C) p none AnyP Handlers)
    (timeout : Nat) (ans : Nat → Answer C) (s : Seq) :
    ∃ l, (p.run (seqI C timeout ans) s).2.world.log = s.world.log ++ l ∧
      ∀ m, (p.run (seqI C timeout ans) s).1 = .panic m →
        ∃ r cnt host id msg, Event.invoked r cnt host id msg (.panic m) ∈ l := by
  obtain ⟨g, ⟨l, hl, hg⟩, hres⟩ := hp.run (seqI C timeout ans)
    (fun g s' => ∃ l, s'.world.log = s.world.log ++ l ∧
      ∀ m, g = some m → ∃ r cnt host id msg, Event.invoked r cnt host id msg (.panic m) ∈ l)
    (by
      rintro o g s' - ⟨l, hl, hg⟩
      obtain ⟨l', hl', hi, -⟩ := seqI_log timeout ans o s'
      refine ⟨l ++ l', by rw [hl', hl, List.append_assoc], ?_⟩
      intro m hm
      by_cases hinv : o.notInvoke
      · have : (panicA C).next o (seqI C timeout ans o s').1 g = g := by
          cases o <;> first | rfl | exact hinv.elim
        rw [this] at hm
        obtain ⟨r, cnt, host, id, msg, h⟩ := hg m hm
        exact ⟨r, cnt, host, id, msg, List.mem_append_left _ h⟩
      · cases o with
        | invoke r cnt host id msg =>
          have hl2 := hi r cnt host id msg rfl
          subst hl2
          have hm' : (panicA C).next (.invoke r cnt host id msg) (ans s'.pos).handle g = some m := hm
          rcases hh : (ans s'.pos).handle with w | e | m'
          · rw [hh] at hm'
            obtain ⟨r, cnt, host, id, msg, h⟩ := hg m hm'
            exact ⟨r, cnt, host, id, msg, List.mem_append_left _ h⟩
          · rw [hh] at hm'
            obtain ⟨r, cnt, host, id, msg, h⟩ := hg m hm'
            exact ⟨r, cnt, host, id, msg, List.mem_append_left _ h⟩
          · rw [hh] at hm'
            have : m' = m := by simpa [panicA] using hm'
            subst this
            exact ⟨r, cnt, host, id, msg, by simp⟩
        | _ => exact absurd trivial hinv)
    s ⟨[], by simp, by simp⟩
  refine ⟨l, hl, fun m hm => ?_⟩
  rw [hm] at hres
  exact hg m hres

/-! ## Progress -/

/-- What is left of the stream is a suffix of it. -/
theorem run_suffix {α : Type} (p : SProg C α) (timeout : Nat) (ans : Nat → Answer C) (s : Seq) :
    ∃ c, flatten s.conn.input = c ++ flatten (p.run (seqI C timeout ans) s).2.conn.input := by
  induction p generalizing s with
  | ret a => exact ⟨[], rfl⟩
  | panic m => exact ⟨[], rfl⟩
  | op o k ih =>
    obtain ⟨c2, h2⟩ := ih (seqI C timeout ans o s).1 (seqI C timeout ans o s).2
    have : ∃ c1, flatten s.conn.input = c1 ++ flatten (seqI C timeout ans o s).2.conn.input := by
      by_cases hr : o.isRead
      · cases o with
        | read o =>
          obtain ⟨c, hc⟩ := runI_suffix (.op o .ret : RProg _) (flatten s.conn.input)
          rw [← runEv_snd] at hc
          exact ⟨c, hc⟩
        | _ => exact hr.elim
      · refine ⟨[], ?_⟩
        rw [seqI_input _ _ _ (by cases o <;> first | trivial | exact absurd trivial hr)]
        rfl
    obtain ⟨c1, h1⟩ := this
    exact ⟨c1 ++ c2, by rw [List.append_assoc]; exact h1.trans (congrArg (c1 ++ ·) h2)⟩

/-- A pass after which the loop goes on has consumed something. -/
theorem pass_progress (M : Manager C) (timeout : Nat) (ans : Nat → Answer C) (host : Except Err Bytes)
    (s : Seq) (h : ((connPass M host).run (seqI C timeout ans) s).1 = .val true) :
    (flatten ((connPass M host).run (seqI C timeout ans) s).2.conn.input).length <
      (flatten s.conn.input).length := by
  have hq : s.world.quit = false := by
    cases hq : s.world.quit with
    | false => rfl
    | true =>
      have : (connPass M host).run (seqI C timeout ans) s = (.val false, { s with pos := s.pos + 1 }) := by
        show Prog.run _ (if s.world.quit then _ else _) _ = _
        rw [hq]
        rfl
      rw [this] at h
      cases h
  rw [run_connPass timeout ans M host s hq] at h ⊢
  rw [serveRequest_eq, Prog.run_bind] at h ⊢
  have hin : (s.ready timeout ans).conn.input = s.conn.input := rfl
  cases hf : flatten s.conn.input with
  | nil =>
    obtain ⟨evs, -, h2⟩ := run_onConn_of_runI (C := C) timeout ans (s := s.ready timeout ans)
      (p := parseRequestCommon) (r := .val (.error .unexpectedEOF)) (rest := []) (by
        rw [hin, hf]; rfl)
    rw [h2] at h
    cases h
  | cons x rest =>
    rcases x with b | e
    · obtain ⟨evs, h1, h2⟩ := run_onConn_of_runI (C := C) timeout ans (s := s.ready timeout ans)
        (p := parseRequestCommon) (rest := rest) (by
          rw [hin, hf]; exact runI_parseRequestCommon b rest)
      rw [h2] at h ⊢
      dsimp only at h ⊢
      obtain ⟨c, hc⟩ := run_suffix (C := C) (if (b &&& 0xF0#8) >>> 4 ≠ version1 then .ret false
        else (handle M host { version := (b &&& 0xF0#8) >>> 4, action := b &&& 0x0F#8 }).bind goOn)
        timeout ans { s.ready timeout ans with conn := { (s.ready timeout ans).conn with input := evs } }
      have hlen := congrArg List.length hc
      dsimp only at hlen
      rw [h1, List.length_append] at hlen
      simp only [List.length_cons]
      omega
    · have hfail : ∃ e', runI parseRequestCommon (flatten s.conn.input) = (.val (.error e'), rest) := by
        rw [hf]
        by_cases he : e = .eof
        · subst he
          exact ⟨.unexpectedEOF, rfl⟩
        · exact ⟨_, runI_readOctet_fail _ _ e rest he⟩
      obtain ⟨e', hfail⟩ := hfail
      obtain ⟨evs, -, h2⟩ := run_onConn_of_runI (C := C) timeout ans (s := s.ready timeout ans)
        (p := parseRequestCommon) (r := .val (.error e')) (rest := rest) hfail
      rw [h2] at h
      cases h

end

end Goe2ee
