import Verif.Spec.Veil
import Verif.Props.Codec
import Verif.Props.Nonce
import Verif.Proofs.Safe
import Verif.Proofs.LongTermKey

/-!
# What depends on the replies of the application
-/

set_option autoImplicit false

namespace Goe2ee

section
variable {C : Crypto}

/-! ## Octets -/

theorem VeiledMessage.length (hC : C.Lawful) {m m' : Bytes} (h : VeiledMessage C m m') : m.length = m'.length := by
  cases h with
  | same => rfl
  | reply counter key text text' h =>
    simp only [Wire.processResponse, Wire.be64, List.length_append, List.length_cons, List.length_nil, hC.seal_length, h]

theorem VeiledOctets.length (hC : C.Lawful) {o o' : Bytes} (h : VeiledOctets C o o') : o.length = o'.length := by
  induction h with
  | nil => rfl
  | append n _ hm ih => simp [ih, hm.length hC]

theorem VeiledOctets.empty (hC : C.Lawful) {o o' : Bytes} (h : VeiledOctets C o o') : o = [] ↔ o' = [] := by
  rw [← List.length_eq_zero_iff, h.length hC, List.length_eq_zero_iff]

theorem VeiledDatagrams.concat {l l' : List Bytes} {o o' : Bytes} (h : VeiledDatagrams C l l')
    (ho : VeiledOctets C o o') : VeiledDatagrams C (l ++ [o]) (l' ++ [o']) := by
  refine ⟨by simp [h.1], ?_⟩
  rw [List.zip_append h.1]
  intro d hd
  rcases List.mem_append.mp hd with hd | hd
  · exact h.2 d hd
  · simp only [List.zip_cons_cons, List.zip_nil_right, List.mem_singleton] at hd
    subst hd
    exact ho

theorem map_zero {α : Type} (l : List α) (l' : List α) (h : l.length = l'.length) :
    l.map (fun _ => (0 : Byte)) = l'.map fun _ => 0 := by
  rw [List.map_const', List.map_const', h]

theorem OtherResult.veil {r r' : HRes} (h : OtherResult r r') : r'.veil = r.veil := by
  cases h with
  | reply text text' h => exact congrArg HRes.reply (map_zero _ _ h.symm)
  | error => rfl
  | panic => rfl

/-! ## Programs -/

/-- The same program, or one about to encrypt or write another reply of the same length. -/
inductive Veil {α : Type} : SProg C α → SProg C α → Prop where
  | same (p : SProg C α) : Veil p p
  | panic (m m' : String) : Veil (.panic m) (.panic m')
  | write {bs bs' : Bytes} (k : Nat × Option Err → SProg C α) : VeiledMessage C bs bs' →
    Veil (.op (.write bs) k) (.op (.write bs') k)
  | aead (r : Ref) (key nonce text text' : Bytes) (k : Bytes → SProg C α) : text.length = text'.length →
    Veil (k (C.aeadSeal key nonce text)) (k (C.aeadSeal key nonce text')) →
    Veil (.op (.aead r key nonce text) k) (.op (.aead r key nonce text') k)

/-- The results of the application are used for replies only. -/
def ReplyBlind {α : Type} : SProg C α → Prop
  | .ret _ => True
  | .panic _ => True
  | .op (.invoke _ _ _ _ _) k => (∀ r, ReplyBlind (k r)) ∧ ∀ r r' : HRes, OtherResult r r' → Veil (k r) (k r')
  | .op _ k => ∀ r, ReplyBlind (k r)

theorem ReplyBlind.next {α : Type} {o : SOp} {k : SOp.Ret C o → SProg C α} (h : ReplyBlind (.op o k))
    (r : SOp.Ret C o) : ReplyBlind (k r) := by
  cases o <;> first | exact h r | exact h.1 r

/-- Programs that do not call the application. -/
def SOp.appFree : SOp → Prop
  | .invoke _ _ _ _ _ => False
  | _ => True

theorem ReplyBlind.of_uses {α : Type} {p : SProg C α} (h : Uses SOp.appFree p) : ReplyBlind p := by
  induction p with
  | ret a => trivial
  | panic m => trivial
  | op o k ih => cases o <;> first | exact h.1.elim | exact fun r => ih r (h.2 r)

theorem Veil.bind {α β : Type} {p p' : SProg C α} (h : Veil p p') (f : α → SProg C β) :
    Veil (p.bind f) (p'.bind f) := by
  induction h with
  | same p => exact .same _
  | panic m m' => exact .panic m m'
  | write k h => exact .write _ h
  | aead r key nonce text text' k h _ ih => exact .aead r key nonce text text' _ h ih

theorem ReplyBlind.bind {α β : Type} {p : SProg C α} {f : α → SProg C β} (h : ReplyBlind p)
    (hf : ∀ a, ReplyBlind (f a)) : ReplyBlind (p.bind f) := by
  induction p with
  | ret a => exact hf a
  | panic m => trivial
  | op o k ih =>
    cases o
    case invoke => exact ⟨fun r => ih r (h.1 r), fun r r' hr => (h.2 r r' hr).bind f⟩
    all_goals exact fun r => ih r (h r)

/-! ## The server's programs -/

theorem ReplyBlind.onConn {α : Type} (p : RProg α) : ReplyBlind (C := C) (onConn p) :=
  .of_uses ((uses_onConn p).mono fun o h => by cases o <;> first | trivial | exact h.elim)

theorem ReplyBlind.ofRes {α : Type} (r : Res α) : ReplyBlind (C := C) (ofRes r) := by
  cases r <;> trivial

theorem replyBlind_writeError (bs : Bytes) : ReplyBlind (C := C) (writeErrorResponse bs) := by
  rintro ⟨n, e⟩
  cases e with
  | none => dsimp only; split <;> trivial
  | some e => trivial

theorem replyBlind_fail (code : ErrorCode) (text : String) : ReplyBlind (C := C) (failWith code text) :=
  (replyBlind_writeError _).bind fun ok => by cases ok <;> trivial

theorem replyBlind_respond (bs : Bytes) : ReplyBlind (C := C) (respondWith bs) := by
  refine ReplyBlind.bind ?_ fun ok => by cases ok <;> trivial
  rintro ⟨n, e⟩
  cases e with
  | none => dsimp only; split <;> trivial
  | some e =>
    dsimp only
    split
    · trivial
    · split
      · trivial
      · exact replyBlind_writeError _

theorem replyBlind_setup (host : Except Err Bytes) (common : RequestCommon) :
    ReplyBlind (setupHandler (inMemory C) host common) := by
  refine (ReplyBlind.onConn _).bind fun parsed => ?_
  rcases parsed with _ | request
  · exact replyBlind_fail _ _
  rintro (_ | serverKey)
  · exact replyBlind_fail _ _
  dsimp only
  split
  · exact replyBlind_fail _ _
  split
  · exact replyBlind_fail _ _
  intro session
  refine ReplyBlind.bind (f := _) (fun _ _ => trivial) fun stored => ?_
  rcases stored with _ | ⟨⟩
  · exact replyBlind_fail _ _
  rintro (_ | signature)
  · exact replyBlind_fail _ _
  · exact (ReplyBlind.ofRes _).bind fun _ => replyBlind_respond _

theorem veil_respond (hC : C.Lawful) (counter : BitVec 64) (key nonce text text' : Bytes)
    (hn : nonce = Wire.nonce12 1 counter.toNat) (h : text.length = text'.length) (hl : text.length < 2 ^ 63) :
    Veil (C := C) (respondWith (newProcessResponse counter (C.aeadSeal key nonce text)).bytes)
      (respondWith (newProcessResponse counter (C.aeadSeal key nonce text')).bytes) := by
  subst hn
  have hv := VeiledMessage.reply (C := C) counter key text text' h
  rw [← C05_process_response_layout _ _ (by rw [hC.seal_length]; omega),
    ← C05_process_response_layout _ _ (by rw [hC.seal_length]; omega)] at hv
  have hlen := hv.length hC
  generalize (newProcessResponse counter (C.aeadSeal key (Wire.nonce12 1 counter.toNat) text)).bytes = bs at *
  generalize (newProcessResponse counter (C.aeadSeal key (Wire.nonce12 1 counter.toNat) text')).bytes = bs' at *
  have he : respondWith (C := C) bs' = .op (.write bs') (fun (r : Nat × Option Err) =>
      Prog.bind (match r with
        | (n, none) => if n ≠ bs.length then .ret false else .ret true
        | (n, some err) =>
          if err.isDeadline then .ret false
          else if n > 0 then .ret false
          else writeErrorResponse (errorBytes codeServerError "failed to send back action response"))
        fun ok => if ok then .ret none else .ret (some .shortWrite)) := by
    rw [hlen]; rfl
  rw [he]
  exact .write _ hv

theorem replyBlind_run (hC : C.Lawful) (session : Ref) (host : Bytes) (request : ProcessRequest) (gcm message : Bytes) :
    ReplyBlind (runHandler session host request gcm message : SProg C (Option Err)) := by
  refine ⟨?_, ?_⟩
  · intro handled
    cases handled with
    | panic m => trivial
    | error e => exact replyBlind_fail _ _
    | reply written =>
      dsimp only
      split
      · exact (ReplyBlind.ofRes _).bind fun _ _ => replyBlind_respond _
      · trivial
  · intro r r' h
    cases h with
    | error => exact .same _
    | panic => exact .panic _ _
    | reply text text' h hl =>
      dsimp only
      split
      · rw [show gcmNonceSize = 12 from rfl, C12_nonce_layout]
        exact .aead session gcm _ text text' _ h (veil_respond hC _ _ _ _ _ rfl h hl)
      · exact .same _

theorem replyBlind_process (hC : C.Lawful) (host : Except Err Bytes) (common : RequestCommon) :
    ReplyBlind (processHandler (inMemory C) host common) := by
  refine (ReplyBlind.onConn _).bind fun parsed => ?_
  rcases parsed with _ | request
  · exact replyBlind_fail _ _
  dsimp only
  split
  · exact replyBlind_fail _ _
  refine ReplyBlind.bind (f := _) ?_ fun loaded => ?_
  · intro value
    rcases value with _ | ⟨session, t⟩
    · trivial
    · exact fun _ _ => trivial
  rcases loaded with _ | session
  · exact replyBlind_fail _ _
  intro fresh
  dsimp only
  split
  case isFalse => exact replyBlind_fail _ _
  intro secret
  dsimp only
  split
  · exact replyBlind_fail _ _
  split
  · exact replyBlind_fail _ _
  split
  · exact replyBlind_fail _ _
  refine (ReplyBlind.ofRes _).bind fun nonce => ?_
  split
  · exact replyBlind_fail _ _
  exact replyBlind_run hC _ _ _ _ _

theorem replyBlind_fetchKey : ReplyBlind (fetchKeyHandler (C := C)) := by
  rintro (_ | ⟨algorithm, key⟩)
  · exact replyBlind_fail _ _
  · dsimp only
    split
    · exact replyBlind_fail _ _
    · exact replyBlind_respond _

theorem replyBlind_serve (hC : C.Lawful) (host : Except Err Bytes) : ReplyBlind (serveRequest (inMemory C) host) := by
  refine (ReplyBlind.onConn _).bind fun parsed => ?_
  rcases parsed with _ | common
  · trivial
  dsimp only
  split
  · trivial
  refine ReplyBlind.bind ?_ fun e => by cases e <;> trivial
  unfold handle
  split
  · exact replyBlind_respond _
  split
  · exact replyBlind_setup _ _
  split
  · exact replyBlind_process hC _ _
  split
  · exact replyBlind_fetchKey
  · trivial

/-! ## Goroutines -/

/-- Two connections that differ in the replies written. -/
structure ConnVeiled (C : Crypto) (c c' : Conn) : Prop where
  input : c'.input = c.input
  buffered : c'.buffered = c.buffered
  deadline : c'.deadline = c.deadline
  closed : c'.closed = c.closed
  output : VeiledOctets C c.output c'.output
  sent : VeiledDatagrams C c.sent c'.sent

/-- Two states that differ in what the application replied. -/
def WorldVeiled (w w' : World) : Prop := w' = { w with log := w'.log } ∧ w'.log.map Event.veil = w.log.map Event.veil

/-- Two goroutines of servers that differ in what the application replies. -/
structure ThreadVeiled (t t' : Thread C) : Prop where
  conn : ConnVeiled C t.conn t'.conn
  prog : Veil t.prog t'.prog ∧ ReplyBlind t.prog
  loop : t'.loop = t.loop ∧ ReplyBlind t.loop
  deferred : t'.deferred = t.deferred ∧ ReplyBlind t.deferred

theorem ConnVeiled.refl_none : ConnVeiled C .none .none := ⟨rfl, rfl, rfl, rfl, .nil, rfl, by simp [Conn.none]⟩

theorem ConnVeiled.refl_peer (p : Peer) : ConnVeiled C (.ofPeer p) (.ofPeer p) := by
  cases p <;> exact ⟨rfl, rfl, rfl, rfl, .nil, rfl, by simp [Conn.ofPeer, Conn.none]⟩

theorem write_veiled (hC : C.Lawful) {a a' : Answer C} (h : OtherReply a a') {c c' : Conn} (hc : ConnVeiled C c c')
    {bs bs' : Bytes} (hm : VeiledMessage C bs bs') {w w' : World} (hw : WorldVeiled w w') :
    (execWrite C a' bs' c' w').1 = (execWrite C a bs c w).1 ∧
    WorldVeiled (execWrite C a bs c w).2.2 (execWrite C a' bs' c' w').2.2 ∧
    ConnVeiled C (execWrite C a bs c w).2.1 (execWrite C a' bs' c' w').2.1 := by
  obtain ⟨input, output, writes, sent, buffered, deadline, closed⟩ := c
  obtain ⟨input', output', writes', sent', buffered', deadline', closed'⟩ := c'
  obtain ⟨h1, h2, h3, h4, ho, hsent⟩ := hc
  dsimp only at h1 h2 h3 h4 ho hsent
  subst h1 h2 h3 h4
  obtain ⟨-, ha⟩ := h
  obtain ⟨hw1, hw2⟩ := hw
  generalize a'.handle = h' at ha
  generalize w'.log = l' at *
  subst ha hw1
  have hlen := hm.length hC
  unfold execWrite
  dsimp only
  rw [← hlen]
  cases buffered' with
  | true => exact ⟨rfl, ⟨rfl, hw2⟩, rfl, rfl, rfl, rfl, .append _ ho hm, hsent⟩
  | false =>
    cases deadline' with
    | none => exact ⟨rfl, ⟨rfl, hw2⟩, rfl, rfl, rfl, rfl, .append _ ho hm, hsent⟩
    | some d =>
      by_cases he : d < w.now + a.tick
      · simp only [Bool.false_eq_true, if_false, if_pos he]
        exact ⟨by trivial, ⟨rfl, hw2⟩, rfl, rfl, rfl, rfl, .append _ ho hm, hsent⟩
      · simp only [Bool.false_eq_true, if_false, if_neg he]
        exact ⟨by trivial, ⟨rfl, hw2⟩, rfl, rfl, rfl, rfl, .append _ ho hm, hsent⟩

/-- An effect that does not call the application. -/
theorem exec_veiled (hC : C.Lawful) {a a' : Answer C} (h : OtherReply a a') {c c' : Conn} (hc : ConnVeiled C c c')
    (timeout : Nat) {w w' : World} (hw : WorldVeiled w w') (o : SOp) (ho : o.appFree) :
    (exec C timeout a' o (c', w')).1 = (exec C timeout a o (c, w)).1 ∧
    WorldVeiled (exec C timeout a o (c, w)).2.2 (exec C timeout a' o (c', w')).2.2 ∧
    ConnVeiled C (exec C timeout a o (c, w)).2.1 (exec C timeout a' o (c', w')).2.1 := by
  cases o with
  | invoke => exact ho.elim
  | write bs => exact write_veiled hC h hc (.same bs) hw
  | read o =>
    have hr : ∀ (a : Answer C) (c : Conn) (w : World), exec C timeout a (.read o) (c, w) =
        ((readInterp readEv o c.input).1, ({ c with input := (readInterp readEv o c.input).2 }, w)) := fun _ _ _ => rfl
    rw [hr, hr, hc.input]
    exact ⟨rfl, hw, rfl, hc.buffered, hc.deadline, hc.closed, hc.output, hc.sent⟩
  | _ =>
    obtain ⟨input, output, writes, sent, buffered, deadline, closed⟩ := c
    obtain ⟨input', output', writes', sent', buffered', deadline', closed'⟩ := c'
    obtain ⟨h1, h2, h3, h4, ho, hsent⟩ := hc
    dsimp only at h1 h2 h3 h4 ho hsent
    subst h1 h2 h3 h4
    have hempty := ho.empty hC
    obtain ⟨-, ha⟩ := h
    obtain ⟨hw1, hw2⟩ := hw
    generalize a'.handle = h' at ha
    generalize w'.log = l' at *
    subst ha hw1
    first
      | exact ⟨rfl, ⟨rfl, hw2⟩, rfl, rfl, rfl, rfl, ho, hsent⟩
      | exact ⟨rfl, ⟨rfl, by simp [exec, hw2]⟩, rfl, rfl, rfl, rfl, ho, hsent⟩
      | (simp only [exec]
         split <;> first
           | exact ⟨rfl, ⟨rfl, hw2⟩, rfl, rfl, rfl, rfl, ho, hsent⟩
           | exact ⟨rfl, ⟨rfl, by dsimp only; split <;> simp [hw2]⟩, rfl, rfl, rfl, rfl, ho, hsent⟩)
      | (simp only [exec, hempty]
         split
         · exact ⟨rfl, ⟨rfl, hw2⟩, rfl, rfl, rfl, rfl, ho, hsent⟩
         · exact ⟨rfl, ⟨rfl, hw2⟩, rfl, rfl, rfl, rfl, .nil, hsent.concat ho⟩)

/-- One step of a goroutine. -/
theorem step_veiled (hC : C.Lawful) {a a' : Answer C} (h : OtherReply a a') {t t' : Thread C} (ht : ThreadVeiled t t')
    (timeout : Nat) {w w' : World} (hw : WorldVeiled w w') :
    ThreadVeiled (t.step timeout a w).1 (t'.step timeout a' w').1 ∧
      WorldVeiled (t.step timeout a w).2 (t'.step timeout a' w').2 := by
  obtain ⟨hc, ⟨hp, hk⟩, hl, hd⟩ := ht
  obtain ⟨conn, prog, loop, deferred⟩ := t
  obtain ⟨conn', prog', loop', deferred'⟩ := t'
  obtain ⟨hl1, hl2⟩ := hl
  obtain ⟨hd1, hd2⟩ := hd
  dsimp only at hc hp hk hl1 hl2 hd1 hd2
  subst hl1 hd1
  have hen : ∀ o : SOp, enabled w' o = enabled w o := by
    intro o
    rw [hw.1]
    cases o <;> rfl
  cases hp with
  | same prog =>
    cases prog with
    | ret b =>
      cases b with
      | true => exact ⟨⟨hc, ⟨.same _, hl2⟩, ⟨rfl, hl2⟩, ⟨rfl, hd2⟩⟩, hw⟩
      | false => exact ⟨⟨hc, ⟨.same _, hd2⟩, ⟨rfl, trivial⟩, ⟨rfl, trivial⟩⟩, hw⟩
    | panic m => exact ⟨⟨hc, ⟨.same _, hd2⟩, ⟨rfl, trivial⟩, ⟨rfl, trivial⟩⟩, hw⟩
    | op o k =>
      simp only [Thread.step, hen]
      split
      case isFalse => exact ⟨⟨hc, ⟨.same _, hk⟩, ⟨rfl, hl2⟩, ⟨rfl, hd2⟩⟩, hw⟩
      by_cases ho : o.appFree
      · obtain ⟨e1, e2, e3⟩ := exec_veiled hC h hc timeout hw o ho
        refine ⟨⟨e3, ⟨?_, hk.next _⟩, ⟨rfl, hl2⟩, ⟨rfl, hd2⟩⟩, e2⟩
        dsimp only
        rw [e1]
        exact .same _
      · cases o with
        | invoke r counter host id message =>
          refine ⟨⟨hc, ⟨hk.2 _ _ h.1, hk.1 _⟩, ⟨rfl, hl2⟩, ⟨rfl, hd2⟩⟩, ?_, ?_⟩
          · have h1 := h.2
            have h2 := hw.1
            generalize a'.handle = x at h1
            generalize w'.log = l at h2
            subst h1 h2
            rfl
          · simp only [exec, List.map_append, hw.2, List.map_cons, Event.veil, h.1.veil]
        | _ => exact absurd trivial ho
  | panic m m' => exact ⟨⟨hc, ⟨.same _, hd2⟩, ⟨rfl, trivial⟩, ⟨rfl, trivial⟩⟩, hw⟩
  | write k hm =>
    obtain ⟨e1, e2, e3⟩ := write_veiled hC h hc hm hw
    have hstep : ∀ (a : Answer C) (c : Conn) (bs : Bytes) (k : Nat × Option Err → SProg C Bool) (l d : SProg C Bool)
        (w : World), Thread.step timeout a ⟨c, .op (.write bs) k, l, d⟩ w =
          (⟨(execWrite C a bs c w).2.1, k (execWrite C a bs c w).1, l, d⟩, (execWrite C a bs c w).2.2) :=
      fun _ _ _ _ _ _ _ => rfl
    rw [hstep, hstep]
    refine ⟨⟨e3, ⟨?_, hk _⟩, ⟨rfl, hl2⟩, ⟨rfl, hd2⟩⟩, e2⟩
    dsimp only
    rw [e1]
    exact .same _
  | aead r key nonce text text' k ht hv =>
    refine ⟨⟨hc, ⟨hv, hk _⟩, ⟨rfl, hl2⟩, ⟨rfl, hd2⟩⟩, ?_, ?_⟩
    · have h2 := hw.1
      generalize w'.log = l at h2
      subst h2
      rfl
    · simp only [Thread.step, enabled, if_true, exec, List.map_append, hw.2, List.map_cons, Event.veil,
        map_zero _ _ ht]

/-! ## The server -/

/-- Two servers in the same state, except for what the application replied. -/
structure SysVeiled (s s' : Sys C) : Prop where
  world : WorldVeiled s.world s'.world
  count : s'.threads.length = s.threads.length
  threads : ∀ (i : Nat) (t t' : Thread C), s.threads[i]? = some t → s'.threads[i]? = some t' → ThreadVeiled t t'

theorem ThreadVeiled.refl_peer (hC : C.Lawful) (p : Peer) :
    ThreadVeiled (Thread.ofPeer (inMemory C) p) (Thread.ofPeer (inMemory C) p) := by
  cases p with
  | tcp host input =>
    have hpass : ReplyBlind (connPass (inMemory C) host) := by
      intro closed
      dsimp only
      split
      · trivial
      · exact fun _ => replyBlind_serve hC host
    exact ⟨.refl_peer (.tcp host input), ⟨.same _, hpass⟩, ⟨rfl, hpass⟩, ⟨rfl, fun _ _ => trivial⟩⟩
  | udp host datagram =>
    exact ⟨.refl_peer (.udp host datagram), ⟨.same _, fun _ => (replyBlind_serve hC host).bind fun _ => trivial⟩,
      ⟨rfl, trivial⟩, ⟨rfl, fun _ => trivial⟩⟩

theorem sys_step_veiled (hC : C.Lawful) {a a' : Answer C} (h : OtherReply a a') {s s' : Sys C} (hs : SysVeiled s s')
    (timeout i : Nat) :
    SysVeiled (s.step (inMemory C) timeout (i, a)) (s'.step (inMemory C) timeout (i, a')) := by
  unfold Sys.step
  dsimp only
  cases hi : s.threads[i]? with
  | none =>
    have hi' : s'.threads[i]? = none := by
      rw [List.getElem?_eq_none_iff] at hi ⊢
      rw [hs.count]; exact hi
    rw [hi']
    exact hs
  | some t =>
    have hlt := (List.getElem?_eq_some_iff.mp hi).1
    have hlt' : i < s'.threads.length := by rw [hs.count]; exact hlt
    have hi' : s'.threads[i]? = some s'.threads[i] := List.getElem?_eq_getElem hlt'
    rw [hi']
    dsimp only
    obtain ⟨h1, h2⟩ := step_veiled hC h (hs.threads i _ _ hi hi') timeout hs.world
    have hsp : ∀ w w' : World, WorldVeiled w w' → w'.spawned = w.spawned ∧
        WorldVeiled { w with spawned := [] } { w' with spawned := [] } := by
      intro w w' hw
      obtain ⟨hw1, hw2⟩ := hw
      generalize w'.log = l at *
      subst hw1
      exact ⟨rfl, rfl, hw2⟩
    obtain ⟨h3, h4⟩ := hsp _ _ h2
    rw [h3]
    refine ⟨h4, by simp [hs.count], ?_⟩
    intro j u u' hu hu'
    by_cases hj : j < s.threads.length
    · rw [List.getElem?_append_left (by simpa using hj)] at hu
      rw [List.getElem?_append_left (by rw [List.length_set, hs.count]; exact hj)] at hu'
      by_cases hij : i = j
      · subst hij
        rw [List.getElem?_set_self hj] at hu
        rw [List.getElem?_set_self (by rw [hs.count]; exact hj)] at hu'
        cases hu
        cases hu'
        exact h1
      · rw [List.getElem?_set_ne hij] at hu hu'
        exact hs.threads j u u' hu hu'
    · rw [List.getElem?_append_right (by simpa using hj)] at hu
      rw [List.getElem?_append_right (by rw [List.length_set, hs.count]; omega)] at hu'
      rw [List.length_set] at hu hu'
      rw [hs.count, hu] at hu'
      cases hu'
      rw [List.getElem?_map] at hu
      obtain ⟨p, -, rfl⟩ := Option.map_eq_some_iff.mp hu
      exact .refl_peer hC p

theorem sys_run_veiled (hC : C.Lawful) {acts acts' : List (Nat × Answer C)} (h : OtherReplies acts acts') {s s' : Sys C}
    (hs : SysVeiled s s') (timeout : Nat) :
    SysVeiled (s.run (inMemory C) timeout acts) (s'.run (inMemory C) timeout acts') := by
  induction h generalizing s s' with
  | nil => exact hs
  | cons ha _ ih => exact ih (sys_step_veiled hC ha hs timeout _)

theorem sys_start_veiled (ttl closers : Nat) : SysVeiled (Sys.start (C := C) ttl closers) (Sys.start ttl closers) := by
  refine ⟨⟨rfl, rfl⟩, rfl, ?_⟩
  intro i t t' ht ht'
  rw [ht] at ht'
  cases ht'
  have hrep : ∀ body : SProg C Bool, Uses SOp.appFree body →
      ThreadVeiled (Thread.repeating body) (Thread.repeating body) := fun body hb =>
    ⟨.refl_none, ⟨.same _, .of_uses hb⟩, ⟨rfl, .of_uses hb⟩, ⟨rfl, trivial⟩⟩
  have hm := List.mem_of_getElem? ht
  simp only [Sys.start, List.mem_append, List.mem_cons, List.not_mem_nil, or_false] at hm
  rcases hm with ((rfl | rfl) | hm) | hm
  · refine hrep _ ⟨trivial, fun closed => ?_⟩
    cases closed with
    | true => trivial
    | false => exact ⟨trivial, fun accepted => by rcases accepted with _ | p <;> simp [Uses, SOp.appFree]⟩
  · refine hrep _ ⟨trivial, fun closed => ?_⟩
    cases closed with
    | true => trivial
    | false => exact ⟨trivial, fun accepted => by rcases accepted with _ | p <;> simp [Uses, SOp.appFree]⟩
  · split at hm
    · rw [List.mem_singleton] at hm
      subst hm
      refine hrep _ ⟨trivial, fun key => ⟨trivial, fun value => ?_⟩⟩
      rcases value with _ | ⟨r, t⟩
      · trivial
      · refine ⟨trivial, fun t => ?_⟩
        dsimp only
        split
        · exact ⟨trivial, fun _ => trivial⟩
        · trivial
    · cases hm
  · obtain ⟨-, rfl⟩ := List.mem_replicate.mp hm
    refine ⟨.refl_none, ⟨.same _, .of_uses ⟨trivial, fun ok => ?_⟩⟩, ⟨rfl, trivial⟩, ⟨rfl, trivial⟩⟩
    cases ok with
    | true => exact ⟨trivial, fun _ => ⟨trivial, fun _ => trivial⟩⟩
    | false => trivial

end

end Goe2ee
