import Verif.Proofs.Safe
import Verif.Proofs.Replay
import Verif.Spec.Session
import Verif.Props.Nonce

/-!
# Invariant of the interleaved server: handler calls and encryptions need a fresh counter each
-/

set_option autoImplicit false

namespace Goe2ee

/-! ## Counting in lists -/

theorem countP_set {α : Type} (p : α → Bool) (l : List α) (i : Nat) (a b : α) (h : l[i]? = some a) :
    (l.set i b).countP p + (if p a then 1 else 0) = l.countP p + (if p b then 1 else 0) := by
  induction l generalizing i with
  | nil => simp at h
  | cons x l ih =>
    cases i with
    | zero =>
      simp only [List.getElem?_cons_zero, Option.some.injEq] at h
      subst h
      simp only [List.set_cons_zero, List.countP_cons]
      omega
    | succ i =>
      simp only [List.getElem?_cons_succ] at h
      have := ih i h
      simp only [List.set_cons_succ, List.countP_cons]
      omega

theorem countP_pos_of_getElem? {α : Type} (p : α → Bool) (l : List α) (i : Nat) (a : α)
    (h : l[i]? = some a) (ha : p a = true) : 0 < l.countP p :=
  List.countP_pos_iff.mpr ⟨a, List.mem_of_getElem? h, ha⟩

theorem nodup_filterMap_of_countP {α β : Type} [DecidableEq β] (f : α → Option β) (l : List α)
    (h : ∀ b, l.countP (fun a => f a = some b) ≤ 1) : (l.filterMap f).Nodup := by
  rw [List.nodup_iff_count]
  intro b
  have : (l.filterMap f).count b = l.countP (fun a => f a = some b) := by
    induction l with
    | nil => rfl
    | cons x l ih =>
      have ih' := ih (fun b => by
        have := h b
        rw [List.countP_cons] at this
        omega)
      rw [List.countP_cons, List.filterMap_cons]
      split
      · rename_i hx
        simp [ih', hx]
      · rename_i y hx
        rw [List.count_cons, ih', hx]
        congr 1
        by_cases hy : y = b
        · subst hy; simp
        · simp [hy]
  rw [this]; exact h b

/-! ## The automaton -/

/-- What a goroutine may still do with the counter it had accepted, and the secret it has read. -/
structure Tok where
  call : Option (Ref × BitVec 64)
  sealing : Option (Ref × BitVec 64)
  sec : Option (Ref × Bytes)

def Tok.empty : Tok := ⟨none, none, none⟩

section
variable (C : Crypto)

/-- Calling the handler uses up the accepted counter, and so does encrypting; the message must have
been decrypted under the session's key. -/
def onceA : Auto (SSig C) Tok where
  pre
    | .invoke r c _ _ msg, g => g.call = some (r, c) ∧
        ∃ s key ct, g.sec = some (r, s) ∧ deriveKey C s kdfInfo aesKeySize = .ok key ∧
          C.aeadOpen key (Wire.nonce12 0 c.toNat) ct = some msg
    | .aead r key n _, g => ∃ c s, g.sealing = some (r, c) ∧ g.sec = some (r, s) ∧
        deriveKey C s kdfInfo aesKeySize = .ok key ∧ n = Wire.nonce12 1 c.toNat
    | .secretOf r, g => ∃ c, g.call = some (r, c)
    | _, _ => True
  next
    | .check r c, true, g => { g with call := some (r, c), sealing := some (r, c) }
    | .secretOf r, s, g => { g with sec := some (r, s) }
    | .invoke _ _ _ _ _, _, g => { g with call := none }
    | .aead _ _ _ _, _, g => { g with sealing := none }
    | _, _, g => g

variable {C}

/-! ## The server's programs respect the automaton -/

/-- Effects the automaton does not care about. -/
def SOp.isPlain : SOp → Prop
  | .invoke _ _ _ _ _ => False
  | .aead _ _ _ _ => False
  | .check _ _ => False
  | .secretOf _ => False
  | _ => True

theorem onceA_pre_plain (o : SOp) (g : Tok) (h : o.isPlain) : (onceA C).pre o g := by
  cases o <;> first | trivial | exact h.elim

theorem onceA_next_plain (o : SOp) (r : SOp.Ret C o) (g : Tok) (h : o.isPlain) :
    (onceA C).next o r g = g := by
  cases o <;> first | rfl | exact h.elim

theorem safe_plain {α : Type} {p : SProg C α} (hp : Uses (S := SSig C) SOp.isPlain p) {g : Tok}
    {Q : α → Tok → Prop} (hQ : ∀ a, Q a g) : Safe (onceA C) p g Q :=
  Safe.of_uses hp onceA_pre_plain onceA_next_plain hQ

theorem isRead_plain (o : SOp) (h : o.isRead) : o.isPlain := by cases o <;> first | trivial | exact h.elim
theorem isWrite_plain (o : SOp) (h : o.isWrite) : o.isPlain := by cases o <;> first | trivial | exact h.elim
theorem isTable_plain (o : SOp) (h : o.isTable) : o.isPlain := by cases o <;> first | trivial | exact h.elim

abbrev Any {α : Type} : α → Tok → Prop := fun _ _ => True

theorem safe_failWith (code : ErrorCode) (text : String) (g : Tok) :
    Safe (onceA C) (failWith code text) g Any :=
  safe_plain ((uses_failWith code text).mono isWrite_plain) fun _ => trivial

theorem safe_respondWith (bs : Bytes) (g : Tok) : Safe (onceA C) (respondWith bs) g Any :=
  safe_plain ((uses_respondWith bs).mono isWrite_plain) fun _ => trivial

theorem safe_setupHandler {M : Manager C} (hM : M.Passive) (host : Except Err Bytes)
    (common : RequestCommon) (g : Tok) : Safe (onceA C) (setupHandler M host common) g Any := by
  unfold setupHandler
  refine Safe.bind (safe_plain ((uses_onConn _).mono isRead_plain) fun parsed => ?_)
  split
  · exact safe_failWith _ _ _
  refine ⟨trivial, fun (generated : Except Err C.EPriv) => ?_⟩
  rcases generated with _ | serverPrivateKey
  · exact safe_failWith _ _ _
  dsimp only
  split
  · exact safe_failWith _ _ _
  split
  · exact safe_failWith _ _ _
  refine ⟨trivial, fun session => ?_⟩
  refine Safe.bind (safe_plain ((hM.store _ _).mono isTable_plain) fun stored => ?_)
  split
  · exact safe_failWith _ _ _
  refine ⟨trivial, fun (signed : Except Err Bytes) => ?_⟩
  rcases signed with _ | signature
  · exact safe_failWith _ _ _
  exact safe_respondWith _ _

theorem aesNewCipher_eq {key block : Bytes} (h : aesNewCipher key = .ok block) : block = key := by
  unfold aesNewCipher at h
  split at h
  · exact (Except.ok.inj h).symm
  · cases h

theorem safe_runHandler (session : Ref) (host : Bytes) (request : ProcessRequest)
    (secret key message : Bytes) (g : Tok)
    (hcall : g.call = some (session, request.counter))
    (hseal : g.sealing = some (session, request.counter))
    (hsec : g.sec = some (session, secret))
    (hkey : deriveKey C secret kdfInfo aesKeySize = .ok key)
    (hopen : C.aeadOpen key (Wire.nonce12 0 request.counter.toNat) request.message = some message) :
    Safe (onceA C) (runHandler session host request key message) g Any := by
  unfold runHandler
  refine ⟨⟨hcall, secret, key, request.message, hsec, hkey, hopen⟩, fun (handled : HRes) => ?_⟩
  rcases handled with written | e | m
  rotate_left
  · exact safe_failWith _ _ _
  · trivial
  dsimp only
  split
  · rw [show gcmNonceSize = 12 from rfl, C12_nonce_layout]
    refine ⟨⟨request.counter, secret, hseal, hsec, hkey, rfl⟩, fun sealed => ?_⟩
    exact safe_respondWith _ _
  · trivial

theorem safe_processHandler {M : Manager C} (hM : M.Passive) (host : Except Err Bytes)
    (common : RequestCommon) (g : Tok) : Safe (onceA C) (processHandler M host common) g Any := by
  unfold processHandler
  refine Safe.bind (safe_plain ((uses_onConn _).mono isRead_plain) fun parsed => ?_)
  split
  · exact safe_failWith _ _ _
  rename_i request
  split
  · exact safe_failWith _ _ _
  rename_i host
  refine Safe.bind (safe_plain ((hM.load _).mono isTable_plain) fun loaded => ?_)
  split
  · exact safe_failWith _ _ _
  rename_i session
  refine ⟨trivial, fun fresh => ?_⟩
  cases fresh with
  | false => exact safe_failWith _ _ _
  | true =>
    refine ⟨⟨_, rfl⟩, fun (secret : Bytes) => ?_⟩
    dsimp only
    split
    · exact safe_failWith _ _ _
    rename_i aesKey hkey
    split
    · exact safe_failWith _ _ _
    rename_i block hblock
    split
    · exact safe_failWith _ _ _
    rename_i gcm hgcm
    obtain rfl : block = aesKey := aesNewCipher_eq hblock
    obtain rfl : block = gcm := Except.ok.inj hgcm
    rw [show gcmNonceSize = 12 from rfl, C12_nonce_layout]
    dsimp only [ofRes, Prog.ret_bind]
    split
    · exact safe_failWith _ _ _
    rename_i message hopen
    exact safe_runHandler session host request secret block message _ rfl rfl rfl hkey hopen

theorem safe_fetchKeyHandler (g : Tok) : Safe (onceA C) fetchKeyHandler g Any := by
  unfold fetchKeyHandler
  refine ⟨trivial, fun (fetched : Except Err (KeyAlgorithm × PublicKey)) => ?_⟩
  rcases fetched with _ | ⟨alg, pk⟩
  · exact safe_failWith _ _ _
  dsimp only
  split
  · exact safe_failWith _ _ _
  · exact safe_respondWith _ _

theorem safe_handle {M : Manager C} (hM : M.Passive) (host : Except Err Bytes)
    (common : RequestCommon) (g : Tok) : Safe (onceA C) (handle M host common) g Any := by
  unfold handle
  split
  · exact safe_respondWith _ _
  split
  · exact safe_setupHandler hM _ _ _
  split
  · exact safe_processHandler hM _ _ _
  split
  · exact safe_fetchKeyHandler _
  · trivial

theorem safe_serveRequest {M : Manager C} (hM : M.Passive) (host : Except Err Bytes) (g : Tok) :
    Safe (onceA C) (serveRequest M host) g Any := by
  unfold serveRequest
  refine Safe.bind (safe_plain ((uses_onConn _).mono isRead_plain) fun parsed => ?_)
  split
  · trivial
  split
  · trivial
  refine Safe.bind ((safe_handle hM _ _ _).mono fun err g' _ => ?_)
  split <;> trivial

theorem safe_connPass {M : Manager C} (hM : M.Passive) (host : Except Err Bytes) (g : Tok) :
    Safe (onceA C) (connPass M host) g Any := by
  unfold connPass
  refine ⟨trivial, fun (closed : Bool) => ?_⟩
  cases closed
  rotate_left
  · trivial
  exact ⟨trivial, fun _ => safe_serveRequest hM _ _⟩

theorem safe_packetBody {M : Manager C} (hM : M.Passive) (host : Except Err Bytes) (g : Tok) :
    Safe (onceA C) (packetBody M host) g Any :=
  ⟨trivial, fun _ => Safe.bind ((safe_serveRequest hM host _).mono fun _ _ _ => trivial)⟩

theorem uses_acceptPass : Uses (S := SSig C) SOp.isPlain acceptPass := by
  refine ⟨trivial, fun (closed : Bool) => ?_⟩
  cases closed
  rotate_left
  · trivial
  refine ⟨trivial, fun (accepted : Except Err Peer) => ?_⟩
  rcases accepted with _ | peer
  · trivial
  exact ⟨trivial, fun _ => ⟨trivial, fun _ => trivial⟩⟩

theorem uses_packetPass : Uses (S := SSig C) SOp.isPlain packetPass := by
  refine ⟨trivial, fun (closed : Bool) => ?_⟩
  cases closed
  rotate_left
  · trivial
  refine ⟨trivial, fun (received : Except Err Peer) => ?_⟩
  rcases received with _ | peer
  · trivial
  exact ⟨trivial, fun _ => trivial⟩

theorem uses_closeServer : Uses (S := SSig C) SOp.isPlain closeServer := by
  refine ⟨trivial, fun (ok : Bool) => ?_⟩
  cases ok
  · trivial
  · exact ⟨trivial, fun _ => ⟨trivial, fun _ => trivial⟩⟩

theorem uses_gcVisit (ttl : Nat) : Uses (S := SSig C) SOp.isPlain (gcVisit ttl) := by
  refine ⟨trivial, fun key => ⟨trivial, fun (value : Option (Ref × Nat)) => ?_⟩⟩
  rcases value with _ | ⟨r, last⟩
  · trivial
  refine ⟨trivial, fun (t : Nat) => ?_⟩
  dsimp only
  split
  · exact ⟨trivial, fun _ => trivial⟩
  · trivial

/-- A goroutine whose program respects the automaton from its ghost state, and whose later passes do
so from every ghost state. -/
structure ThreadSafe (t : Thread C) (g : Tok) : Prop where
  prog : Safe (onceA C) t.prog g Any
  loop : ∀ g, Safe (onceA C) t.loop g Any
  deferred : ∀ g, Safe (onceA C) t.deferred g Any

theorem threadSafe_ofPeer {M : Manager C} (hM : M.Passive) (p : Peer) (g : Tok) :
    ThreadSafe (Thread.ofPeer M p) g := by
  cases p with
  | tcp host input =>
    exact ⟨safe_connPass hM _ _, fun _ => safe_connPass hM _ _,
      fun _ => ⟨trivial, fun _ => ⟨trivial, fun _ => trivial⟩⟩⟩
  | udp host d =>
    exact ⟨safe_packetBody hM _ _, fun _ => trivial, fun _ => ⟨trivial, fun _ => trivial⟩⟩

theorem threadSafe_repeating {p : SProg C Bool} (hp : Uses (S := SSig C) SOp.isPlain p) (g : Tok) :
    ThreadSafe (Thread.repeating p) g :=
  ⟨safe_plain hp fun _ => trivial, fun _ => safe_plain hp fun _ => trivial, fun _ => trivial⟩

/-! ## The invariant of the shared state -/

def isAccepted (r : Ref) (c : BitVec 64) : Event → Bool
  | .accepted r' c' => r' = r ∧ c' = c
  | _ => false

def isInvoked (r : Ref) (c : BitVec 64) : Event → Bool
  | .invoked r' c' _ _ _ _ => r' = r ∧ c' = c
  | _ => false

def isSealed (r : Ref) (n : Bytes) : Event → Bool
  | .sealed r' _ n' _ => r' = r ∧ n' = n
  | _ => false

theorem mem_acceptedOf {r : Ref} {c : BitVec 64} {log : List Event} :
    c.toNat ∈ acceptedOf r log ↔ .accepted r c ∈ log := by
  simp only [acceptedOf, List.mem_reverse, List.mem_filterMap]
  constructor
  · rintro ⟨e, he, h⟩
    cases e with
    | accepted r' c' =>
      simp only at h
      split at h
      · rename_i hr
        simp only [Option.some.injEq] at h
        have : c' = c := BitVec.eq_of_toNat_eq h
        subst this; subst hr; exact he
      · cases h
    | _ => cases h
  · intro h
    exact ⟨_, h, by simp⟩

theorem countP_isAccepted_zero {r : Ref} {c : BitVec 64} {log : List Event}
    (h : .accepted r c ∉ log) : log.countP (isAccepted r c) = 0 := by
  rw [List.countP_eq_zero]
  intro e he hp
  cases e with
  | accepted r' c' =>
    simp only [isAccepted, decide_eq_true_eq] at hp
    obtain ⟨rfl, rfl⟩ := hp
    exact h he
  | _ => simp [isAccepted] at hp

theorem mem_of_countP_pos {r : Ref} {c : BitVec 64} {log : List Event}
    (h : 0 < log.countP (isAccepted r c)) : .accepted r c ∈ log := by
  apply Classical.byContradiction
  intro hn
  rw [countP_isAccepted_zero hn] at h
  omega

def Tok.callIs (r : Ref) (c : BitVec 64) (g : Tok) : Bool := g.call = some (r, c)
def Tok.sealIs (r : Ref) (c : BitVec 64) (g : Tok) : Bool := g.sealing = some (r, c)

/-- The invariant of the shared state, given the ghost states of all goroutines. -/
structure WInv (C : Crypto) (w : World) (gs : List Tok) : Prop where
  ref : ∀ r c, .accepted r c ∈ w.log → r < w.heap.length
  win : ∀ r x, w.heap[r]? = some x → Represents x.2 (acceptedOf r w.log)
  uniq : ∀ r c, w.log.countP (isAccepted r c) ≤ 1
  calls : ∀ r c, w.log.countP (isInvoked r c) + gs.countP (Tok.callIs r c) ≤
    w.log.countP (isAccepted r c)
  seals : ∀ r c, w.log.countP (isSealed r (Wire.nonce12 1 c.toNat)) + gs.countP (Tok.sealIs r c) ≤
    w.log.countP (isAccepted r c)
  secs : ∀ g ∈ gs, ∀ r s, g.sec = some (r, s) → ∃ x, w.heap[r]? = some x ∧ x.1 = s
  auth : ∀ r c h id m res, .invoked r c h id m res ∈ w.log → ∃ x key ct, w.heap[r]? = some x ∧
    deriveKey C x.1 kdfInfo aesKeySize = .ok key ∧
    C.aeadOpen key (Wire.nonce12 0 c.toNat) ct = some m
  sealed : ∀ r key n pt, .sealed r key n pt ∈ w.log → ∃ x c, w.heap[r]? = some x ∧
    deriveKey C x.1 kdfInfo aesKeySize = .ok key ∧ n = Wire.nonce12 1 c ∧ c < 2 ^ 64

theorem mem_set_cases {α : Type} {l : List α} {i : Nat} {a b : α} (h : b ∈ l.set i a) :
    b ∈ l ∨ b = a := List.mem_or_eq_of_mem_set h

/-- A step that touches neither sessions nor log, and gives the goroutine no new rights. -/
theorem WInv.quiet {w w' : World} {gs : List Tok} (h : WInv C w gs) {i : Nat} {g : Tok}
    (hg : gs[i]? = some g) (hh : w'.heap = w.heap) (hl : w'.log = w.log) :
    WInv C w' (gs.set i g) := by
  have : gs.set i g = gs := by
    apply List.ext_getElem?
    intro j
    rw [List.getElem?_set]
    split
    · rename_i hij
      subst hij
      rw [hg]
      have : i < gs.length := (List.getElem?_eq_some_iff.mp hg).1
      simp [this]
    · rfl
  rw [this]
  constructor
  · rw [hh, hl]; exact h.ref
  · rw [hh, hl]; exact h.win
  · rw [hl]; exact h.uniq
  · rw [hl]; exact h.calls
  · rw [hl]; exact h.seals
  · rw [hh]; exact h.secs
  · rw [hh, hl]; exact h.auth
  · rw [hh, hl]; exact h.sealed

theorem WInv.newSession {w : World} {gs : List Tok} (h : WInv C w gs) (secret : Bytes) :
    WInv C { w with heap := w.heap ++ [(secret, .fresh)] } gs := by
  have hget : ∀ (r : Nat) x, (w.heap ++ [(secret, ReplayWindow.fresh)])[r]? = some x →
      w.heap[r]? = some x ∨ (r = w.heap.length ∧ x = (secret, .fresh)) := by
    intro r x hx
    rw [List.getElem?_append] at hx
    split at hx
    · exact .inl hx
    · rename_i hr
      rcases Nat.lt_or_ge (r - w.heap.length) 1 with h1 | h1
      · have : r - w.heap.length = 0 := by omega
        rw [this] at hx
        simp only [List.getElem?_cons_zero, Option.some.injEq] at hx
        exact .inr ⟨by omega, hx.symm⟩
      · rw [List.getElem?_eq_none (by simpa using h1)] at hx; cases hx
  have hold : ∀ (r : Ref) x, w.heap[r]? = some x →
      (w.heap ++ [(secret, ReplayWindow.fresh)])[r]? = some x := by
    intro r x hx
    rw [List.getElem?_append_left (List.getElem?_eq_some_iff.mp hx).1]; exact hx
  refine ⟨?_, ?_, h.uniq, h.calls, h.seals, ?_, ?_, ?_⟩
  · intro r c hm
    rw [List.length_append]
    exact Nat.lt_add_right _ (h.ref r c hm)
  · intro r x hx
    rcases hget r x hx with hx | ⟨rfl, rfl⟩
    · exact h.win r x hx
    · have : acceptedOf w.heap.length w.log = [] := by
        rw [List.eq_nil_iff_forall_not_mem]
        intro n hn
        simp only [acceptedOf, List.mem_reverse, List.mem_filterMap] at hn
        obtain ⟨e, he, hen⟩ := hn
        cases e with
        | accepted r' c' =>
          simp only at hen
          split at hen
          · rename_i hr
            subst hr
            exact absurd (h.ref _ _ he) (Nat.lt_irrefl _)
          · cases hen
        | _ => cases hen
      show Represents ReplayWindow.fresh (acceptedOf w.heap.length w.log)
      rw [this]; exact represents_fresh
  · intro g hg r s hs
    obtain ⟨x, hx, hxs⟩ := h.secs g hg r s hs
    exact ⟨x, hold r x hx, hxs⟩
  · intro r c hh id m res hm
    obtain ⟨x, key, ct, hx, hrest⟩ := h.auth r c hh id m res hm
    exact ⟨x, key, ct, hold r x hx, hrest⟩
  · intro r key n pt hm
    obtain ⟨x, c, hx, hrest⟩ := h.sealed r key n pt hm
    exact ⟨x, c, hold r x hx, hrest⟩

/-- Events the invariant does not speak about. -/
def Event.isOther : Event → Prop
  | .accepted _ _ => False
  | .invoked _ _ _ _ _ _ => False
  | .sealed _ _ _ _ => False
  | _ => True

theorem WInv.event {w : World} {gs : List Tok} (h : WInv C w gs) (e : Event) (he : e.isOther) :
    WInv C { w with log := w.log ++ [e] } gs := by
  have hacc : ∀ p : Event → Bool, p e = false →
      (w.log ++ [e]).countP p = w.log.countP p := by
    intro p hp
    rw [List.countP_append, List.countP_singleton, hp]; simp
  have hof : ∀ r', acceptedOf r' (w.log ++ [e]) = acceptedOf r' w.log := by
    intro r'; cases e <;> first | exact he.elim | simp [acceptedOf]
  have h1 : ∀ r c, isAccepted r c e = false := by
    intro r c; cases e <;> first | exact he.elim | rfl
  have h2 : ∀ r c, isInvoked r c e = false := by
    intro r c; cases e <;> first | exact he.elim | rfl
  have h3 : ∀ r n, isSealed r n e = false := by
    intro r c; cases e <;> first | exact he.elim | rfl
  refine ⟨?_, ?_, ?_, ?_, ?_, h.secs, ?_, ?_⟩
  · intro r' c' hm
    rcases List.mem_append.mp hm with hm | hm
    · exact h.ref r' c' hm
    · rw [List.mem_singleton] at hm; subst hm; exact he.elim
  · intro r' y hy
    show Represents y.2 (acceptedOf r' (w.log ++ _))
    rw [hof]; exact h.win r' y hy
  · intro r' c'
    show (w.log ++ _).countP _ ≤ 1
    rw [hacc _ (h1 _ _)]; exact h.uniq r' c'
  · intro r' c'
    show (w.log ++ _).countP _ + _ ≤ (w.log ++ _).countP _
    rw [hacc _ (h1 _ _), hacc _ (h2 _ _)]; exact h.calls r' c'
  · intro r' c'
    show (w.log ++ _).countP _ + _ ≤ (w.log ++ _).countP _
    rw [hacc _ (h1 _ _), hacc _ (h3 _ _)]; exact h.seals r' c'
  · intro r' c' hh id m' res' hm
    rcases List.mem_append.mp hm with hm | hm
    · exact h.auth r' c' hh id m' res' hm
    · rw [List.mem_singleton] at hm; subst hm; exact he.elim
  · intro r' key n pt hm
    rcases List.mem_append.mp hm with hm | hm
    · exact h.sealed r' key n pt hm
    · rw [List.mem_singleton] at hm; subst hm; exact he.elim

/-- `CheckAndUpdate` accepting a counter. -/
theorem WInv.accept {w : World} {gs : List Tok} (h : WInv C w gs) {i : Nat} {g : Tok}
    (hg : gs[i]? = some g) (r : Ref) (c : BitVec 64) (x : Bytes × ReplayWindow)
    (hx : w.heap[r]? = some x) (hc : (x.2.checkAndUpdate c).1 = true) :
    WInv C { w with heap := w.heap.set r (x.1, (x.2.checkAndUpdate c).2),
                    log := w.log ++ [.accepted r c] }
      (gs.set i { g with call := some (r, c), sealing := some (r, c) }) := by
  obtain ⟨h1, h2, -⟩ := checkAndUpdate_spec x.2 _ (h.win r x hx) c
  have hfresh := h1.mp hc
  have hnew : .accepted r c ∉ w.log := fun hm => hfresh.2.1 (mem_acceptedOf.mpr hm)
  have hzero := countP_isAccepted_zero hnew
  have hr : r < w.heap.length := (List.getElem?_eq_some_iff.mp hx).1
  have hget : ∀ (r' : Ref) y, (w.heap.set r (x.1, (x.2.checkAndUpdate c).2))[r']? = some y →
      (r' = r ∧ y = (x.1, (x.2.checkAndUpdate c).2)) ∨ (r' ≠ r ∧ w.heap[r']? = some y) := by
    intro r' y hy
    by_cases hrr : r = r'
    · subst hrr
      rw [List.getElem?_set_self hr] at hy
      exact .inl ⟨rfl, (Option.some.inj hy).symm⟩
    · rw [List.getElem?_set_ne hrr] at hy
      exact .inr ⟨fun h => hrr h.symm, hy⟩
  have hold : ∀ (r' : Ref) y, w.heap[r']? = some y →
      ∃ z, (w.heap.set r (x.1, (x.2.checkAndUpdate c).2))[r']? = some z ∧ z.1 = y.1 := by
    intro r' y hy
    by_cases hrr : r = r'
    · subst hrr
      rw [hx] at hy
      cases hy
      exact ⟨_, List.getElem?_set_self hr, rfl⟩
    · exact ⟨y, by rw [List.getElem?_set_ne hrr]; exact hy, rfl⟩
  have hcnt : ∀ r' c', (w.log ++ [Event.accepted r c]).countP (isAccepted r' c') =
      w.log.countP (isAccepted r' c') + (if r = r' ∧ c = c' then 1 else 0) := by
    intro r' c'
    rw [List.countP_append, List.countP_singleton]
    simp [isAccepted]
  refine ⟨?_, ?_, ?_, ?_, ?_, ?_, ?_, ?_⟩
  · intro r' c' hm
    rw [List.length_set]
    rcases List.mem_append.mp hm with hm | hm
    · exact h.ref r' c' hm
    · simp only [List.mem_singleton, Event.accepted.injEq] at hm
      rw [hm.1]; exact hr
  · intro r' y hy
    have happ : acceptedOf r' (w.log ++ [Event.accepted r c]) =
        if r = r' then c.toNat :: acceptedOf r' w.log else acceptedOf r' w.log := by
      simp only [acceptedOf, List.filterMap_append, List.reverse_append]
      by_cases hrr : r = r'
      · simp [hrr]
      · simp [hrr]
    show Represents y.2 (acceptedOf r' (w.log ++ [Event.accepted r c]))
    rw [happ]
    rcases hget r' y hy with ⟨rfl, rfl⟩ | ⟨hne, hy⟩
    · rw [if_pos rfl]; exact h2 hc
    · rw [if_neg (fun h => hne h.symm)]; exact h.win r' y hy
  · intro r' c'
    show (w.log ++ [Event.accepted r c]).countP (isAccepted r' c') ≤ 1
    rw [hcnt]
    split
    · rename_i he
      obtain ⟨rfl, rfl⟩ := he
      rw [hzero]; omega
    · exact h.uniq r' c'
  · intro r' c'
    show (w.log ++ [Event.accepted r c]).countP (isInvoked r' c') + _ ≤
      (w.log ++ [Event.accepted r c]).countP (isAccepted r' c')
    rw [hcnt, List.countP_append, List.countP_singleton]
    have hs := countP_set (Tok.callIs r' c') gs i g
      { g with call := some (r, c), sealing := some (r, c) } hg
    have hold := h.calls r' c'
    have hcall : (Tok.callIs r' c' { g with call := some (r, c), sealing := some (r, c) }) =
        decide (r = r' ∧ c = c') := by simp [Tok.callIs]
    rw [hcall] at hs
    simp only [isInvoked, Bool.false_eq_true, if_false, decide_eq_true_eq] at hs ⊢
    split at hs <;> omega
  · intro r' c'
    show (w.log ++ [Event.accepted r c]).countP (isSealed r' (Wire.nonce12 1 c'.toNat)) + _ ≤
      (w.log ++ [Event.accepted r c]).countP (isAccepted r' c')
    rw [hcnt, List.countP_append, List.countP_singleton]
    have hs := countP_set (Tok.sealIs r' c') gs i g
      { g with call := some (r, c), sealing := some (r, c) } hg
    have hold := h.seals r' c'
    have hcall : (Tok.sealIs r' c' { g with call := some (r, c), sealing := some (r, c) }) =
        decide (r = r' ∧ c = c') := by simp [Tok.sealIs]
    rw [hcall] at hs
    simp only [isSealed, Bool.false_eq_true, if_false, decide_eq_true_eq] at hs ⊢
    split at hs <;> omega
  · intro g' hg' r' s hs
    have hmem : ∃ g'' ∈ gs, g''.sec = some (r', s) := by
      rcases mem_set_cases hg' with hm | rfl
      · exact ⟨g', hm, hs⟩
      · exact ⟨g, List.mem_of_getElem? hg, hs⟩
    obtain ⟨g'', hm, hs'⟩ := hmem
    obtain ⟨y, hy, hys⟩ := h.secs g'' hm r' s hs'
    obtain ⟨z, hz, hzy⟩ := hold r' y hy
    exact ⟨z, hz, hzy.trans hys⟩
  · intro r' c' hh id m res hm
    have hm : .invoked r' c' hh id m res ∈ w.log := by simpa using hm
    obtain ⟨y, key, ct, hy, hkey, ho⟩ := h.auth r' c' hh id m res hm
    obtain ⟨z, hz, hzy⟩ := hold r' y hy
    exact ⟨z, key, ct, hz, by rw [hzy]; exact hkey, ho⟩
  · intro r' key n pt hm
    have hm : .sealed r' key n pt ∈ w.log := by simpa using hm
    obtain ⟨y, c', hy, hkey, hn⟩ := h.sealed r' key n pt hm
    obtain ⟨z, hz, hzy⟩ := hold r' y hy
    exact ⟨z, c', hz, by rw [hzy]; exact hkey, hn⟩

/-- A rejected counter changes nothing. -/
theorem checkAndUpdate_rejected (w : ReplayWindow) (c : BitVec 64)
    (h : (w.checkAndUpdate c).1 = false) : (w.checkAndUpdate c).2 = w := by
  unfold ReplayWindow.checkAndUpdate at h ⊢
  split
  · rfl
  · rename_i h0
    rw [if_neg h0] at h
    split
    · rename_i h1
      rw [if_pos h1] at h
      cases h
    · rename_i h1
      rw [if_neg h1] at h
      dsimp only at h ⊢
      split
      · rfl
      · rename_i h2
        rw [if_neg h2] at h
        split
        · rfl
        · rename_i h3
          rw [if_neg h3] at h
          cases h

theorem nonce12_inj {d d' : Byte} {c c' : BitVec 64}
    (h : Wire.nonce12 d c.toNat = Wire.nonce12 d' c'.toNat) : d = d' ∧ c = c' :=
  C12_nonce_injective d d' c c' 12 (by omega) _ (C12_nonce_layout d c)
    (by rw [C12_nonce_layout, h])

/-- Calling the handler. -/
theorem WInv.invoke {w : World} {gs : List Tok} (h : WInv C w gs) {i : Nat} {g : Tok}
    (hg : gs[i]? = some g) (r : Ref) (c : BitVec 64) (host id m : Bytes) (res : HRes)
    (hcall : g.call = some (r, c))
    (ha : ∃ s key ct, g.sec = some (r, s) ∧ deriveKey C s kdfInfo aesKeySize = .ok key ∧
      C.aeadOpen key (Wire.nonce12 0 c.toNat) ct = some m) :
    WInv C { w with log := w.log ++ [.invoked r c host id m res] } (gs.set i { g with call := none }) := by
  have hacc : ∀ r' c', (w.log ++ [Event.invoked r c host id m res]).countP (isAccepted r' c') =
      w.log.countP (isAccepted r' c') := by
    intro r' c'
    rw [List.countP_append, List.countP_singleton]; simp [isAccepted]
  have hof : ∀ r', acceptedOf r' (w.log ++ [Event.invoked r c host id m res]) = acceptedOf r' w.log := by
    intro r'; simp [acceptedOf]
  refine ⟨?_, ?_, ?_, ?_, ?_, ?_, ?_, ?_⟩
  · intro r' c' hm
    exact h.ref r' c' (by simpa using hm)
  · intro r' y hy
    show Represents y.2 (acceptedOf r' (w.log ++ _))
    rw [hof]; exact h.win r' y hy
  · intro r' c'
    show (w.log ++ _).countP _ ≤ 1
    rw [hacc]; exact h.uniq r' c'
  · intro r' c'
    show (w.log ++ [Event.invoked r c host id m res]).countP (isInvoked r' c') + _ ≤ (w.log ++ _).countP _
    rw [hacc, List.countP_append, List.countP_singleton]
    have hs := countP_set (Tok.callIs r' c') gs i g { g with call := none } hg
    have hold := h.calls r' c'
    have e1 : Tok.callIs r' c' g = decide (r = r' ∧ c = c') := by simp [Tok.callIs, hcall]
    have e2 : Tok.callIs r' c' { g with call := none } = false := by simp [Tok.callIs]
    have e3 : isInvoked r' c' (Event.invoked r c host id m res) = decide (r = r' ∧ c = c') := rfl
    rw [e1, e2] at hs
    rw [e3]
    simp only [Bool.false_eq_true, if_false, decide_eq_true_eq] at hs ⊢
    by_cases hc : r = r' ∧ c = c'
    · rw [if_pos hc] at hs ⊢; omega
    · rw [if_neg hc] at hs ⊢; omega
  · intro r' c'
    show (w.log ++ [Event.invoked r c host id m res]).countP (isSealed r' _) + _ ≤ (w.log ++ _).countP _
    rw [hacc, List.countP_append, List.countP_singleton]
    have hs := countP_set (Tok.sealIs r' c') gs i g { g with call := none } hg
    have hold := h.seals r' c'
    have e1 : Tok.sealIs r' c' { g with call := none } = Tok.sealIs r' c' g := rfl
    rw [e1] at hs
    simp only [isSealed, Bool.false_eq_true, if_false]
    omega
  · intro g' hg' r' s hs
    rcases mem_set_cases hg' with hm | rfl
    · exact h.secs g' hm r' s hs
    · exact h.secs g (List.mem_of_getElem? hg) r' s hs
  · intro r' c' hh id' m' res' hm
    rcases List.mem_append.mp hm with hm | hm
    · exact h.auth r' c' hh id' m' res' hm
    · simp only [List.mem_singleton, Event.invoked.injEq] at hm
      obtain ⟨rfl, rfl, -, -, rfl, -⟩ := hm
      obtain ⟨s, key, ct, hs, hkey, ho⟩ := ha
      obtain ⟨x, hx, rfl⟩ := h.secs g (List.mem_of_getElem? hg) _ _ hs
      exact ⟨x, key, ct, hx, hkey, ho⟩
  · intro r' key n pt hm
    exact h.sealed r' key n pt (by simpa using hm)

/-- Encrypting. -/
theorem WInv.aead {w : World} {gs : List Tok} (h : WInv C w gs) {i : Nat} {g : Tok}
    (hg : gs[i]? = some g) (r : Ref) (key n pt : Bytes)
    (ha : ∃ c s, g.sealing = some (r, c) ∧ g.sec = some (r, s) ∧
        deriveKey C s kdfInfo aesKeySize = .ok key ∧ n = Wire.nonce12 1 c.toNat) :
    WInv C { w with log := w.log ++ [.sealed r key n pt] } (gs.set i { g with sealing := none }) := by
  obtain ⟨c, s, hseal, hsec, hkey, rfl⟩ := ha
  have hacc : ∀ r' c', (w.log ++ [Event.sealed r key (Wire.nonce12 1 c.toNat) pt]).countP
      (isAccepted r' c') = w.log.countP (isAccepted r' c') := by
    intro r' c'
    rw [List.countP_append, List.countP_singleton]; simp [isAccepted]
  have hof : ∀ r', acceptedOf r' (w.log ++ [Event.sealed r key (Wire.nonce12 1 c.toNat) pt]) =
      acceptedOf r' w.log := by
    intro r'; simp [acceptedOf]
  refine ⟨?_, ?_, ?_, ?_, ?_, ?_, ?_, ?_⟩
  · intro r' c' hm
    exact h.ref r' c' (by simpa using hm)
  · intro r' y hy
    show Represents y.2 (acceptedOf r' (w.log ++ _))
    rw [hof]; exact h.win r' y hy
  · intro r' c'
    show (w.log ++ _).countP _ ≤ 1
    rw [hacc]; exact h.uniq r' c'
  · intro r' c'
    show (w.log ++ [Event.sealed r key (Wire.nonce12 1 c.toNat) pt]).countP (isInvoked r' c') + _ ≤
      (w.log ++ _).countP _
    rw [hacc, List.countP_append, List.countP_singleton]
    have hs := countP_set (Tok.callIs r' c') gs i g { g with sealing := none } hg
    have hold := h.calls r' c'
    have e1 : Tok.callIs r' c' { g with sealing := none } = Tok.callIs r' c' g := rfl
    rw [e1] at hs
    simp only [isInvoked, Bool.false_eq_true, if_false]
    omega
  · intro r' c'
    show (w.log ++ [Event.sealed r key (Wire.nonce12 1 c.toNat) pt]).countP (isSealed r' _) + _ ≤
      (w.log ++ _).countP _
    rw [hacc, List.countP_append, List.countP_singleton]
    have hs := countP_set (Tok.sealIs r' c') gs i g { g with sealing := none } hg
    have hold := h.seals r' c'
    have e1 : Tok.sealIs r' c' g = decide (r = r' ∧ c = c') := by simp [Tok.sealIs, hseal]
    have e2 : Tok.sealIs r' c' { g with sealing := none } = false := by simp [Tok.sealIs]
    have e3 : isSealed r' (Wire.nonce12 1 c'.toNat) (Event.sealed r key (Wire.nonce12 1 c.toNat) pt) =
        decide (r = r' ∧ c = c') := by
      have : (r = r' ∧ Wire.nonce12 1 c.toNat = Wire.nonce12 1 c'.toNat) ↔ (r = r' ∧ c = c') :=
        ⟨fun ⟨a, b⟩ => ⟨a, (nonce12_inj b).2⟩, fun ⟨a, b⟩ => ⟨a, by rw [b]⟩⟩
      simp only [isSealed, this]
    rw [e1, e2] at hs
    rw [e3]
    simp only [Bool.false_eq_true, if_false, decide_eq_true_eq] at hs ⊢
    by_cases hc : r = r' ∧ c = c'
    · rw [if_pos hc] at hs ⊢; omega
    · rw [if_neg hc] at hs ⊢; omega
  · intro g' hg' r' s hs
    rcases mem_set_cases hg' with hm | rfl
    · exact h.secs g' hm r' s hs
    · exact h.secs g (List.mem_of_getElem? hg) r' s hs
  · intro r' c' hh id' m' res' hm
    exact h.auth r' c' hh id' m' res' (by simpa using hm)
  · intro r' key' n pt' hm
    rcases List.mem_append.mp hm with hm | hm
    · exact h.sealed r' key' n pt' hm
    · simp only [List.mem_singleton, Event.sealed.injEq] at hm
      obtain ⟨rfl, rfl, rfl, -⟩ := hm
      obtain ⟨x, hx, rfl⟩ := h.secs g (List.mem_of_getElem? hg) _ _ hsec
      exact ⟨x, c.toNat, hx, hkey, rfl, c.isLt⟩

/-! ## Steps -/

/-- One effect preserves the invariant of the shared state. -/
theorem exec_winv (timeout : Nat) (a : Answer C) (o : SOp) (c : Conn) (w : World) (gs : List Tok)
    (i : Nat) (g : Tok) (hg : gs[i]? = some g) (hpre : (onceA C).pre o g) (h : WInv C w gs) :
    WInv C (exec C timeout a o (c, w)).2.2
      (gs.set i ((onceA C).next o (exec C timeout a o (c, w)).1 g)) := by
  cases o with
  | newSession secret host id =>
    exact WInv.quiet ((h.newSession secret).event (.established w.heap.length host id) trivial) hg
      rfl rfl
  | check r counter =>
    simp only [exec]
    cases hx : w.heap[r]? with
    | none => exact h.quiet hg rfl rfl
    | some x =>
      dsimp only
      cases hc : (x.2.checkAndUpdate counter).1 with
      | true => exact h.accept hg r counter x hx hc
      | false =>
        have hself : w.heap.set r (x.1, (x.2.checkAndUpdate counter).2) = w.heap := by
          rw [checkAndUpdate_rejected _ _ hc]
          apply List.ext_getElem?
          intro j
          rw [List.getElem?_set]
          split
          · rename_i hij
            subst hij
            rw [hx]
            simp [(List.getElem?_eq_some_iff.mp hx).1]
          · rfl
        exact h.quiet hg hself rfl
  | secretOf r =>
    obtain ⟨c', hcall⟩ := hpre
    have hpos := countP_pos_of_getElem? (Tok.callIs r c') gs i g hg (by simp [Tok.callIs, hcall])
    have hcnt := h.calls r c'
    have hr := h.ref r c' (mem_of_countP_pos (by omega))
    have hget : w.heap[r]? = some w.heap[r] := List.getElem?_eq_getElem hr
    have hd : (w.heap.getD r ([], .fresh)).1 = w.heap[r].1 := by
      rw [List.getD_eq_getElem?_getD, hget]; rfl
    have hset : ∀ p : Tok → Bool,
        (∀ s, p { g with sec := s } = p g) →
        (gs.set i { g with sec := some (r, (w.heap.getD r ([], .fresh)).1) }).countP p =
          gs.countP p := by
      intro p hp
      have := countP_set p gs i g { g with sec := some (r, (w.heap.getD r ([], .fresh)).1) } hg
      rw [hp (some (r, (w.heap.getD r ([], .fresh)).1))] at this
      omega
    refine ⟨h.ref, h.win, h.uniq, ?_, ?_, ?_, h.auth, h.sealed⟩
    · intro r' c''
      have := hset (Tok.callIs r' c'') (fun _ => rfl)
      show w.log.countP _ + (gs.set i { g with sec := some (r, (w.heap.getD r ([], .fresh)).1) }).countP _ ≤ _
      rw [this]; exact h.calls r' c''
    · intro r' c''
      have := hset (Tok.sealIs r' c'') (fun _ => rfl)
      show w.log.countP _ + (gs.set i { g with sec := some (r, (w.heap.getD r ([], .fresh)).1) }).countP _ ≤ _
      rw [this]; exact h.seals r' c''
    · intro g' hg' r' s hs
      rcases mem_set_cases hg' with hm | rfl
      · exact h.secs g' hm r' s hs
      · have hs : some (r, (w.heap.getD r ([], .fresh)).1) = some (r', s) := hs
        simp only [Option.some.injEq, Prod.mk.injEq] at hs
        obtain ⟨rfl, rfl⟩ := hs
        exact ⟨_, hget, hd.symm⟩
  | invoke r counter host id message => exact h.invoke hg r counter host id message _ hpre.1 hpre.2
  | aead r key n pt => exact h.aead hg r key n pt hpre
  | closeReturned =>
    exact WInv.quiet (h.event .closeReturned trivial) hg rfl rfl
  | write bs =>
    refine h.quiet hg ?_ ?_ <;>
    · simp only [exec, execWrite]
      split
      · rfl
      · split
        · split <;> rfl
        · rfl
  | flush =>
    refine h.quiet hg ?_ ?_ <;>
    · simp only [exec]
      split <;> rfl
  | _ => exact h.quiet hg rfl rfl

/-- Effects either leave the list of started goroutines alone or append to it. -/
theorem WInv.append {w : World} {gs : List Tok} (h : WInv C w gs) (n : Nat) :
    WInv C { w with spawned := [] } (gs ++ List.replicate n .empty) := by
  have hcount : ∀ p : Tok → Bool, p .empty = false →
      (gs ++ List.replicate n Tok.empty).countP p = gs.countP p := by
    intro p hp
    rw [List.countP_append, List.countP_replicate, hp]; simp
  refine ⟨h.ref, h.win, h.uniq, ?_, ?_, ?_, h.auth, h.sealed⟩
  · intro r c
    rw [hcount _ (by simp [Tok.callIs, Tok.empty])]; exact h.calls r c
  · intro r c
    rw [hcount _ (by simp [Tok.sealIs, Tok.empty])]; exact h.seals r c
  · intro g hg r s hs
    rcases List.mem_append.mp hg with hg | hg
    · exact h.secs g hg r s hs
    · rw [(List.mem_replicate.mp hg).2] at hs; cases hs

/-- The invariant of the whole server. -/
structure SysInv (s : Sys C) (gs : List Tok) : Prop where
  len : gs.length = s.threads.length
  safe : ∀ (i : Nat) (t : Thread C) (g : Tok),
    s.threads[i]? = some t → gs[i]? = some g → ThreadSafe t g
  world : WInv C s.world gs

theorem thread_step_inv (timeout : Nat) (a : Answer C) (t : Thread C) (w : World) (gs : List Tok)
    (i : Nat) (g : Tok) (hg : gs[i]? = some g) (ht : ThreadSafe t g) (h : WInv C w gs) :
    ∃ g', ThreadSafe (t.step timeout a w).1 g' ∧ WInv C (t.step timeout a w).2 (gs.set i g') := by
  obtain ⟨hp, hl, hd⟩ := ht
  unfold Thread.step
  split
  · exact ⟨g, ⟨hl g, hl, hd⟩, h.quiet hg rfl rfl⟩
  · exact ⟨g, ⟨hd g, fun _ => trivial, fun _ => trivial⟩, h.quiet hg rfl rfl⟩
  · exact ⟨g, ⟨hd g, fun _ => trivial, fun _ => trivial⟩, h.quiet hg rfl rfl⟩
  · rename_i o k hprog
    rw [hprog] at hp
    split
    · exact ⟨_, ⟨hp.2 _, hl, hd⟩, exec_winv timeout a o t.conn w gs i g hg hp.1 h⟩
    · exact ⟨g, ⟨by rw [hprog]; exact hp, hl, hd⟩, h.quiet hg rfl rfl⟩

theorem step_inv {M : Manager C} (hM : M.Passive) (timeout : Nat) (s : Sys C) (gs : List Tok)
    (h : SysInv s gs) (act : Nat × Answer C) : ∃ gs', SysInv (s.step M timeout act) gs' := by
  unfold Sys.step
  split
  · exact ⟨gs, h⟩
  · rename_i t ht
    have hi : act.1 < gs.length := by
      rw [h.len]; exact (List.getElem?_eq_some_iff.mp ht).1
    have hg : gs[act.1]? = some gs[act.1] := List.getElem?_eq_getElem hi
    obtain ⟨g', ht', hw'⟩ := thread_step_inv timeout act.2 t s.world gs act.1 _ hg
      (h.safe act.1 t _ ht hg) h.world
    refine ⟨gs.set act.1 g' ++
      List.replicate (t.step timeout act.2 s.world).2.spawned.length .empty, ?_, ?_, ?_⟩
    · simp [h.len]
    · intro j t'' g'' hj hgj
      dsimp only at hj
      have hlen : (s.threads.set act.1 (t.step timeout act.2 s.world).1).length =
          (gs.set act.1 g').length := by simp [h.len]
      rw [List.getElem?_append] at hj hgj
      rw [hlen] at hj
      split at hj
      · rename_i hjl
        rw [if_pos hjl] at hgj
        by_cases hij : act.1 = j
        · subst hij
          rw [List.getElem?_set_self (by rw [← h.len]; exact hi)] at hj
          rw [List.getElem?_set_self hi] at hgj
          cases hj; cases hgj
          exact ht'
        · rw [List.getElem?_set_ne hij] at hj hgj
          exact h.safe j t'' g'' hj hgj
      · have := List.mem_of_getElem? hj
        obtain ⟨p, -, rfl⟩ := List.mem_map.mp this
        exact threadSafe_ofPeer hM p g''
    · exact hw'.append _

theorem run_inv {M : Manager C} (hM : M.Passive) (timeout : Nat) (acts : List (Nat × Answer C))
    (s : Sys C) (gs : List Tok) (h : SysInv s gs) : ∃ gs', SysInv (s.run M timeout acts) gs' := by
  induction acts generalizing s gs with
  | nil => exact ⟨gs, h⟩
  | cons a acts ih =>
    obtain ⟨gs', h'⟩ := step_inv hM timeout s gs h a
    exact ih _ gs' h'

theorem start_inv (ttl closers : Nat) :
    SysInv (Sys.start (C := C) ttl closers)
      (List.replicate (Sys.start (C := C) ttl closers).threads.length .empty) := by
  refine ⟨by simp, ?_, ?_⟩
  · intro i t g ht hg
    have hm := List.mem_of_getElem? ht
    simp only [Sys.start, List.mem_append, List.mem_cons, List.not_mem_nil, or_false] at hm
    rcases hm with ((rfl | rfl) | hm) | hm
    · exact threadSafe_repeating uses_acceptPass _
    · exact threadSafe_repeating uses_packetPass _
    · split at hm
      · simp only [List.mem_singleton] at hm
        subst hm
        exact threadSafe_repeating (uses_gcVisit ttl) _
      · simp at hm
    · obtain ⟨-, rfl⟩ := List.mem_replicate.mp hm
      exact ⟨safe_plain uses_closeServer fun _ => trivial, fun _ => trivial, fun _ => trivial⟩
  · have hc : ∀ (p : Tok → Bool) n, p .empty = false → (List.replicate n Tok.empty).countP p = 0 := by
      intro p n hp
      rw [List.countP_replicate, hp]; simp
    refine ⟨?_, ?_, ?_, ?_, ?_, ?_, ?_, ?_⟩
    · intro r c hm; simp [Sys.start] at hm
    · intro r x hx; simp [Sys.start] at hx
    · intro r c; simp [Sys.start]
    · intro r c
      rw [hc _ _ (by simp [Tok.callIs, Tok.empty])]
      simp [Sys.start]
    · intro r c
      rw [hc _ _ (by simp [Tok.sealIs, Tok.empty])]
      simp [Sys.start]
    · intro g hg r s hs
      rw [(List.mem_replicate.mp hg).2] at hs; cases hs
    · intro r c hh id m res hm; simp [Sys.start] at hm
    · intro r key n pt hm; simp [Sys.start] at hm

end

end Goe2ee
