import Verif.Proofs.SystemClient
import Verif.Proofs.Isolation
import Verif.Spec.Trace

/-!
# The sessions of the clients in the memory of the server
-/

set_option autoImplicit false

namespace Goe2ee

section
variable {C : Crypto}

/-- What is fixed for the client `x` of the server `S`. -/
def termsOf (S : Site C) (x : Party C) (secret gcm signature : Bytes) : Terms C :=
  { host := x.host, hostname := x.hostname, key := S.key, random := x.random, clientKey := x.clientKey,
    serverKey := x.serverKey, signer := signServer S.privateKey x.signRandom, signature, secret, gcm,
    f := S.app x.host }

/-- The session that a stage is about. -/
def SessionStage.ref : SessionStage → Option Ref
  | .new => none
  | .settingUp => none
  | .created r => some r
  | .kept r _ => some r
  | .asked r _ _ => some r

/-- The session is in memory and in the table. -/
def InMemory (T : Terms C) (W : World) (r : Ref) (top : BitVec 64) : Prop :=
  (∃ window, W.heap[r]? = some (T.secret, window) ∧ window.highest = top) ∧ ∃ t, W.table T.tableKey = some (r, t)

/-- What the server knows about the client at a stage. -/
def Remembers (T : Terms C) (W : World) : SessionStage → Prop
  | .new => True
  | .settingUp => True
  | .created r => W.heap[r]? = some (T.secret, .fresh)
  | .kept r top => InMemory T W r top
  | .asked r c top => InMemory T W r top ∧ top < c

/-- What holds for the memory of the server. -/
structure Books {n : Nat} (T : Fin n → Terms C) (G : Fin n → SessionStage) (W : World) : Prop where
  running : W.quit = false
  knows : ∀ i, Remembers (T i) W (G i)
  apart : ∀ i j, i ≠ j → ∀ r, (G i).ref = some r → (G j).ref ≠ some r
  foreign : ∀ key, (∀ i, key ≠ (T i).tableKey) → ∀ r t, W.table key = some (r, t) →
    r < W.heap.length ∧ ∀ i, (G i).ref ≠ some r

theorem Remembers.born {T : Terms C} {W : World} {g : SessionStage} (h : Remembers T W g) {r : Ref} (hr : g.ref = some r) :
    r < W.heap.length := by
  have : ∀ x, W.heap[r]? = some x → r < W.heap.length := fun x hx => (List.getElem?_eq_some_iff.mp hx).1
  cases g with
  | new => cases hr
  | settingUp => cases hr
  | created r' => cases hr; exact this _ h
  | kept r' top => cases hr; obtain ⟨⟨w, h, -⟩, -⟩ := h; exact this _ h
  | asked r' c top => cases hr; obtain ⟨⟨⟨w, h, -⟩, -⟩, -⟩ := h; exact this _ h

/-- Nothing changed for a session. -/
theorem Remembers.frame {T : Terms C} {W W' : World} {g : SessionStage} (h : Remembers T W g)
    (hh : ∀ r, g.ref = some r → W'.heap[r]? = W.heap[r]?) (ht : W'.table T.tableKey = W.table T.tableKey) :
    Remembers T W' g := by
  cases g with
  | new => trivial
  | settingUp => trivial
  | created r => exact (hh r rfl).trans h
  | kept r top =>
    obtain ⟨⟨w, h, h2⟩, t, h3⟩ := h
    exact ⟨⟨w, (hh r rfl).trans h, h2⟩, t, ht.trans h3⟩
  | asked r c top =>
    obtain ⟨⟨⟨w, h, h2⟩, t, h3⟩, h4⟩ := h
    exact ⟨⟨⟨w, (hh r rfl).trans h, h2⟩, t, ht.trans h3⟩, h4⟩

/-- Effects that change neither the sessions nor the table. -/
def SOp.harmless : SOp → Prop
  | .mapStore _ _ | .mapDelete _ | .newSession _ _ _ | .check _ _ | .closeQuit => False
  | _ => True

theorem exec_harmless (timeout : Nat) (a : Answer C) (o : SOp) (c : Conn) (w : World) (h : o.harmless) :
    (exec C timeout a o (c, w)).2.2.heap = w.heap ∧ (exec C timeout a o (c, w)).2.2.table = w.table ∧
      (exec C timeout a o (c, w)).2.2.quit = w.quit := by
  cases o <;> first
    | exact h.elim
    | exact ⟨rfl, rfl, rfl⟩
    | skip
  · unfold exec execWrite
    dsimp only
    split
    · exact ⟨rfl, rfl, rfl⟩
    · split
      · split <;> exact ⟨rfl, rfl, rfl⟩
      · exact ⟨rfl, rfl, rfl⟩
  · unfold exec
    dsimp only
    split <;> exact ⟨rfl, rfl, rfl⟩

theorem Books.same {n : Nat} {T : Fin n → Terms C} {G : Fin n → SessionStage} {W W' : World} (h : Books T G W)
    (hh : W'.heap = W.heap) (ht : W'.table = W.table) (hq : W'.quit = W.quit) : Books T G W' where
  running := hq.trans h.running
  knows := fun i => (h.knows i).frame (fun r _ => by rw [hh]) (by rw [ht])
  apart := h.apart
  foreign := by rw [ht, hh]; exact h.foreign

/-! ## The goroutines for anybody else -/

/-- They touch neither the sessions of the clients (the keys `K`) nor `quit`; the ghost state is the list of the sessions
that they found or created. -/
def strangerA (C : Crypto) (K : Bytes → Prop) : Auto (SSig C) (List Ref) where
  pre
    | .mapStore k v, g => ¬ K k ∧ v.1 ∈ g
    | .mapLoad k, _ => ¬ K k
    | .mapDelete _, _ => False
    | .check r _, g => r ∈ g
    | .closeQuit, _ => False
    | _, _ => True
  next
    | .newSession _ _ _, r, g => r :: g
    | .mapLoad _, some (r, _), g => r :: g
    | _, _, g => g

def SOp.bystander : SOp → Prop
  | .mapStore _ _ | .mapLoad _ | .mapDelete _ | .newSession _ _ _ | .check _ _ | .closeQuit => False
  | _ => True

section
variable {K : Bytes → Prop}

theorem bystander_safe {α : Type} {p : SProg C α} (hp : Uses (S := SSig C) SOp.bystander p)
    {g : List Ref} {Q : α → List Ref → Prop} (hQ : ∀ a, Q a g) : Safe (strangerA C K) p g Q :=
  Safe.of_uses hp (fun o _ h => by cases o <;> first | trivial | exact h.elim)
    (fun o _ _ h => by cases o <;> first | rfl | exact h.elim) hQ

theorem isRead_bystander (o : SOp) (h : o.isRead) : o.bystander := by cases o <;> first | trivial | exact h.elim
theorem isWrite_bystander (o : SOp) (h : o.isWrite) : o.bystander := by cases o <;> first | trivial | exact h.elim

abbrev AnyRefs {α : Type} : α → List Ref → Prop := fun _ _ => True

theorem stranger_failWith (code : ErrorCode) (text : String) (g : List Ref) :
    Safe (strangerA C K) (failWith code text) g AnyRefs :=
  bystander_safe ((uses_failWith code text).mono isWrite_bystander) fun _ => trivial

theorem stranger_respondWith (bs : Bytes) (g : List Ref) : Safe (strangerA C K) (respondWith bs) g AnyRefs :=
  bystander_safe ((uses_respondWith bs).mono isWrite_bystander) fun _ => trivial

theorem stranger_setupHandler (host : Except Err Bytes) (hK : ∀ h, host = .ok h → ∀ id, ¬ K (sessionKey C h id))
    (common : RequestCommon) (g : List Ref) :
    Safe (strangerA C K) (setupHandler (inMemory C) host common) g AnyRefs := by
  unfold setupHandler
  refine Safe.bind (bystander_safe ((uses_onConn _).mono isRead_bystander) fun parsed => ?_)
  rcases parsed with _ | request
  · exact stranger_failWith _ _ _
  refine ⟨trivial, fun (generated : Except Err C.EPriv) => ?_⟩
  rcases generated with _ | serverPrivateKey
  · exact stranger_failWith _ _ _
  dsimp only
  split
  · exact stranger_failWith _ _ _
  split
  · exact stranger_failWith _ _ _
  refine ⟨trivial, fun (session : Ref) => ?_⟩
  refine ⟨trivial, fun (t : Nat) => ?_⟩
  refine ⟨⟨hK _ rfl _, List.mem_cons_self ..⟩, fun _ => ?_⟩
  refine ⟨trivial, fun (signed : Except Err Bytes) => ?_⟩
  rcases signed with _ | signature
  · exact stranger_failWith _ _ _
  exact stranger_respondWith _ _

theorem stranger_processHandler (host : Except Err Bytes) (hK : ∀ h, host = .ok h → ∀ id, ¬ K (sessionKey C h id))
    (common : RequestCommon) (g : List Ref) :
    Safe (strangerA C K) (processHandler (inMemory C) host common) g AnyRefs := by
  unfold processHandler
  refine Safe.bind (bystander_safe ((uses_onConn _).mono isRead_bystander) fun parsed => ?_)
  rcases parsed with _ | request
  · exact stranger_failWith _ _ _
  dsimp only
  split
  · exact stranger_failWith _ _ _
  rename_i host
  refine ⟨hK _ rfl _, fun (value : Option (Ref × Nat)) => ?_⟩
  rcases value with _ | ⟨session, last⟩
  · exact stranger_failWith _ _ _
  refine ⟨trivial, fun (t : Nat) => ?_⟩
  refine ⟨⟨hK _ rfl _, List.mem_cons_self ..⟩, fun _ => ?_⟩
  refine ⟨List.mem_cons_self .., fun (fresh : Bool) => ?_⟩
  cases fresh with
  | false => exact stranger_failWith _ _ _
  | true =>
    refine ⟨trivial, fun (secret : Bytes) => ?_⟩
    dsimp only
    split
    · exact stranger_failWith _ _ _
    split
    · exact stranger_failWith _ _ _
    split
    · exact stranger_failWith _ _ _
    rw [show gcmNonceSize = 12 from rfl, C12_nonce_layout]
    dsimp only [ofRes, Prog.ret_bind]
    split
    · exact stranger_failWith _ _ _
    unfold runHandler
    refine ⟨trivial, fun (handled : HRes) => ?_⟩
    rcases handled with written | e | m
    rotate_left
    · exact stranger_failWith _ _ _
    · trivial
    dsimp only
    split
    · rw [show gcmNonceSize = 12 from rfl, C12_nonce_layout]
      refine ⟨trivial, fun sealed => ?_⟩
      exact stranger_respondWith _ _
    · trivial

theorem stranger_serveRequest (host : Except Err Bytes) (hK : ∀ h, host = .ok h → ∀ id, ¬ K (sessionKey C h id))
    (g : List Ref) : Safe (strangerA C K) (serveRequest (inMemory C) host) g AnyRefs := by
  unfold serveRequest
  refine Safe.bind (bystander_safe ((uses_onConn _).mono isRead_bystander) fun parsed => ?_)
  rcases parsed with _ | common
  · trivial
  dsimp only
  split
  · trivial
  refine Safe.bind ?_
  have : Safe (strangerA C K) (handle (inMemory C) host common) g AnyRefs := by
    unfold handle
    split
    · exact stranger_respondWith _ _
    split
    · exact stranger_setupHandler _ hK _ _
    split
    · exact stranger_processHandler _ hK _ _
    split
    · unfold fetchKeyHandler
      refine ⟨trivial, fun (fetched : Except Err (KeyAlgorithm × PublicKey)) => ?_⟩
      rcases fetched with _ | ⟨alg, pk⟩
      · exact stranger_failWith _ _ _
      dsimp only
      split
      · exact stranger_failWith _ _ _
      · exact stranger_respondWith _ _
    · trivial
  refine this.mono fun err g' _ => ?_
  cases err <;> trivial

theorem stranger_ofPeer (p : Peer) (hK : ∀ h, p.host = .ok h → ∀ id, ¬ K (sessionKey C h id)) (g : List Ref) :
    ThreadOK (strangerA C K) (Thread.ofPeer (inMemory C) p) g := by
  cases p with
  | tcp host input =>
    have hpass : ∀ g, Safe (strangerA C K) (connPass (inMemory C) host) g AnyRefs := by
      intro g
      refine ⟨trivial, fun (closed : Bool) => ?_⟩
      cases closed with
      | true => trivial
      | false => exact ⟨trivial, fun _ => stranger_serveRequest host hK _⟩
    refine ThreadOK.always ?_ ?_ ?_ g
    · exact fun _ => hpass _
    · exact fun _ => hpass _
    · exact fun _ => ⟨trivial, fun _ => ⟨trivial, fun _ => trivial⟩⟩
  | udp host d =>
    refine ThreadOK.always ?_ ?_ ?_ g
    · exact fun _ => ⟨trivial, fun _ => Safe.bind ((stranger_serveRequest host hK _).mono fun _ _ _ => trivial)⟩
    · exact fun _ => trivial
    · exact fun _ => ⟨trivial, fun _ => trivial⟩

end

/-- A step of a goroutine: nothing happens to the world, or one effect that respects the automaton. -/
theorem ThreadOK.step {Γ : Type} {A : Auto (SSig C) Γ} {t : Thread C} {g : Γ} (h : ThreadOK A t g) (timeout : Nat)
    (a : Answer C) (w : World) :
    (ThreadOK A (t.step timeout a w).1 g ∧ (t.step timeout a w).2 = w) ∨
    ∃ o, A.pre o g ∧ ThreadOK A (t.step timeout a w).1 (A.next o (exec C timeout a o (t.conn, w)).1 g) ∧
      (t.step timeout a w).2 = (exec C timeout a o (t.conn, w)).2.2 := by
  obtain ⟨L, D, hp, hl, hd⟩ := h
  have hdef : ∀ g, D g → ThreadOK A
      { t with prog := t.deferred, loop := .ret false, deferred := .ret false } g := by
    intro g hg
    refine ⟨fun _ => True, fun _ => True, ?_, fun _ _ => trivial, fun _ _ => trivial⟩
    exact (hd g hg).trivially (fun a _ => by cases a <;> trivial) (fun _ _ => trivial)
  unfold Thread.step
  split
  · rename_i hprog
    rw [hprog] at hp
    exact .inl ⟨⟨L, D, hl g hp, hl, hd⟩, rfl⟩
  · rename_i hprog
    rw [hprog] at hp
    exact .inl ⟨hdef g hp, rfl⟩
  · rename_i hprog
    rw [hprog] at hp
    exact .inl ⟨hdef g hp, rfl⟩
  · rename_i o k hprog
    rw [hprog] at hp
    split
    · exact .inr ⟨o, hp.1, ⟨L, D, hp.2 _, hl, hd⟩, rfl⟩
    · exact .inl ⟨⟨L, D, by rw [hprog]; exact hp, hl, hd⟩, rfl⟩

/-- None of the sessions of the clients. -/
def Foreign {n : Nat} (G : Fin n → SessionStage) (W : World) (r : Ref) : Prop :=
  r < W.heap.length ∧ ∀ i, (G i).ref ≠ some r

section
variable {n : Nat} {T : Fin n → Terms C} {G : Fin n → SessionStage} {W : World}

/-- An effect of a goroutine for anybody else. -/
theorem Books.stranger (h : Books T G W) (a : Answer C) (o : SOp) (c : Conn) (g : List Ref)
    (hg : ∀ r ∈ g, Foreign G W r) (hpre : (strangerA C (fun k => ∃ i, k = (T i).tableKey)).pre o g) :
    Books T G (exec C 0 a o (c, W)).2.2 ∧ W.heap.length ≤ (exec C 0 a o (c, W)).2.2.heap.length ∧
      ∀ r ∈ (strangerA C (fun k => ∃ i, k = (T i).tableKey)).next o (exec C 0 a o (c, W)).1 g,
        Foreign G (exec C 0 a o (c, W)).2.2 r := by
  have hquiet : o.harmless → (∀ r, (strangerA C (fun k => ∃ i, k = (T i).tableKey)).next o r g = g) →
      Books T G (exec C 0 a o (c, W)).2.2 ∧ W.heap.length ≤ (exec C 0 a o (c, W)).2.2.heap.length ∧
      ∀ r ∈ (strangerA C (fun k => ∃ i, k = (T i).tableKey)).next o (exec C 0 a o (c, W)).1 g,
        Foreign G (exec C 0 a o (c, W)).2.2 r := by
    intro hh hn
    obtain ⟨h1, h2, h3⟩ := exec_harmless 0 a o c W hh
    refine ⟨h.same h1 h2 h3, by rw [h1]; exact Nat.le_refl _, fun r hr => ?_⟩
    rw [hn] at hr
    have := hg r hr
    exact ⟨by rw [h1]; exact this.1, this.2⟩
  cases o with
  | mapStore key v =>
    obtain ⟨hk, hv⟩ := hpre
    have hk : ∀ i, (T i).tableKey ≠ key := fun i hi => hk ⟨i, hi.symm⟩
    refine ⟨⟨h.running, fun i => (h.knows i).frame (fun _ _ => rfl) (if_neg (hk i)), h.apart, ?_⟩, Nat.le_refl _, hg⟩
    intro key' hkey' r t hr
    replace hr : (if key' = key then some v else W.table key') = some (r, t) := hr
    split at hr
    · cases hr
      exact hg _ hv
    · exact h.foreign key' hkey' r t hr
  | mapLoad key =>
    obtain ⟨h1, h2, h3⟩ := exec_harmless 0 a (.mapLoad key) c W trivial
    refine ⟨h.same h1 h2 h3, Nat.le_refl _, fun r hr => ?_⟩
    replace hr : r ∈ (strangerA C _).next (.mapLoad key) (W.table key) g := hr
    cases ht : W.table key with
    | none => rw [ht] at hr; exact hg r hr
    | some v =>
      rw [ht] at hr
      rcases List.mem_cons.mp hr with rfl | hr
      · exact h.foreign key (fun i hi => hpre ⟨i, hi⟩) _ _ ht
      · exact hg r hr
  | mapDelete key => exact hpre.elim
  | newSession secret host id =>
    have hold : ∀ r, r < W.heap.length → (W.heap ++ [(secret, ReplayWindow.fresh)])[r]? = W.heap[r]? :=
      fun r hr => List.getElem?_append_left hr
    have hlen : (W.heap ++ [(secret, ReplayWindow.fresh)]).length = W.heap.length + 1 := by simp
    refine ⟨⟨h.running, fun i => (h.knows i).frame (fun r hr => hold r ((h.knows i).born hr)) rfl, h.apart, ?_⟩,
      Nat.le_trans (Nat.le_succ _) (Nat.le_of_eq hlen.symm), fun r hr => ?_⟩
    · intro key hkey r t hr
      have := h.foreign key hkey r t hr
      exact ⟨Nat.lt_of_lt_of_eq (Nat.lt_succ_of_lt this.1) hlen.symm, this.2⟩
    · rcases List.mem_cons.mp hr with rfl | hr
      · refine ⟨Nat.lt_of_lt_of_eq (Nat.lt_succ_self _) hlen.symm, fun i hi => ?_⟩
        exact Nat.lt_irrefl _ ((h.knows i).born hi)
      · have := hg r hr
        exact ⟨Nat.lt_of_lt_of_eq (Nat.lt_succ_of_lt this.1) hlen.symm, this.2⟩
  | check r counter =>
    have hr := hg r hpre
    have key : ∀ W' : World, W'.quit = W.quit → W'.table = W.table →
        (∃ x, W'.heap = W.heap.set r x) →
        Books T G W' ∧ W.heap.length ≤ W'.heap.length ∧ ∀ r ∈ g, Foreign G W' r := by
      intro W' hq ht ⟨x, hh⟩
      have hlen : W'.heap.length = W.heap.length := by rw [hh, List.length_set]
      refine ⟨⟨hq.trans h.running, fun i => (h.knows i).frame (fun r' hr' => ?_) (by rw [ht]), h.apart, ?_⟩,
        Nat.le_of_eq hlen.symm, fun r' hr' => ?_⟩
      · rw [hh, List.getElem?_set_ne]
        rintro rfl
        exact hr.2 i hr'
      · rw [ht, hlen]; exact h.foreign
      · have := hg r' hr'
        exact ⟨by rw [hlen]; exact this.1, this.2⟩
    show Books T G (exec C 0 a (.check r counter) (c, W)).2.2 ∧ _ ∧ ∀ r' ∈ g, _
    have hx : ∃ x, W.heap[r]? = some x := ⟨_, List.getElem?_eq_getElem hr.1⟩
    obtain ⟨⟨secret, window⟩, hx⟩ := hx
    unfold exec
    simp only [hx]
    exact key _ rfl rfl ⟨_, rfl⟩
  | closeQuit => exact hpre.elim
  | read o => exact hquiet trivial fun _ => rfl
  | write bs => exact hquiet trivial fun _ => rfl
  | setDeadlines => exact hquiet trivial fun _ => rfl
  | genKey => exact hquiet trivial fun _ => rfl
  | sign hash content => exact hquiet trivial fun _ => rfl
  | fetchKey => exact hquiet trivial fun _ => rfl
  | now => exact hquiet trivial fun _ => rfl
  | pickKey => exact hquiet trivial fun _ => rfl
  | secretOf r => exact hquiet trivial fun _ => rfl
  | invoke r counter host id message => exact hquiet trivial fun _ => rfl
  | aead r key nonce plaintext => exact hquiet trivial fun _ => rfl
  | quitClosed => exact hquiet trivial fun _ => rfl
  | accept => exact hquiet trivial fun _ => rfl
  | receive => exact hquiet trivial fun _ => rfl
  | wgAdd => exact hquiet trivial fun _ => rfl
  | wgDone => exact hquiet trivial fun _ => rfl
  | wgWait => exact hquiet trivial fun _ => rfl
  | spawn p => exact hquiet trivial fun _ => rfl
  | closeConn => exact hquiet trivial fun _ => rfl
  | flush => exact hquiet trivial fun _ => rfl
  | closeReturned => exact hquiet trivial fun _ => rfl
  | choose => exact hquiet trivial fun _ => rfl

end

/-! ## The goroutines for the clients -/

/-- The window accepts a counter above the highest. -/
theorem checkAndUpdate_above (w : ReplayWindow) (c : BitVec 64) (h : w.highest < c) :
    (w.checkAndUpdate c).1 = true ∧ (w.checkAndUpdate c).2.highest = c := by
  unfold ReplayWindow.checkAndUpdate
  rw [if_neg (by rintro rfl; exact absurd h (by simp [BitVec.lt_def])), if_pos h]
  exact ⟨rfl, rfl⟩

section
variable (S : Site C) (x : Party C) (secret gcm signature : Bytes)

/-- What an effect returns to the goroutine of a client. -/
theorem gives_effect {g : SessionStage} {W : World} (hk : Remembers (termsOf S x secret gcm signature) W g)
    (hq : W.quit = false) (tick : Nat) (o : SOp) (ho : Waits o ∨ Works (termsOf S x secret gcm signature) g o) :
    Gives (termsOf S x secret gcm signature) g o (serverEffect S x tick W o).1 := by
  rcases ho with ho | ho
  · cases o <;> first | exact ho.elim | exact ⟨hq, hq⟩ | exact ⟨trivial, trivial⟩
  · cases o with
    | mapLoad key =>
      obtain ⟨rfl, r, c, top, rfl⟩ := ho
      obtain ⟨⟨-, t, ht⟩, -⟩ := hk
      intro r' c' top' h'
      cases h'
      exact ⟨t, ht⟩
    | secretOf r =>
      obtain ⟨top, rfl⟩ := ho
      obtain ⟨⟨w, hw, -⟩, -⟩ := hk
      refine ⟨?_, trivial⟩
      show (W.heap.getD r ([], .fresh)).1 = _
      rw [List.getD_eq_getElem?_getD, hw]
      rfl
    | check r c =>
      obtain ⟨top, rfl⟩ := ho
      obtain ⟨⟨⟨w, hw, rfl⟩, -⟩, hlt⟩ := hk
      refine ⟨?_, trivial⟩
      show (exec C 0 _ (.check r c) (Conn.none, W)).1 = true
      unfold exec
      simp only [hw]
      exact (checkAndUpdate_above w c hlt).1
    | invoke r c host id m =>
      obtain rfl : host = x.host := ho
      exact ⟨rfl, trivial⟩
    | newSession s host id => exact ⟨trivial, trivial⟩
    | mapStore key v => exact ⟨trivial, trivial⟩
    | now => exact ⟨trivial, trivial⟩
    | genKey => exact ⟨trivial, rfl⟩
    | sign hash content => exact ⟨trivial, rfl⟩
    | aead r key nonce plaintext => exact ⟨rfl, trivial⟩
    | _ => exact ho.elim

end

section
variable {n : Nat} (S : Site C) (X : Fin n → Party C) (secret gcm signature : Fin n → Bytes)
variable {G : Fin n → SessionStage} {W : World}

/-- The terms of all clients. -/
abbrev allTerms (i : Fin n) : Terms C := termsOf S (X i) (secret i) (gcm i) (signature i)

/-- The stages after one of them has changed. -/
def setStage (G : Fin n → SessionStage) (i : Fin n) (g : SessionStage) (j : Fin n) : SessionStage := if j = i then g else G j

theorem setStage_self (i : Fin n) (g : SessionStage) : setStage G i g i = g := if_pos rfl

theorem setStage_ne {i j : Fin n} (g : SessionStage) (h : j ≠ i) : setStage G i g j = G j := if_neg h

theorem setStage_same (i : Fin n) : setStage G i (G i) = G := by
  funext j
  unfold setStage
  split
  · rename_i h; rw [h]
  · rfl

/-- An effect of the goroutine of a client. -/
theorem Books.own (hkeys : ∀ i j, i ≠ j →
      (allTerms S X secret gcm signature i).tableKey ≠ (allTerms S X secret gcm signature j).tableKey)
    (h : Books (allTerms S X secret gcm signature) G W) (i : Fin n) (tick : Nat) (o : SOp)
    (ho : Waits o ∨ Works (allTerms S X secret gcm signature i) (G i) o) :
    Books (allTerms S X secret gcm signature) (setStage G i ((G i).next o (serverEffect S (X i) tick W o).1))
      (serverEffect S (X i) tick W o).2 ∧
    ∀ r, Foreign G W r → Foreign (setStage G i ((G i).next o (serverEffect S (X i) tick W o).1))
      (serverEffect S (X i) tick W o).2 r := by
  have hquiet : o.harmless → (∀ r : o.Ret C, (G i).next o r = G i) →
      Books (allTerms S X secret gcm signature) (setStage G i ((G i).next o (serverEffect S (X i) tick W o).1))
      (serverEffect S (X i) tick W o).2 ∧
      ∀ r, Foreign G W r → Foreign (setStage G i ((G i).next o (serverEffect S (X i) tick W o).1))
        (serverEffect S (X i) tick W o).2 r := by
    intro hh hn
    obtain ⟨h1, h2, h3⟩ := exec_harmless 0 (_ : Answer C) o Conn.none W hh
    rw [hn, setStage_same]
    exact ⟨h.same h1 h2 h3, fun r hr => ⟨by rw [show (serverEffect S (X i) tick W o).2.heap = W.heap from h1]; exact hr.1, hr.2⟩⟩
  -- the session stays the same
  have hown : ∀ (g : SessionStage) (W' : World), g.ref = (G i).ref → W'.quit = W.quit →
      W'.heap.length = W.heap.length → (∀ r, (G i).ref ≠ some r → W'.heap[r]? = W.heap[r]?) →
      (∀ key, key ≠ (allTerms S X secret gcm signature i).tableKey → W'.table key = W.table key) →
      Remembers (allTerms S X secret gcm signature i) W' g →
      Books (allTerms S X secret gcm signature) (setStage G i g) W' ∧
      ∀ r, Foreign G W r → Foreign (setStage G i g) W' r := by
    intro g W' href hq hlen hheap htable hg
    have hrefs : ∀ j, (setStage G i g j).ref = (G j).ref := by
      intro j
      by_cases hj : j = i
      · rw [hj, setStage_self, href]
      · rw [setStage_ne g hj]
    refine ⟨⟨hq.trans h.running, fun j => ?_, fun j k hjk r hr => ?_, fun key hkey r t hr => ?_⟩, fun r hr => ?_⟩
    · by_cases hj : j = i
      · subst hj
        rw [setStage_self]
        exact hg
      · rw [setStage_ne g hj]
        refine (h.knows j).frame (fun r hr => hheap r fun hr' => h.apart j i hj r hr hr') (htable _ (hkeys j i hj))
    · rw [hrefs] at hr ⊢
      exact h.apart j k hjk r hr
    · rw [htable key (hkey i)] at hr
      rw [hlen]
      have := h.foreign key hkey r t hr
      exact ⟨this.1, fun j => by rw [hrefs]; exact this.2 j⟩
    · exact ⟨by rw [hlen]; exact hr.1, fun j => by rw [hrefs]; exact hr.2 j⟩
  rcases ho with ho | ho
  · refine hquiet ?_ fun r => waits_next ho r
    cases o <;> first | exact ho.elim | trivial
  · cases o with
    | newSession s host id =>
      obtain ⟨hg, rfl⟩ := ho
      have hlen : (W.heap ++ [((allTerms S X secret gcm signature i).secret, ReplayWindow.fresh)]).length =
        W.heap.length + 1 := by simp
      have hnext : (G i).next (C := C) (.newSession (allTerms S X secret gcm signature i).secret host id)
          (serverEffect S (X i) tick W (.newSession (allTerms S X secret gcm signature i).secret host id)).1 =
          .created W.heap.length := by
        rw [hg]
        rfl
      rw [hnext]
      have hrefs : ∀ j r, (setStage G i (.created W.heap.length) j).ref = some r →
          (G j).ref = some r ∨ (j = i ∧ r = W.heap.length) := by
        intro j r hr
        by_cases hj : j = i
        · subst hj
          rw [setStage_self] at hr
          exact .inr ⟨rfl, (Option.some.inj hr).symm⟩
        · rw [setStage_ne _ hj] at hr
          exact .inl hr
      have hf : ∀ r, Foreign G W r → Foreign (setStage G i (.created W.heap.length))
          (serverEffect S (X i) tick W (.newSession (allTerms S X secret gcm signature i).secret host id)).2 r := by
        intro r hr
        refine ⟨Nat.lt_of_lt_of_eq (Nat.lt_succ_of_lt hr.1) hlen.symm, fun j hj => ?_⟩
        rcases hrefs j r hj with hj | ⟨-, rfl⟩
        · exact hr.2 j hj
        · exact Nat.lt_irrefl _ hr.1
      refine ⟨⟨h.running, fun j => ?_, fun j k hjk r hr hr' => ?_, fun key hkey r t hr => ?_⟩, hf⟩
      · by_cases hj : j = i
        · subst hj
          rw [setStage_self]
          exact List.getElem?_concat_length
        · rw [setStage_ne _ hj]
          exact (h.knows j).frame (fun r hr => List.getElem?_append_left ((h.knows j).born hr)) rfl
      · rcases hrefs j r hr with h1 | ⟨h1, h2⟩
        · rcases hrefs k r hr' with h3 | ⟨-, h3⟩
          · exact h.apart j k hjk r h1 h3
          · rw [h3] at h1
            exact Nat.lt_irrefl _ ((h.knows j).born h1)
        · rcases hrefs k r hr' with h3 | ⟨h3, -⟩
          · rw [h2] at h3
            exact Nat.lt_irrefl _ ((h.knows k).born h3)
          · exact hjk (h1.trans h3.symm)
      · exact hf r (h.foreign key hkey r t hr)
    | mapStore key v =>
      obtain ⟨rfl, hg | ⟨c, top, hg⟩⟩ := ho
      · have hk := h.knows i
        rw [hg] at hk
        rw [show (G i).next (C := C) (.mapStore (allTerms S X secret gcm signature i).tableKey v)
          (serverEffect S (X i) tick W (.mapStore (allTerms S X secret gcm signature i).tableKey v)).1 = .kept v.1 0 by
            rw [hg]; rfl]
        refine hown (.kept v.1 0) _ (by rw [hg]; rfl) rfl rfl (fun _ _ => rfl) (fun key hkey => if_neg hkey) ?_
        exact ⟨⟨_, hk, rfl⟩, v.2, if_pos rfl⟩
      · have hk := h.knows i
        rw [hg] at hk
        rw [show (G i).next (C := C) (.mapStore (allTerms S X secret gcm signature i).tableKey v)
          (serverEffect S (X i) tick W (.mapStore (allTerms S X secret gcm signature i).tableKey v)).1 =
            .asked v.1 c top by rw [hg]; rfl]
        refine hown (.asked v.1 c top) _ (by rw [hg]) rfl rfl (fun _ _ => rfl) (fun key hkey => if_neg hkey) ?_
        exact ⟨⟨hk.1.1, v.2, if_pos rfl⟩, hk.2⟩
    | check r c =>
      obtain ⟨top, hg⟩ := ho
      have hk := h.knows i
      rw [hg] at hk
      obtain ⟨⟨⟨w, hw, rfl⟩, hm⟩, hlt⟩ := hk
      have hr : r < W.heap.length := (List.getElem?_eq_some_iff.mp hw).1
      rw [show (G i).next (C := C) (.check r c) (serverEffect S (X i) tick W (.check r c)).1 = .kept r c by rw [hg]; rfl]
      have hworld : (serverEffect S (X i) tick W (.check r c)).2.heap =
          W.heap.set r ((allTerms S X secret gcm signature i).secret, (w.checkAndUpdate c).2) ∧
          (serverEffect S (X i) tick W (.check r c)).2.table = W.table ∧
          (serverEffect S (X i) tick W (.check r c)).2.quit = W.quit := by
        unfold serverEffect exec
        simp only [hw]
        exact ⟨trivial, trivial, trivial⟩
      obtain ⟨h1, h2, h3⟩ := hworld
      refine hown (.kept r c) _ (by rw [hg]; rfl) h3 (by rw [h1, List.length_set]) (fun r' hr' => ?_)
        (fun key hkey => by rw [h2]) ⟨⟨(w.checkAndUpdate c).2, ?_, (checkAndUpdate_above w c hlt).2⟩, ?_⟩
      · rw [h1, List.getElem?_set_ne]
        rintro rfl
        exact hr' (by rw [hg]; rfl)
      · rw [h1, List.getElem?_set_self hr]
      · rw [h2]
        exact hm
    | mapLoad key => exact hquiet trivial fun r => by cases G i <;> rfl
    | secretOf r => exact hquiet trivial fun r => by cases G i <;> rfl
    | invoke r c host id m => exact hquiet trivial fun r => by cases G i <;> rfl
    | now => exact hquiet trivial fun r => by cases G i <;> rfl
    | genKey => exact hquiet trivial fun r => by cases G i <;> rfl
    | sign hash content => exact hquiet trivial fun r => by cases G i <;> rfl
    | aead r key nonce plaintext => exact hquiet trivial fun r => by cases G i <;> rfl
    | _ => exact ho.elim

end

end

end Goe2ee
