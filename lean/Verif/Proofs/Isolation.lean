import Verif.Proofs.Interleave
import Verif.Proofs.Base64
import Verif.Proofs.Writes

/-!
# Which session a request is served with
-/

set_option autoImplicit false

namespace Goe2ee

section
variable (C : Crypto)

/-- The name under which the server files the sessions of (host, id). -/
def fileName (host id : Bytes) : Bytes := b64Encode (C.sha256 (host ++ id))

theorem sessionKey_eq (host : Bytes) (id : ID) : sessionKey C host id = fileName C host id.val := rfl

/-- The ghost state: the (name, session) pairs that the goroutine read from the table or created.
Only those may be stored, and only with those may the application be called. -/
def fileA : Auto (SSig C) (List (Bytes × Ref)) where
  pre
    | .mapStore k v, g => (k, v.1) ∈ g
    | .newSession _ _ id, _ => id.length = 16
    | .invoke r _ host id _, g => (fileName C host id, r) ∈ g ∧ id.length = 16
    | _, _ => True
  next
    | .newSession _ host id, r, g => (fileName C host id, r) :: g
    | .mapLoad k, some (r, _), g => (k, r) :: g
    | _, _, g => g

variable {C}

/-- Effects the automaton does not care about. -/
def SOp.unfiled : SOp → Prop
  | .mapStore _ _ | .newSession _ _ _ | .invoke _ _ _ _ _ | .mapLoad _ => False
  | _ => True

theorem unfiled_safe {α : Type} {p : SProg C α} (hp : Uses (S := SSig C) SOp.unfiled p)
    {g : List (Bytes × Ref)} {Q : α → List (Bytes × Ref) → Prop} (hQ : ∀ a, Q a g) :
    Safe (fileA C) p g Q :=
  Safe.of_uses hp (fun o _ h => by cases o <;> first | trivial | exact h.elim)
    (fun o _ _ h => by cases o <;> first | rfl | exact h.elim) hQ

theorem isRead_unfiled (o : SOp) (h : o.isRead) : o.unfiled := by cases o <;> first | trivial | exact h.elim
theorem isWrite_unfiled (o : SOp) (h : o.isWrite) : o.unfiled := by cases o <;> first | trivial | exact h.elim

abbrev AnyF {α : Type} : α → List (Bytes × Ref) → Prop := fun _ _ => True

theorem file_failWith (code : ErrorCode) (text : String) (g : List (Bytes × Ref)) :
    Safe (fileA C) (failWith code text) g AnyF :=
  unfiled_safe ((uses_failWith code text).mono isWrite_unfiled) fun _ => trivial

theorem file_respondWith (bs : Bytes) (g : List (Bytes × Ref)) :
    Safe (fileA C) (respondWith bs) g AnyF :=
  unfiled_safe ((uses_respondWith bs).mono isWrite_unfiled) fun _ => trivial

theorem file_setupHandler (host : Except Err Bytes) (common : RequestCommon) (g : List (Bytes × Ref)) :
    Safe (fileA C) (setupHandler (inMemory C) host common) g AnyF := by
  unfold setupHandler
  refine Safe.bind (unfiled_safe ((uses_onConn _).mono isRead_unfiled) fun parsed => ?_)
  rcases parsed with _ | request
  · exact file_failWith _ _ _
  refine ⟨trivial, fun (generated : Except Err C.EPriv) => ?_⟩
  rcases generated with _ | serverPrivateKey
  · exact file_failWith _ _ _
  dsimp only
  split
  · exact file_failWith _ _ _
  split
  · exact file_failWith _ _ _
  refine ⟨request.id.property, fun (session : Ref) => ?_⟩
  refine ⟨trivial, fun (t : Nat) => ?_⟩
  refine ⟨List.mem_cons_self .., fun _ => ?_⟩
  refine ⟨trivial, fun (signed : Except Err Bytes) => ?_⟩
  rcases signed with _ | signature
  · exact file_failWith _ _ _
  exact file_respondWith _ _

theorem file_processHandler (host : Except Err Bytes) (common : RequestCommon)
    (g : List (Bytes × Ref)) :
    Safe (fileA C) (processHandler (inMemory C) host common) g AnyF := by
  unfold processHandler
  refine Safe.bind (unfiled_safe ((uses_onConn _).mono isRead_unfiled) fun parsed => ?_)
  rcases parsed with _ | request
  · exact file_failWith _ _ _
  dsimp only
  split
  · exact file_failWith _ _ _
  rename_i host
  refine ⟨trivial, fun (value : Option (Ref × Nat)) => ?_⟩
  rcases value with _ | ⟨session, last⟩
  · exact file_failWith _ _ _
  refine ⟨trivial, fun (t : Nat) => ?_⟩
  refine ⟨List.mem_cons_self .., fun _ => ?_⟩
  refine ⟨trivial, fun (fresh : Bool) => ?_⟩
  cases fresh with
  | false => exact file_failWith _ _ _
  | true =>
    refine ⟨trivial, fun (secret : Bytes) => ?_⟩
    dsimp only
    split
    · exact file_failWith _ _ _
    split
    · exact file_failWith _ _ _
    split
    · exact file_failWith _ _ _
    rw [show gcmNonceSize = 12 from rfl, C12_nonce_layout]
    dsimp only [ofRes, Prog.ret_bind]
    split
    · exact file_failWith _ _ _
    unfold runHandler
    refine ⟨⟨List.mem_cons_self .., request.id.property⟩, fun (handled : HRes) => ?_⟩
    rcases handled with written | e | m
    rotate_left
    · exact file_failWith _ _ _
    · trivial
    dsimp only
    split
    · rw [show gcmNonceSize = 12 from rfl, C12_nonce_layout]
      refine ⟨trivial, fun sealed => ?_⟩
      exact file_respondWith _ _
    · trivial

theorem file_serveRequest (host : Except Err Bytes) (g : List (Bytes × Ref)) :
    Safe (fileA C) (serveRequest (inMemory C) host) g AnyF := by
  unfold serveRequest
  refine Safe.bind (unfiled_safe ((uses_onConn _).mono isRead_unfiled) fun parsed => ?_)
  rcases parsed with _ | common
  · trivial
  dsimp only
  split
  · trivial
  refine Safe.bind ?_
  have : Safe (fileA C) (handle (inMemory C) host common) g AnyF := by
    unfold handle
    split
    · exact file_respondWith _ _
    split
    · exact file_setupHandler _ _ _
    split
    · exact file_processHandler _ _ _
    split
    · unfold fetchKeyHandler
      refine ⟨trivial, fun (fetched : Except Err (KeyAlgorithm × PublicKey)) => ?_⟩
      rcases fetched with _ | ⟨alg, pk⟩
      · exact file_failWith _ _ _
      dsimp only
      split
      · exact file_failWith _ _ _
      · exact file_respondWith _ _
    · trivial
  refine this.mono fun err g' _ => ?_
  cases err <;> trivial

theorem file_ofPeer (p : Peer) (g : List (Bytes × Ref)) :
    ThreadOK (fileA C) (Thread.ofPeer (inMemory C) p) g := by
  have hpass : ∀ host g, Safe (fileA C) (connPass (inMemory C) host) g AnyF := by
    intro host g
    refine ⟨trivial, fun (closed : Bool) => ?_⟩
    cases closed with
    | true => trivial
    | false => exact ⟨trivial, fun _ => file_serveRequest host _⟩
  cases p with
  | tcp host input =>
    refine ThreadOK.always ?_ ?_ ?_ g
    · exact fun _ => hpass host _
    · exact fun _ => hpass host _
    · exact fun _ => ⟨trivial, fun _ => ⟨trivial, fun _ => trivial⟩⟩
  | udp host d =>
    refine ThreadOK.always ?_ ?_ ?_ g
    · exact fun _ => ⟨trivial, fun _ => Safe.bind ((file_serveRequest host _).mono fun _ _ _ => trivial)⟩
    · exact fun _ => trivial
    · exact fun _ => ⟨trivial, fun _ => trivial⟩

theorem file_start (ttl closers : Nat) (g : List (Bytes × Ref)) :
    ∀ t ∈ (Sys.start (C := C) ttl closers).threads, ThreadOK (fileA C) t g := by
  have huse : ∀ {p : SProg C Bool}, Uses (S := SSig C) SOp.unfiled p →
      ThreadOK (fileA C) (.repeating p) g := by
    intro p hp
    refine ThreadOK.always ?_ ?_ ?_ g
    · exact fun _ => unfiled_safe hp fun _ => trivial
    · exact fun _ => unfiled_safe hp fun _ => trivial
    · exact fun _ => trivial
  refine start_threads (huse ?_) (huse ?_) ?_ ?_
  · refine ⟨trivial, fun (closed : Bool) => ?_⟩
    cases closed with
    | true => trivial
    | false =>
      refine ⟨trivial, fun (acc : Except Err Peer) => ?_⟩
      cases acc with
      | error e => trivial
      | ok p => exact ⟨trivial, fun _ => ⟨trivial, fun _ => trivial⟩⟩
  · refine ⟨trivial, fun (closed : Bool) => ?_⟩
    cases closed with
    | true => trivial
    | false =>
      refine ⟨trivial, fun (acc : Except Err Peer) => ?_⟩
      cases acc with
      | error e => trivial
      | ok p => exact ⟨trivial, fun _ => trivial⟩
  · have hgc : ∀ g, Safe (fileA C) (gcVisit ttl) g AnyF := by
      intro g
      refine ⟨trivial, fun (key : Bytes) => ⟨trivial, fun (value : Option (Ref × Nat)) => ?_⟩⟩
      rcases value with _ | ⟨r, last⟩
      · trivial
      refine ⟨trivial, fun (t : Nat) => ?_⟩
      dsimp only
      split
      · exact ⟨trivial, fun _ => trivial⟩
      · trivial
    refine ThreadOK.always hgc hgc ?_ g
    exact fun _ => trivial
  · refine ThreadOK.always (fun _ => unfiled_safe ?_ fun _ => trivial) ?_ ?_ g
    rotate_left
    · exact fun _ => trivial
    · exact fun _ => trivial
    refine ⟨trivial, fun (ok : Bool) => ?_⟩
    cases ok with
    | true => exact ⟨trivial, fun _ => ⟨trivial, fun _ => trivial⟩⟩
    | false => trivial

/-! ## The invariant -/

/-- A setup request created the session and filed it under this name. -/
def Filed (C : Crypto) (log : List Event) (k : Bytes) (r : Ref) : Prop :=
  ∃ host id, .established r host id ∈ log ∧ k = fileName C host id

theorem Filed.mono {log log' : List Event} {k : Bytes} {r : Ref} (h : Filed C log k r)
    (hl : ∀ e ∈ log, e ∈ log') : Filed C log' k r := by
  obtain ⟨host, id, he, hk⟩ := h
  exact ⟨host, id, hl _ he, hk⟩

structure FileInv (C : Crypto) (w : World) (gs : List (List (Bytes × Ref))) : Prop where
  table : ∀ k r t, w.table k = some (r, t) → Filed C w.log k r
  known : ∀ g ∈ gs, ∀ x ∈ g, Filed C w.log x.1 x.2
  calls : ∀ r c host id m res, .invoked r c host id m res ∈ w.log →
    id.length = 16 ∧ Filed C w.log (fileName C host id) r
  born : ∀ r host id, .established r host id ∈ w.log → r < w.heap.length ∧ id.length = 16
  once : ∀ r host id host' id', .established r host id ∈ w.log → .established r host' id' ∈ w.log →
    host = host' ∧ id = id'

theorem FileInv.quiet {w w' : World} {gs : List (List (Bytes × Ref))} (h : FileInv C w gs) {i : Nat}
    {g : List (Bytes × Ref)} (hg : gs[i]? = some g) (ht : w'.table = w.table)
    (hh : w'.heap.length = w.heap.length) (hl : w'.log = w.log) : FileInv C w' (gs.set i g) := by
  rw [set_same hg]
  constructor
  · rw [ht, hl]; exact h.table
  · rw [hl]; exact h.known
  · rw [hl]; exact h.calls
  · rw [hl, hh]; exact h.born
  · rw [hl]; exact h.once

/-- Appending an event that is neither a creation nor a call. -/
theorem FileInv.event {w : World} {gs : List (List (Bytes × Ref))} (h : FileInv C w gs) (e : Event)
    (he : ∀ r host id, e ≠ .established r host id)
    (hc : ∀ r c host id m res, e = .invoked r c host id m res →
      id.length = 16 ∧ Filed C w.log (fileName C host id) r) (w' : World)
    (ht : w'.table = w.table) (hh : w'.heap.length = w.heap.length) (hl : w'.log = w.log ++ [e]) :
    FileInv C w' gs := by
  have hsub : ∀ e ∈ w.log, e ∈ w'.log := fun x hx => by rw [hl]; exact List.mem_append_left _ hx
  have hest : ∀ r host id, .established r host id ∈ w'.log → .established r host id ∈ w.log := by
    intro r host id hm
    rw [hl] at hm
    rcases List.mem_append.mp hm with hm | hm
    · exact hm
    · exact absurd (List.mem_singleton.mp hm).symm (he r host id)
  constructor
  · intro k r t hk
    rw [ht] at hk
    exact (h.table k r t hk).mono hsub
  · exact fun g hg x hx => (h.known g hg x hx).mono hsub
  · intro r c host id m res hm
    rw [hl] at hm
    rcases List.mem_append.mp hm with hm | hm
    · exact ⟨(h.calls r c host id m res hm).1, (h.calls r c host id m res hm).2.mono hsub⟩
    · obtain ⟨h1, h2⟩ := hc r c host id m res (List.mem_singleton.mp hm).symm
      exact ⟨h1, h2.mono hsub⟩
  · intro r host id hm
    rw [hh]; exact h.born r host id (hest _ _ _ hm)
  · exact fun r host id host' id' h1 h2 => h.once r host id host' id' (hest _ _ _ h1) (hest _ _ _ h2)

theorem mem_set_of {α : Type} {l : List α} {i : Nat} {a b : α} (h : b ∈ l.set i a) : b ∈ l ∨ b = a :=
  List.mem_or_eq_of_mem_set h

theorem exec_file (timeout : Nat) (a : Answer C) (o : SOp) (c : Conn) (w : World)
    (gs : List (List (Bytes × Ref))) (i : Nat) (g : List (Bytes × Ref)) (hg : gs[i]? = some g)
    (hpre : (fileA C).pre o g) (h : FileInv C w gs) :
    FileInv C (exec C timeout a o (c, w)).2.2
      (gs.set i ((fileA C).next o (exec C timeout a o (c, w)).1 g)) := by
  have hgm : g ∈ gs := List.mem_of_getElem? hg
  cases o with
  | newSession secret host id =>
    have hsub : ∀ e ∈ w.log, e ∈ w.log ++ [.established w.heap.length host id] :=
      fun e he => List.mem_append_left _ he
    have hnew : Filed C (w.log ++ [.established w.heap.length host id]) (fileName C host id)
        w.heap.length :=
      ⟨host, id, List.mem_append_right _ (List.mem_singleton_self _), rfl⟩
    refine ⟨?_, ?_, ?_, ?_, ?_⟩
    · exact fun k r t hk => (h.table k r t hk).mono hsub
    · intro g' hg' x hx
      rcases mem_set_of hg' with hm | rfl
      · exact (h.known g' hm x hx).mono hsub
      · rcases List.mem_cons.mp hx with rfl | hx
        · exact hnew
        · exact (h.known g hgm x hx).mono hsub
    · intro r c' host' id' m res hm
      rcases List.mem_append.mp hm with hm | hm
      · exact ⟨(h.calls _ _ _ _ _ _ hm).1, (h.calls _ _ _ _ _ _ hm).2.mono hsub⟩
      · cases List.mem_singleton.mp hm
    · intro r host' id' hm
      show r < (w.heap ++ [(secret, ReplayWindow.fresh)]).length ∧ _
      rw [List.length_append]
      rcases List.mem_append.mp hm with hm | hm
      · exact ⟨Nat.lt_add_right _ (h.born _ _ _ hm).1, (h.born _ _ _ hm).2⟩
      · cases List.mem_singleton.mp hm
        exact ⟨Nat.lt_succ_self _, hpre⟩
    · intro r h1 i1 h2 i2 hm1 hm2
      rcases List.mem_append.mp hm1 with hm1 | hm1 <;> rcases List.mem_append.mp hm2 with hm2 | hm2
      · exact h.once _ _ _ _ _ hm1 hm2
      · cases List.mem_singleton.mp hm2
        exact absurd (h.born _ _ _ hm1).1 (Nat.lt_irrefl _)
      · cases List.mem_singleton.mp hm1
        exact absurd (h.born _ _ _ hm2).1 (Nat.lt_irrefl _)
      · cases List.mem_singleton.mp hm1
        cases List.mem_singleton.mp hm2
        exact ⟨rfl, rfl⟩
  | mapLoad k =>
    show FileInv C w (gs.set i ((fileA C).next (.mapLoad k) (w.table k) g))
    cases ht : w.table k with
    | none => exact h.quiet hg rfl rfl rfl
    | some v =>
      obtain ⟨r, t⟩ := v
      refine ⟨h.table, ?_, h.calls, h.born, h.once⟩
      intro g' hg' x hx
      rcases mem_set_of hg' with hm | rfl
      · exact h.known g' hm x hx
      · rcases List.mem_cons.mp hx with rfl | hx
        · exact h.table k r t ht
        · exact h.known g hgm x hx
  | mapStore k v =>
    refine ⟨?_, ?_, h.calls, h.born, h.once⟩
    · intro k' r t hk
      have hk : (if k' = k then some v else w.table k') = some (r, t) := hk
      split at hk
      · rename_i hkk
        cases hk
        subst hkk
        exact h.known g hgm _ hpre
      · exact h.table k' r t hk
    · show ∀ g' ∈ gs.set i g, _
      rw [set_same hg]; exact h.known
  | mapDelete k =>
    refine ⟨?_, ?_, h.calls, h.born, h.once⟩
    · intro k' r t hk
      have hk : (if k' = k then none else w.table k') = some (r, t) := hk
      split at hk
      · cases hk
      · exact h.table k' r t hk
    · show ∀ g' ∈ gs.set i g, _
      rw [set_same hg]; exact h.known
  | check r counter =>
    show FileInv C _ (gs.set i g)
    rw [set_same hg]
    simp only [exec]
    split
    · exact h
    · dsimp only
      split
      · exact h.event (.accepted r counter) (by simp) (by simp) _ rfl (by simp) rfl
      · rw [← set_same hg]
        exact h.quiet hg rfl (by simp) rfl
  | invoke r counter host id message =>
    show FileInv C _ (gs.set i g)
    rw [set_same hg]
    refine h.event (.invoked r counter host id message a.handle) (by simp) ?_ _ rfl rfl rfl
    intro r' c' host' id' m res he
    cases he
    exact ⟨hpre.2, h.known g hgm _ hpre.1⟩
  | aead r key n pt =>
    show FileInv C _ (gs.set i g)
    rw [set_same hg]
    exact h.event (.sealed r key n pt) (by simp) (by simp) _ rfl rfl rfl
  | closeReturned =>
    show FileInv C _ (gs.set i g)
    rw [set_same hg]
    exact h.event .closeReturned (by simp) (by simp) _ rfl rfl rfl
  | write bs =>
    refine h.quiet hg ?_ ?_ ?_ <;>
    · simp only [exec, execWrite]
      split
      · rfl
      · split
        · split <;> rfl
        · rfl
  | flush =>
    refine h.quiet hg ?_ ?_ ?_ <;>
    · simp only [exec]
      split <;> rfl
  | _ => exact h.quiet hg rfl rfl rfl

theorem file_keeps (timeout : Nat) :
    Keeps (inMemory C) timeout (fileA C) (FileInv C) [] (fun _ => True) where
  exec a o c w gs i g _ _ hg hpre _ h := exec_file timeout a o c w gs i g hg hpre h
  spawn w gs h := by
    refine ⟨h.table, ?_, h.calls, h.born, h.once⟩
    intro g hg x hx
    rcases List.mem_append.mp hg with hg | hg
    · exact h.known g hg x hx
    · rw [(List.mem_replicate.mp hg).2] at hx; cases hx
  thread a o c w gs i g _ _ _ _ _ _ p _ := file_ofPeer p []

/-- The invariant holds after every schedule. -/
theorem file_run (timeout ttl closers : Nat) (acts : List (Nat × Answer C)) :
    ∃ gs, FileInv C (Sys.run (inMemory C) timeout (Sys.start ttl closers) acts).world gs := by
  obtain ⟨gs, h⟩ := (file_keeps timeout).run acts (fun _ _ => trivial) (Sys.start ttl closers)
    (List.replicate (Sys.start (C := C) ttl closers).threads.length []) (by
    refine ⟨by simp, ?_, ?_, rfl⟩
    · intro i t g ht hg
      exact file_start ttl closers g t (List.mem_of_getElem? ht)
    · refine ⟨?_, ?_, ?_, ?_, ?_⟩
      · intro k r t hk; simp [Sys.start] at hk
      · intro g hg x hx
        rw [(List.mem_replicate.mp hg).2] at hx; cases hx
      · intro r c host id m res hm; simp [Sys.start] at hm
      · intro r host id hm; simp [Sys.start] at hm
      · intro r host id host' id' hm; simp [Sys.start] at hm)
  exact ⟨gs, h.world⟩

end

end Goe2ee
