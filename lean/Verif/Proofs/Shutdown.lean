import Verif.Proofs.Interleave
import Verif.Proofs.Seq
import Verif.Spec.Shutdown

/-!
# Shutdown: goroutines of connections are in the wait group while they serve
-/

set_option autoImplicit false

namespace Goe2ee

/-- The part of a goroutine in the shutdown. -/
inductive Role where
  /-- a listener or collector -/
  | other
  /-- the accept loop, after `wg.Add(1)` and before the goroutine is started -/
  | adding
  /-- the goroutine of a connection; has it seen the server open since it last looked? -/
  | conn (serving : Bool)
  /-- … after `wg.Done()` -/
  | done
  /-- `Server.Close` after closing `quit` -/
  | closing
  /-- … and after waiting -/
  | waited
  /-- excluded by the assumptions -/
  | impossible
  deriving DecidableEq, Repr

/-- Counted in the wait group. -/
def Role.live : Role → Bool
  | .adding => true
  | .conn _ => true
  | _ => false

section
variable (C : Crypto)

/-- Roles and what they may do. -/
def roleA : Auto (SSig C) Role where
  pre
    | .wgAdd, g => g = .other ∨ g = .impossible
    | .spawn p, g => (g = .adding ∧ p.isTcp) ∨ g = .impossible
    | .wgDone, g => (∃ b, g = .conn b) ∨ g = .impossible
    | .invoke _ _ _ _ _, g => g = .conn true ∨ g = .impossible
    | .closeQuit, g => g = .other ∨ g = .impossible
    | .wgWait, g => g = .closing ∨ g = .impossible
    | .closeReturned, g => g = .waited ∨ g = .impossible
    | _, _ => True
  next
    | .quitClosed, closed, .conn _ => .conn (!closed)
    | .receive, .ok _, _ => .impossible
    | .accept, .ok (.udp _ _), _ => .impossible
    | .wgAdd, _, .other => .adding
    | .spawn _, _, .adding => .other
    | .wgDone, _, .conn _ => .done
    | .closeQuit, true, .other => .closing
    | .wgWait, _, .closing => .waited
    | .closeReturned, _, .waited => .other
    | _, _, g => g

variable {C}

/-- What the handlers do, except for calling the application. -/
def SOp.dull (o : SOp) : Prop := o.isRead ∨ o.isWrite ∨ o.isTable ∨
  match o with
  | .genKey | .sign _ _ | .fetchKey | .newSession _ _ _ | .secretOf _ | .check _ _
  | .aead _ _ _ _ => True
  | _ => False

theorem dull_pre (o : SOp) (g : Role) (h : o.dull) : (roleA C).pre o g := by
  rcases h with h | h | h | h <;> cases o <;> first | trivial | exact h.elim

theorem dull_next (o : SOp) (r : SOp.Ret C o) (g : Role) (h : o.dull) : (roleA C).next o r g = g := by
  rcases h with h | h | h | h <;> cases o <;> first | rfl | exact h.elim

/-- Effects of a handler. -/
def SOp.serving (o : SOp) : Prop := o.dull ∨ match o with
  | .invoke _ _ _ _ _ => True
  | _ => False

theorem serving_safe {α : Type} {p : SProg C α} (hp : Uses (S := SSig C) SOp.serving p) {g : Role}
    (hg : g = .conn true) {Q : α → Role → Prop} {E : String → Role → Prop} (hQ : ∀ a, Q a g)
    (hE : ∀ m, E m g) : SafeE (roleA C) p g Q E := by
  induction p with
  | ret a => exact hQ a
  | panic m => exact hE m
  | op o k ih =>
    rcases hp.1 with h | h
    · refine ⟨dull_pre o g h, fun r => ?_⟩
      rw [dull_next o r g h]
      exact ih r (hp.2 r)
    · cases o with
      | invoke r c host id m => exact ⟨.inl hg, fun r => ih r (hp.2 r)⟩
      | _ => exact h.elim

theorem isHandler_serving (o : SOp) (h : o.isHandler) : o.serving := by
  cases o <;> first
    | exact h.elim
    | exact .inr trivial
    | exact .inl (.inr (.inr (.inr trivial)))
    | exact .inl (.inr (.inr (.inl trivial)))
    | exact .inl (.inr (.inl trivial))

theorem isRead_serving (o : SOp) (h : o.isRead) : o.serving := .inl (.inl h)

theorem serving_serveRequest {M : Manager C} (hM : M.Passive) (host : Except Err Bytes) :
    Uses (S := SSig C) SOp.serving (serveRequest M host) := by
  rw [serveRequest_eq]
  refine Uses.bind ((uses_onConn _).mono isRead_serving) fun parsed => ?_
  rcases parsed with _ | common
  · trivial
  dsimp only
  split
  · trivial
  refine Uses.bind ?_ fun err => by cases err <;> trivial
  unfold handle
  split
  · exact (handler_respondWith _).mono isHandler_serving
  split
  · rw [setupHandler_eq]
    refine Uses.bind ((uses_onConn _).mono isRead_serving) fun parsed => ?_
    rcases parsed with _ | request
    · exact (handler_failWith _ _).mono isHandler_serving
    · exact (handler_setupParsed hM _ _).mono isHandler_serving
  split
  · rw [processHandler_eq]
    refine Uses.bind ((uses_onConn _).mono isRead_serving) fun parsed => ?_
    rcases parsed with _ | request
    · exact (handler_failWith _ _).mono isHandler_serving
    · exact (handler_processParsed hM _ _).mono isHandler_serving
  split
  · exact handler_fetchKey.mono isHandler_serving
  · trivial

theorem role_connPass {M : Manager C} (hM : M.Passive) (host : Except Err Bytes) (b : Bool) :
    SafeE (roleA C) (connPass M host) (.conn b) (fun _ g' => ∃ b, g' = .conn b)
      (fun _ g' => ∃ b, g' = .conn b) := by
  refine ⟨trivial, fun (closed : Bool) => ?_⟩
  cases closed with
  | true => exact ⟨false, rfl⟩
  | false =>
    refine ⟨trivial, fun _ => ?_⟩
    exact serving_safe (serving_serveRequest hM host) rfl (fun _ => ⟨true, rfl⟩) (fun _ => ⟨true, rfl⟩)

theorem role_ofPeer {M : Manager C} (hM : M.Passive) (p : Peer) (hp : p.isTcp) :
    ThreadOK (roleA C) (Thread.ofPeer M p) (.conn false) := by
  cases p with
  | udp host d => exact hp.elim
  | tcp host input =>
    refine ⟨fun g => ∃ b, g = .conn b, fun g => ∃ b, g = .conn b, ?_, ?_, ?_⟩
    · exact (role_connPass hM host false).mono (fun a g h => by cases a <;> exact h) fun _ _ h => h
    · rintro g ⟨b, rfl⟩
      exact (role_connPass hM host b).mono (fun a g h => by cases a <;> exact h) fun _ _ h => h
    · rintro g ⟨b, rfl⟩
      exact ⟨trivial, fun _ => ⟨.inl ⟨b, rfl⟩, fun _ => trivial⟩⟩

theorem role_start (ttl closers : Nat) :
    ∀ t ∈ (Sys.start (C := C) ttl closers).threads, ThreadOK (roleA C) t .other := by
  have hloop : ∀ {p : SProg C Bool},
      (∀ g, g = .other ∨ g = .impossible → SafeE (roleA C) p g
        (fun _ g' => g' = .other ∨ g' = .impossible) (fun _ g' => g' = .other ∨ g' = .impossible)) →
      ThreadOK (roleA C) (.repeating p) .other := by
    intro p hp
    refine ⟨fun g => g = .other ∨ g = .impossible, fun _ => True, ?_, ?_, fun _ _ => trivial⟩
    · exact (hp _ (.inl rfl)).mono (fun a g h => by cases a; trivial; exact h) fun _ _ _ => trivial
    · exact fun g hg => (hp g hg).mono (fun a g h => by cases a; trivial; exact h) fun _ _ _ => trivial
  refine start_threads (hloop ?_) (hloop ?_) (hloop ?_) ?_
  · rintro g (rfl | rfl)
    · refine ⟨trivial, fun (closed : Bool) => ?_⟩
      cases closed with
      | true => exact .inl rfl
      | false =>
        refine ⟨trivial, fun (acc : Except Err Peer) => ?_⟩
        match acc with
        | .error e => exact .inl rfl
        | .ok (.tcp host i) =>
          exact ⟨.inl rfl, fun _ => ⟨.inl ⟨rfl, trivial⟩, fun _ => .inl rfl⟩⟩
        | .ok (.udp host d) =>
          exact ⟨.inr rfl, fun _ => ⟨.inr rfl, fun _ => .inr rfl⟩⟩
    · refine ⟨trivial, fun (closed : Bool) => ?_⟩
      cases closed with
      | true => exact .inr rfl
      | false =>
        refine ⟨trivial, fun (acc : Except Err Peer) => ?_⟩
        match acc with
        | .error e => exact .inr rfl
        | .ok (.tcp host i) => exact ⟨.inr rfl, fun _ => ⟨.inr rfl, fun _ => .inr rfl⟩⟩
        | .ok (.udp host d) => exact ⟨.inr rfl, fun _ => ⟨.inr rfl, fun _ => .inr rfl⟩⟩
  · intro g hg
    have hq : ∀ b : Bool, (roleA C).next .quitClosed b g = g := by
      rcases hg with rfl | rfl <;> exact fun _ => rfl
    refine ⟨trivial, fun (closed : Bool) => ?_⟩
    rw [hq closed]
    cases closed with
    | true => exact hg
    | false =>
      refine ⟨trivial, fun (acc : Except Err Peer) => ?_⟩
      match acc with
      | .error e => exact hg
      | .ok p => exact ⟨.inr rfl, fun _ => .inr rfl⟩
  · intro g hg
    refine ⟨trivial, fun (key : Bytes) => ⟨trivial, fun (value : Option (Ref × Nat)) => ?_⟩⟩
    rcases value with _ | ⟨r, last⟩
    · exact hg
    refine ⟨trivial, fun (t : Nat) => ?_⟩
    dsimp only
    split
    · exact ⟨trivial, fun _ => hg⟩
    · exact hg
  · refine ⟨fun _ => True, fun _ => True, ?_, fun _ _ => trivial, fun _ _ => trivial⟩
    refine ⟨.inl rfl, fun (ok : Bool) => ?_⟩
    cases ok with
    | true => exact ⟨.inl rfl, fun _ => ⟨.inl rfl, fun _ => trivial⟩⟩
    | false => trivial

/-! ## The invariant -/

theorem NothingAfterClose.append {log : List Event} (h : NothingAfterClose log) (e : Event)
    (he : e.isInvoked = false ∨ .closeReturned ∉ log) : NothingAfterClose (log ++ [e]) := by
  intro before after heq x hx
  rcases List.eq_nil_or_concat after with rfl | ⟨l, y, rfl⟩
  · cases hx
  rw [List.concat_eq_append] at heq hx
  rw [← List.cons_append, ← List.append_assoc] at heq
  obtain ⟨h1, h2⟩ := List.append_inj' heq rfl
  cases h2
  rcases List.mem_append.mp hx with hx | hx
  · exact h before l h1 x hx
  · rw [List.mem_singleton] at hx
    subst hx
    rcases he with he | he
    · exact he
    · exact absurd (by rw [h1]; simp) he

structure CloseInv (w : World) (gs : List Role) : Prop where
  count : w.wg = gs.countP Role.live + w.spawned.length
  possible : .impossible ∉ gs
  quit : .closing ∈ gs ∨ .waited ∈ gs ∨ .closeReturned ∈ w.log → w.quit = true
  quiet : .waited ∈ gs ∨ .closeReturned ∈ w.log → .conn true ∉ gs
  order : NothingAfterClose w.log

theorem countP_setR (l : List Role) (i : Nat) (a b : Role) (h : l[i]? = some a) :
    (l.set i b).countP Role.live + (if a.live then 1 else 0) =
      l.countP Role.live + (if b.live then 1 else 0) := by
  induction l generalizing i with
  | nil => simp at h
  | cons x l ih =>
    cases i with
    | zero =>
      simp only [List.getElem?_cons_zero, Option.some.injEq] at h
      subst h
      simp only [List.set_cons_zero, List.countP_cons]
      omega
    | succ i =>
      simp only [List.getElem?_cons_succ] at h
      have := ih i h
      simp only [List.set_cons_succ, List.countP_cons]
      omega

theorem CloseInv.same {w w' : World} {gs : List Role} (h : CloseInv w gs) {i : Nat} {g : Role}
    (hg : gs[i]? = some g) (h1 : w'.wg = w.wg) (h2 : w'.spawned = w.spawned) (h3 : w'.quit = w.quit)
    (h4 : w'.log = w.log) : CloseInv w' (gs.set i g) := by
  rw [set_same hg]
  refine ⟨by rw [h1, h2]; exact h.count, h.possible, ?_, ?_, ?_⟩
  · rw [h3, h4]; exact h.quit
  · rw [h4]; exact h.quiet
  · rw [h4]; exact h.order

theorem CloseInv.event {w : World} {gs : List Role} (h : CloseInv w gs) (e : Event)
    (he : e.isInvoked = false) (hc : e ≠ .closeReturned) (w' : World) (h1 : w'.wg = w.wg)
    (h2 : w'.spawned = w.spawned) (h3 : w'.quit = w.quit) (h4 : w'.log = w.log ++ [e]) :
    CloseInv w' gs := by
  have hm : .closeReturned ∈ w'.log → .closeReturned ∈ w.log := by
    intro hm
    rw [h4] at hm
    rcases List.mem_append.mp hm with hm | hm
    · exact hm
    · exact absurd (List.mem_singleton.mp hm).symm hc
  refine ⟨by rw [h1, h2]; exact h.count, h.possible, ?_, ?_, ?_⟩
  · intro hx
    rw [h3]
    exact h.quit (hx.imp id (fun hx => hx.imp id hm))
  · exact fun hx => h.quiet (hx.imp id hm)
  · rw [h4]; exact h.order.append e (.inl he)

theorem notMem_set {l : List Role} {i : Nat} {a b : Role} (h : b ∉ l) (hb : b ≠ a) : b ∉ l.set i a := by
  intro hm
  rcases List.mem_or_eq_of_mem_set hm with hm | hm
  · exact h hm
  · exact hb hm

theorem mem_of_mem_setR {l : List Role} {i : Nat} {a b : Role} (h : b ∈ l.set i a) (hb : b ≠ a) :
    b ∈ l := by
  rcases List.mem_or_eq_of_mem_set h with hm | hm
  · exact hm
  · exact absurd hm hb

theorem exec_close (timeout : Nat) (a : Answer C) (ha : NoDatagram a) (o : SOp) (c : Conn) (w : World)
    (gs : List Role) (i : Nat) (g : Role) (hg : gs[i]? = some g) (hpre : (roleA C).pre o g)
    (hen : enabled w o = true) (h : CloseInv w gs) :
    CloseInv (exec C timeout a o (c, w)).2.2
      (gs.set i ((roleA C).next o (exec C timeout a o (c, w)).1 g)) := by
  have hgm : g ∈ gs := List.mem_of_getElem? hg
  have hgi : g ≠ .impossible := fun hh => h.possible (hh ▸ hgm)
  cases o with
  | quitClosed =>
    show CloseInv w (gs.set i ((roleA C).next .quitClosed w.quit g))
    match g, hg with
    | .conn b, hg =>
      show CloseInv w (gs.set i (.conn (!w.quit)))
      have hcnt := countP_setR gs i (.conn b) (.conn (!w.quit)) hg
      simp only [Role.live, if_true] at hcnt
      refine ⟨by have := h.count; omega, notMem_set h.possible (by simp), ?_, ?_, h.order⟩
      · rintro (hx | hx | hx)
        · exact h.quit (.inl (mem_of_mem_setR hx (by simp)))
        · exact h.quit (.inr (.inl (mem_of_mem_setR hx (by simp))))
        · exact h.quit (.inr (.inr hx))
      · intro hx
        have hx' : .waited ∈ gs ∨ .closeReturned ∈ w.log :=
          hx.imp (fun hx => mem_of_mem_setR hx (by simp)) (fun hx => hx)
        have hq := h.quit (.inr hx')
        rw [hq]
        exact notMem_set (h.quiet hx') (by simp)
    | .other, hg => exact h.same hg rfl rfl rfl rfl
    | .adding, hg => exact h.same hg rfl rfl rfl rfl
    | .done, hg => exact h.same hg rfl rfl rfl rfl
    | .closing, hg => exact h.same hg rfl rfl rfl rfl
    | .waited, hg => exact h.same hg rfl rfl rfl rfl
    | .impossible, hg => exact h.same hg rfl rfl rfl rfl
  | receive =>
    simp only [exec]
    cases hp : a.peer with
    | error e => exact h.same hg rfl rfl rfl rfl
    | ok p =>
      cases p with
      | tcp host inp => exact h.same hg rfl rfl rfl rfl
      | udp host d => exact (ha _ hp).elim
  | accept =>
    simp only [exec]
    cases hp : a.peer with
    | error e => exact h.same hg rfl rfl rfl rfl
    | ok p =>
      cases p with
      | tcp host inp => exact h.same hg rfl rfl rfl rfl
      | udp host d => exact (ha _ hp).elim
  | wgAdd =>
    rcases hpre with rfl | rfl
    · show CloseInv { w with wg := w.wg + 1 } (gs.set i .adding)
      have hcnt := countP_setR gs i .other .adding hg
      simp only [Role.live, if_true, Bool.false_eq_true, if_false] at hcnt
      refine ⟨by have := h.count; show w.wg + 1 = _ + w.spawned.length; omega,
        notMem_set h.possible (by simp), ?_, ?_, h.order⟩
      · rintro (hx | hx | hx)
        · exact h.quit (.inl (mem_of_mem_setR hx (by simp)))
        · exact h.quit (.inr (.inl (mem_of_mem_setR hx (by simp))))
        · exact h.quit (.inr (.inr hx))
      · intro hx
        exact notMem_set (h.quiet (hx.imp (fun hx => mem_of_mem_setR hx (by simp)) (fun hx => hx)))
          (by simp)
    · exact absurd rfl hgi
  | spawn p =>
    rcases hpre with ⟨rfl, -⟩ | rfl
    · show CloseInv { w with spawned := w.spawned ++ [p] } (gs.set i .other)
      have hcnt := countP_setR gs i .adding .other hg
      simp only [Role.live, if_true, Bool.false_eq_true, if_false] at hcnt
      refine ⟨by
          have := h.count
          show w.wg = _ + (w.spawned ++ [p]).length
          rw [List.length_append, List.length_singleton]; omega,
        notMem_set h.possible (by simp), ?_, ?_, h.order⟩
      · rintro (hx | hx | hx)
        · exact h.quit (.inl (mem_of_mem_setR hx (by simp)))
        · exact h.quit (.inr (.inl (mem_of_mem_setR hx (by simp))))
        · exact h.quit (.inr (.inr hx))
      · intro hx
        exact notMem_set (h.quiet (hx.imp (fun hx => mem_of_mem_setR hx (by simp)) (fun hx => hx)))
          (by simp)
    · exact absurd rfl hgi
  | wgDone =>
    rcases hpre with ⟨b, rfl⟩ | rfl
    · show CloseInv { w with wg := w.wg - 1 } (gs.set i .done)
      have hcnt := countP_setR gs i (.conn b) .done hg
      simp only [Role.live, if_true, Bool.false_eq_true, if_false] at hcnt
      refine ⟨by have := h.count; show w.wg - 1 = _ + w.spawned.length; omega,
        notMem_set h.possible (by simp), ?_, ?_, h.order⟩
      · rintro (hx | hx | hx)
        · exact h.quit (.inl (mem_of_mem_setR hx (by simp)))
        · exact h.quit (.inr (.inl (mem_of_mem_setR hx (by simp))))
        · exact h.quit (.inr (.inr hx))
      · intro hx
        exact notMem_set (h.quiet (hx.imp (fun hx => mem_of_mem_setR hx (by simp)) (fun hx => hx)))
          (by simp)
    · exact absurd rfl hgi
  | closeQuit =>
    rcases hpre with rfl | rfl
    · show CloseInv { w with quit := true } (gs.set i ((roleA C).next .closeQuit (!w.quit) .other))
      cases hq : w.quit with
      | true =>
        show CloseInv { w with quit := true } (gs.set i .other)
        rw [← hq]
        exact h.same hg rfl rfl rfl rfl
      | false =>
        show CloseInv { w with quit := true } (gs.set i .closing)
        have hcnt := countP_setR gs i .other .closing hg
        simp only [Role.live, Bool.false_eq_true, if_false] at hcnt
        refine ⟨by have := h.count; show w.wg = _ + w.spawned.length; omega,
          notMem_set h.possible (by simp), fun _ => rfl, ?_, h.order⟩
        intro hx
        exact notMem_set (h.quiet (hx.imp (fun hx => mem_of_mem_setR hx (by simp)) (fun hx => hx)))
          (by simp)
    · exact absurd rfl hgi
  | wgWait =>
    rcases hpre with rfl | rfl
    · show CloseInv w (gs.set i .waited)
      have hcnt := countP_setR gs i .closing .waited hg
      simp only [Role.live, Bool.false_eq_true, if_false] at hcnt
      have hq := h.quit (.inl hgm)
      have hz : w.wg = 0 := by simpa [enabled] using hen
      have hnone : gs.countP Role.live = 0 := by have := h.count; omega
      rw [List.countP_eq_zero] at hnone
      refine ⟨by have := h.count; omega, notMem_set h.possible (by simp), fun _ => hq, ?_, h.order⟩
      exact fun _ => notMem_set (fun hm => absurd rfl (hnone _ hm)) (by simp)
    · exact absurd rfl hgi
  | closeReturned =>
    rcases hpre with rfl | rfl
    · show CloseInv { w with log := w.log ++ [.closeReturned] } (gs.set i .other)
      have hcnt := countP_setR gs i .waited .other hg
      simp only [Role.live, Bool.false_eq_true, if_false] at hcnt
      refine ⟨by have := h.count; show w.wg = _ + w.spawned.length; omega,
        notMem_set h.possible (by simp), fun _ => h.quit (.inr (.inl hgm)), ?_,
        h.order.append _ (.inl rfl)⟩
      exact fun _ => notMem_set (h.quiet (.inl hgm)) (by simp)
    · exact absurd rfl hgi
  | invoke r counter host id message =>
    rcases hpre with rfl | rfl
    · show CloseInv { w with log := w.log ++ [.invoked r counter host id message a.handle] }
        (gs.set i (.conn true))
      rw [set_same hg]
      have hno : .closeReturned ∉ w.log := fun hm => h.quiet (.inr hm) hgm
      have hm : Event.closeReturned ∈ w.log ++ [.invoked r counter host id message a.handle] →
          .closeReturned ∈ w.log := by
        intro hm
        rcases List.mem_append.mp hm with hm | hm
        · exact hm
        · cases List.mem_singleton.mp hm
      refine ⟨h.count, h.possible, ?_, ?_, h.order.append _ (.inr hno)⟩
      · exact fun hx => h.quit (hx.imp (fun x => x) (fun hx => hx.imp (fun x => x) hm))
      · exact fun hx => h.quiet (hx.imp (fun x => x) hm)
    · exact absurd rfl hgi
  | newSession secret host id =>
    show CloseInv _ (gs.set i g)
    rw [set_same hg]
    exact h.event (.established w.heap.length host id) rfl (by simp) _ rfl rfl rfl rfl
  | aead r key n pt =>
    show CloseInv _ (gs.set i g)
    rw [set_same hg]
    exact h.event (.sealed r key n pt) rfl (by simp) _ rfl rfl rfl rfl
  | check r counter =>
    show CloseInv _ (gs.set i g)
    rw [set_same hg]
    simp only [exec]
    split
    · exact h
    · dsimp only
      split
      · exact h.event (.accepted r counter) rfl (by simp) _ rfl rfl rfl rfl
      · rw [← set_same hg]
        exact h.same hg rfl rfl rfl rfl
  | write bs =>
    refine h.same hg ?_ ?_ ?_ ?_ <;>
    · simp only [exec, execWrite]
      split
      · rfl
      · split
        · split <;> rfl
        · rfl
  | flush =>
    refine h.same hg ?_ ?_ ?_ ?_ <;>
    · simp only [exec]
      split <;> rfl
  | _ => exact h.same hg rfl rfl rfl rfl

theorem exec_spawned (timeout : Nat) (a : Answer C) (o : SOp) (c : Conn) (w : World) :
    (exec C timeout a o (c, w)).2.2.spawned =
      w.spawned ++ (match o with | .spawn p => [p] | _ => []) := by
  cases o with
  | spawn p => rfl
  | check r counter =>
    simp only [exec]
    split <;> simp
  | write bs =>
    simp only [exec, execWrite]
    split
    · simp
    · split
      · split <;> simp
      · simp
  | flush =>
    simp only [exec]
    split <;> simp
  | _ => simp [exec]

theorem close_keeps {M : Manager C} (hM : M.Passive) (timeout : Nat) :
    Keeps M timeout (roleA C) CloseInv (.conn false) NoDatagram where
  exec a o c w gs i g ha _ hg hpre hen h := exec_close timeout a ha o c w gs i g hg hpre hen h
  spawn w gs h := by
    have hmem : ∀ x, x ≠ .conn false →
        x ∈ gs ++ List.replicate w.spawned.length (Role.conn false) → x ∈ gs := by
      intro x hx hm
      rcases List.mem_append.mp hm with hm | hm
      · exact hm
      · exact absurd (List.mem_replicate.mp hm).2 hx
    refine ⟨?_, fun hm => h.possible (hmem _ (by simp) hm), ?_, ?_, h.order⟩
    · rw [List.countP_append, List.countP_replicate]
      have := h.count
      simp only [Role.live, if_true]
      exact this
    · rintro (hx | hx | hx)
      · exact h.quit (.inl (hmem _ (by simp) hx))
      · exact h.quit (.inr (.inl (hmem _ (by simp) hx)))
      · exact h.quit (.inr (.inr hx))
    · intro hx hm
      exact h.quiet (hx.imp (hmem _ (by simp)) (fun x => x)) (hmem _ (by simp) hm)
  thread a o c w gs i g ha hs hg hpre hen h p hp := by
    rw [exec_spawned, hs] at hp
    cases o with
    | spawn q =>
      simp only [List.nil_append, List.mem_singleton] at hp
      subst hp
      rcases hpre with ⟨-, hp⟩ | rfl
      · exact role_ofPeer hM p hp
      · exact absurd (List.mem_of_getElem? hg) h.possible
    | _ => simp at hp

end

end Goe2ee
