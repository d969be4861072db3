import Verif.Proofs.Lifecycle

/-!
# C86–C89: what remains of a server after `Close`

`Started opts keyOk users cfg s`: the application called `NewServer` with the options `opts`; goroutines of
the application make the calls `users` (`StartTCP`, `StartUDP`, `Close`); `s` is a state reached after any
number of steps of any goroutines, with any clients outside.
-/

set_option autoImplicit false

namespace Goe2ee

def Started (opts : List ServerOption) (keyOk : Bool) (users : List (List Call)) (cfg : LConfig)
    (s : LState) : Prop :=
  ∃ s0, newServer opts keyOk users = some (cfg, s0) ∧ LRuns cfg s0 s

theorem Started.inv {opts : List ServerOption} {keyOk : Bool} {users : List (List Call)} {cfg : LConfig}
    {s : LState} (h : Started opts keyOk users cfg s) : LInv cfg s := by
  obtain ⟨s0, h0, h1⟩ := h
  exact (newServer_inv h0).runs h1

/-- A run given step by step: each entry is the number of the goroutine that moves. -/
theorem LRuns.one {cfg : LConfig} {s s' : LState} {e : Option Ext} {g g' : Go} {w' : LWorld}
    {new : List Go} (h : LRuns cfg s s') (i : Nat) (hc : s'.world.crashed = false)
    (hi : s'.gos[i]? = some g) (hg : GStep cfg e g s'.world g' w' new) :
    LRuns cfg s { world := w', gos := s'.gos.set i g' ++ new } := .step h (.go hc hi hg)

/-! ## C86 -/

/-- **C86**, as one would want it: once `Server.Close` has returned and nothing moves any more, all
listening sockets are closed. -/
def C86_claim : Prop :=
  ∀ (opts : List ServerOption) (keyOk : Bool) (users : List (List Call)) (cfg : LConfig) (s : LState),
    Started opts keyOk users cfg s → s.world.returned = true → s.world.crashed = false → s.AtRest cfg →
    ∀ l : Nat, s.world.socks[l]? ≠ some true

namespace LifecycleExample

/-- The configuration of `NewServer(handler)`. -/
def cfg : LConfig :=
  { logger := true, store := .inMemory 0, readTimeout := 60000000000, writeTimeout := 5000000000 }

def mgr : Mgr := { gcTicker := 60000000000, ttl := 900000000000, closed := false }

def world : LWorld :=
  { quit := false, wg := 0, mgrs := [mgr], socks := [], returned := false, lost := 0, crashed := false }

theorem default_server (users : List (List Call)) (keyOk : Bool) (hk : keyOk = true) :
    newServer [] keyOk users = some (cfg, { world, gos := .gcStart 0 :: users.map .user }) := by
  subst hk; rfl

/-- A server that listens with TCP, and is closed. -/
def closedTCP : LState :=
  { world := { world with quit := true, socks := [true], returned := true,
                          mgrs := [{ mgr with closed := true }] },
    gos := [.ended, .user [], .acceptWait 0] }

theorem closedTCP_started : Started [] true [[.startTCP, .close]] cfg closedTCP := by
  refine ⟨_, default_server _ _ rfl, ?_⟩
  have h0 : LRuns cfg { world, gos := [.gcStart 0, .user [.startTCP, .close]] }
    { world, gos := [.gcStart 0, .user [.startTCP, .close]] } := .refl
  have h1 := h0.one 1 rfl rfl .startTCP
  have h2 := h1.one 2 rfl rfl (.acceptGo rfl)
  have h3 := h2.one 1 rfl rfl (.close rfl)
  have h4 := h3.one 1 rfl rfl (.closed rfl)
  have h5 := h4.one 0 rfl rfl (.gcGo rfl (by decide))
  have h6 := h5.one 0 rfl rfl (.gcQuit rfl rfl)
  exact h6

theorem closedTCP_rests : closedTCP.AtRest cfg := by
  intro s' h
  obtain ⟨-, hi, hg⟩ := h
  rename_i i g g' w' new
  rcases i with _ | _ | _ | i
  · cases hi; cases hg
  · cases hi; cases hg
  · cases hi; cases hg
  · cases hi

end LifecycleExample

/-- **C86 is refuted**: a TCP listener waits in `Accept`, nobody connects, and its socket stays open. -/
theorem C86_refuted : ¬ C86_claim := fun h =>
  h [] true _ _ _ LifecycleExample.closedTCP_started rfl rfl LifecycleExample.closedTCP_rests 0 rfl

/-- **C86**, what holds (`_partial`: sockets of listeners that wait stay open): after `Close`, at rest, a
socket is open only if its goroutine waits for a client, and with a read timeout only TCP listeners do. -/
theorem C86_only_waiting_partial {opts : List ServerOption} {keyOk : Bool} {users : List (List Call)}
    {cfg : LConfig} {s : LState} (h : Started opts keyOk users cfg s) (hq : s.world.returned = true)
    (hc : s.world.crashed = false) (hr : s.AtRest cfg) (l : Nat) (hl : s.world.socks[l]? = some true) :
    .acceptWait l ∈ s.gos ∨ (cfg.readTimeout ≤ 0 ∧ .packetWait l ∈ s.gos) := by
  obtain ⟨g, hg, ho⟩ := h.inv.own l hl
  have hq := h.inv.retq hq
  have stuck := rest_go hr hc hg
  cases g <;> simp [Go.owns] at ho
  case acceptTop => exact absurd (.acceptQuit hq) (stuck _ _ _)
  case acceptWait => subst ho; exact .inl hg
  case acceptGot => exact absurd .acceptSpawn (stuck _ _ _)
  case acceptGone => exact absurd .acceptClose (stuck _ _ _)
  case packetTop => exact absurd (.packetQuit hq) (stuck _ _ _)
  case packetWait =>
    subst ho
    by_cases ht : cfg.readTimeout > 0
    · exact absurd (.receiveTimeout ht) (stuck _ _ _)
    · exact .inr ⟨by omega, hg⟩
  case packetGot => exact absurd .packetSpawn (stuck _ _ _)
  case packetGone => exact absurd .packetClose (stuck _ _ _)

/-- **C86**, when rest is reached: after `Close` was called, every sequence of steps without new events
outside ends, after at most `effort` steps, which depends on the number of goroutines only. -/
theorem C86_rest_is_reached {cfg : LConfig} {s : LState} (hq : s.world.quit = true) :
    (∀ n s', LAlone cfg n s s' → n ≤ s.effort) ∧ ∃ n s', LAlone cfg n s s' ∧ s'.AtRest cfg := by
  refine ⟨fun n s' h => ?_, LAlone.comes_to_rest _ s hq (Nat.le_refl _)⟩
  have := h.bound hq
  omega

/-- What goroutine `i`, which has a connection at the listener `l`, does next. -/
def Leaves (i l : Nat) (s : LState) : Prop :=
  l < s.world.socks.length ∧ (s.gos[i]? = some (.acceptGot l) ∨ s.gos[i]? = some (.acceptTop l) ∨
    s.gos[i]? = some (.acceptGone l) ∨ (s.gos[i]? = some .ended ∧ s.world.socks[l]? = some false))

theorem Leaves.step {cfg : LConfig} {s s' : LState} {i l : Nat} (h : Leaves i l s)
    (hs : LStep cfg none s s') (hq : s.world.quit = true) : Leaves i l s' := by
  obtain ⟨hc, hj, hg⟩ := hs
  rename_i j g g' w' new
  obtain ⟨hl, h⟩ := h
  have hlen : j < s.gos.length := (List.getElem?_eq_some_iff.mp hj).1
  have hsl : l < w'.socks.length ∧ (s.world.socks[l]? = some false → w'.socks[l]? = some false) := by
    cases hg
    case acceptClose k | packetClose k =>
      refine ⟨by simpa using hl, fun h => ?_⟩
      by_cases hk : k = l
      · subst hk; simp [hl]
      · simpa [List.getElem?_set_ne hk] using h
    case startTCP | startUDP =>
      refine ⟨by simp; omega, fun h => ?_⟩
      simpa [List.getElem?_append_left hl] using h
    all_goals exact ⟨hl, id⟩
  refine ⟨hsl.1, ?_⟩
  by_cases hij : j = i
  · subst hij
    have hself : (s.gos.set j g' ++ new)[j]? = some g' := by
      rw [List.getElem?_append_left (by simpa using hlen), List.getElem?_set_self hlen]
    dsimp only
    rw [hself]
    rcases h with h | h | h | ⟨h, h'⟩ <;> rw [hj] at h <;> cases h <;> cases hg
    · exact .inr (.inl rfl)
    · exact .inr (.inr (.inl rfl))
    · rename_i hq'; rw [hq] at hq'; cases hq'
    · exact .inr (.inr (.inr ⟨rfl, by simp [hl]⟩))
  · have hother : ∀ x, s.gos[i]? = some x → (s.gos.set j g' ++ new)[i]? = some x := by
      intro x hx
      have hi : i < s.gos.length := (List.getElem?_eq_some_iff.mp hx).1
      rw [List.getElem?_append_left (by simpa using hi), List.getElem?_set_ne hij, hx]
    rcases h with h | h | h | ⟨h, h'⟩
    · exact .inl (hother _ h)
    · exact .inr (.inl (hother _ h))
    · exact .inr (.inr (.inl (hother _ h)))
    · exact .inr (.inr (.inr ⟨hother _ h, hsl.2 h'⟩))

/-- **C86**, how a waiting listener ends: when one more client connects after `Close`, the listener's
socket is closed (by the time nothing moves any more). -/
theorem C86_closed_by_next_client {opts : List ServerOption} {keyOk : Bool} {users : List (List Call)}
    {cfg : LConfig} {s : LState} (h : Started opts keyOk users cfg s) (hq : s.world.quit = true)
    (i l : Nat) (hi : s.gos[i]? = some (.acceptWait l)) (n : Nat) (s' : LState)
    (hs : LAlone cfg n { s with gos := s.gos.set i (.acceptGot l) } s') (hr : s'.AtRest cfg)
    (hc : s'.world.crashed = false) : s'.world.socks[l]? = some false := by
  have hlen : i < s.gos.length := (List.getElem?_eq_some_iff.mp hi).1
  have h0 : Leaves i l { s with gos := s.gos.set i (.acceptGot l) } :=
    ⟨h.inv.valid _ (List.mem_of_getElem? hi) l (by simp [Go.owns]), .inl (List.getElem?_set_self hlen)⟩
  have hq' : s'.world.quit = true := hs.quit hq
  have h1 : Leaves i l s' := by
    generalize he : ({ s with gos := s.gos.set i (.acceptGot l) } : LState) = s1 at hs h0
    have hq1 : s1.world.quit = true := by rw [← he]; exact hq
    clear he hq' hr hc
    induction hs with
    | refl => exact h0
    | step h2 h3 ih => exact (ih h0 hq1).step h3 (h2.quit hq1)
  rcases h1.2 with h2 | h2 | h2 | ⟨-, h2⟩
  · exact absurd .acceptSpawn (rest_go hr hc (List.mem_of_getElem? h2) _ _ _)
  · exact absurd (.acceptQuit hq') (rest_go hr hc (List.mem_of_getElem? h2) _ _ _)
  · exact absurd .acceptClose (rest_go hr hc (List.mem_of_getElem? h2) _ _ _)
  · exact h2

/-! ## C87 -/

/-- **C87**, as one would want it: once `Server.Close` has returned, nothing moves any more and no socket
is open, no goroutine of the server remains. -/
def C87_claim : Prop :=
  ∀ (opts : List ServerOption) (keyOk : Bool) (users : List (List Call)) (cfg : LConfig) (s : LState),
    Started opts keyOk users cfg s → s.world.returned = true → s.world.crashed = false → s.AtRest cfg →
    (∀ l : Nat, s.world.socks[l]? ≠ some true) → ∀ g ∈ s.gos, g = .ended ∨ ∃ calls, g = .user calls

namespace LifecycleExample

/-- A server with a session manager of the application, closed. -/
def closedCustom : LState :=
  { world := { world with quit := true, returned := true },
    gos := [.gcWait 0, .user []] }

def customCfg : LConfig := { cfg with store := .custom }

theorem closedCustom_started :
    Started [.secretManager (some .custom)] true [[.close]] customCfg closedCustom := by
  refine ⟨{ world, gos := [.gcStart 0, .user [.close]] }, rfl, ?_⟩
  have h0 : LRuns customCfg { world, gos := [.gcStart 0, .user [.close]] }
    { world, gos := [.gcStart 0, .user [.close]] } := .refl
  have h1 := h0.one 1 rfl rfl (.close rfl)
  have h2 := h1.one 1 rfl rfl (.closed rfl)
  have h3 := h2.one 0 rfl rfl (.gcGo rfl (by decide))
  exact h3

theorem closedCustom_rests : closedCustom.AtRest customCfg := by
  intro s' h
  obtain ⟨-, hi, hg⟩ := h
  rename_i i g g' w' new
  rcases i with _ | _ | i
  · cases hi
    cases hg with
    | gcQuit h1 h2 => cases h1; cases h2
  · cases hi; cases hg
  · cases hi

end LifecycleExample

/-- **C87 is refuted**: `NewServer` creates the default session manager before it looks at the options;
with a session manager of the application nothing ever stops the default one's collector. -/
theorem C87_refuted : ¬ C87_claim := by
  intro h
  have := h _ true _ _ _ LifecycleExample.closedCustom_started rfl rfl LifecycleExample.closedCustom_rests
    (by intro l; simp [LifecycleExample.closedCustom, LifecycleExample.world]) (.gcWait 0) (by
      simp [LifecycleExample.closedCustom])
  rcases this with h | ⟨_, h⟩ <;> cases h

/-- **C87**, what holds (`_partial`: collectors of other managers and waiting listeners remain): after
`Close` returned, at rest, each goroutine has ended, or is a listener that waits for a client (of a UDP
socket: only without read timeout), or the collector of a session manager that is not the server's. -/
theorem C87_what_remains_partial {opts : List ServerOption} {keyOk : Bool} {users : List (List Call)}
    {cfg : LConfig} {s : LState} (h : Started opts keyOk users cfg s) (hret : s.world.returned = true)
    (hc : s.world.crashed = false) (hr : s.AtRest cfg) :
    ∀ g ∈ s.gos, g = .ended ∨ g = .user [] ∨ (∃ l, g = .acceptWait l) ∨
      (cfg.readTimeout ≤ 0 ∧ ∃ l, g = .packetWait l) ∨ ∃ m, g = .gcWait m ∧ cfg.store ≠ .inMemory m := by
  intro g hg
  have hinv := h.inv
  have hq := hinv.retq hret
  have stuck := rest_go hr hc hg
  cases g
  case acceptTop => exact absurd (.acceptQuit hq) (stuck _ _ _)
  case acceptWait l => exact .inr (.inr (.inl ⟨l, rfl⟩))
  case acceptGot => exact absurd .acceptSpawn (stuck _ _ _)
  case acceptGone => exact absurd .acceptClose (stuck _ _ _)
  case connTop => exact absurd (.connQuit hq) (stuck _ _ _)
  case connRead => exact absurd rfl (hinv.over hret _ hg).1
  case connServe => exact absurd .connServed (stuck _ _ _)
  case connGone => exact absurd .connEnd (stuck _ _ _)
  case packetTop => exact absurd (.packetQuit hq) (stuck _ _ _)
  case packetWait l =>
    by_cases ht : cfg.readTimeout > 0
    · exact absurd (.receiveTimeout ht) (stuck _ _ _)
    · exact .inr (.inr (.inr (.inl ⟨by omega, l, rfl⟩)))
  case packetGot => exact absurd .packetSpawn (stuck _ _ _)
  case packetGone => exact absurd .packetClose (stuck _ _ _)
  case datagram => exact absurd .datagramSent (stuck _ _ _)
  case gcStart m =>
    have hm := hinv.mg _ hg m (by simp [Go.collects])
    by_cases ht : s.world.mgrs[m].gcTicker > 0
    · exact absurd (.gcGo (List.getElem?_eq_getElem hm) ht) (stuck _ _ _)
    · exact absurd (.gcPanics (List.getElem?_eq_getElem hm) ht) (stuck _ _ _)
  case gcWait m =>
    refine .inr (.inr (.inr (.inr ⟨m, rfl, fun hst => ?_⟩)))
    have hm := List.getElem?_eq_getElem (hinv.mg _ hg m (by simp [Go.collects]))
    exact stuck _ _ _ (.gcQuit hm (hinv.ret hret m _ hst hm))
  case gcVisit => exact absurd .gcVisited (stuck _ _ _)
  case user cs =>
    cases cs with
    | nil => exact .inr (.inl rfl)
    | cons c cs =>
      by_cases hcl : c = .close
      · subst hcl; exact absurd (.closeTwice hq) (stuck _ _ _)
      · exact absurd (.startFails hcl) (stuck _ _ _)
  case closeWait cs =>
    have hwg : s.world.wg ≠ 0 := fun h0 => stuck _ _ _ (.closed h0)
    rw [hinv.wg] at hwg
    obtain ⟨x, hx, hconn⟩ := List.countP_pos_iff.mp (Nat.pos_of_ne_zero hwg)
    have stuck' := rest_go hr hc hx
    cases x <;> simp [Go.isConn] at hconn
    · exact absurd (.connQuit hq) (stuck' _ _ _)
    · exact absurd rfl (hinv.over hret _ hx).1
    · exact absurd .connServed (stuck' _ _ _)
    · exact absurd .connEnd (stuck' _ _ _)
  case ended => exact .inl rfl

/-- The number of managers does not change. -/
theorem mgrs_length {cfg : LConfig} {s s' : LState} (h : LRuns cfg s s') :
    s'.world.mgrs.length = s.world.mgrs.length := by
  induction h with
  | refl => rfl
  | step _ h1 ih =>
    rw [← ih]
    obtain ⟨-, -, hg⟩ := h1
    cases hg <;> first | rfl | skip
    cases cfg.store <;> simp

/-- **C87**, the default session manager: after `Close` returned, at rest, with a read timeout, only
listeners that wait for a TCP client remain. -/
theorem C87_default_manager_partial {opts : List ServerOption} {keyOk : Bool} {users : List (List Call)}
    {cfg : LConfig} {s : LState} (h : Started opts keyOk users cfg s) (hret : s.world.returned = true)
    (hc : s.world.crashed = false) (hr : s.AtRest cfg) (hstore : cfg.store = .inMemory 0)
    (ht : cfg.readTimeout > 0) :
    ∀ g ∈ s.gos, g = .ended ∨ g = .user [] ∨ ∃ l, g = .acceptWait l := by
  intro g hg
  have hlen : s.world.mgrs.length = 1 := by
    obtain ⟨s0, h0, h1⟩ := h
    rw [mgrs_length h1]
    unfold newServer at h0
    split at h0
    · cases h0
    · dsimp only at h0
      split at h0
      · cases h0
      · split at h0 <;> cases h0 <;> first | rfl | cases hstore
  rcases C87_what_remains_partial h hret hc hr g hg with h1 | h1 | h1 | ⟨h1, -⟩ | ⟨m, rfl, h1⟩
  · exact .inl h1
  · exact .inr (.inl h1)
  · exact .inr (.inr h1)
  · omega
  · have := h.inv.mg _ hg m (by simp [Go.collects])
    rw [hlen] at this
    exact absurd (by rw [hstore]; congr 1; omega) h1

/-- **C87**, `Close` returns: with a read timeout, when nothing moves any more after `Close` was called, no
goroutine that serves a connection remains and no `Close` still waits, whether or not the clients say
anything. -/
theorem C87_close_returns {opts : List ServerOption} {keyOk : Bool} {users : List (List Call)}
    {cfg : LConfig} {s : LState} (h : Started opts keyOk users cfg s) (hq : s.world.quit = true)
    (hc : s.world.crashed = false) (hr : s.AtRest cfg) (ht : cfg.readTimeout > 0) :
    .connTop ∉ s.gos ∧ .connRead ∉ s.gos ∧ .connServe ∉ s.gos ∧ .connGone ∉ s.gos ∧
      ∀ cs, .closeWait cs ∉ s.gos := by
  have h1 : .connTop ∉ s.gos := fun hg => rest_go hr hc hg _ _ _ (.connQuit hq)
  have h2 : .connRead ∉ s.gos := fun hg => rest_go hr hc hg _ _ _ (.connTimeout ht)
  have h3 : .connServe ∉ s.gos := fun hg => rest_go hr hc hg _ _ _ .connServed
  have h4 : .connGone ∉ s.gos := fun hg => rest_go hr hc hg _ _ _ .connEnd
  refine ⟨h1, h2, h3, h4, fun cs hg => ?_⟩
  have hwg : s.world.wg ≠ 0 := fun h0 => rest_go hr hc hg _ _ _ (.closed h0)
  rw [h.inv.wg] at hwg
  obtain ⟨x, hx, hconn⟩ := List.countP_pos_iff.mp (Nat.pos_of_ne_zero hwg)
  cases x <;> simp [Go.isConn] at hconn
  · exact h1 hx
  · exact h2 hx
  · exact h3 hx
  · exact h4 hx

/-- **C87**, without a read timeout (`ServerWithReadTimeout(0)`) one client that connects and says nothing
keeps `Close` waiting for ever. -/
theorem C87_silent_client : ∃ (cfg : LConfig) (s : LState),
    Started [.readTimeout 0] true [[.startTCP, .close]] cfg s ∧ s.world.crashed = false ∧ s.AtRest cfg ∧
    .closeWait [] ∈ s.gos ∧ s.world.returned = false := by
  have h0 : LRuns { LifecycleExample.cfg with readTimeout := 0 }
    { world := LifecycleExample.world, gos := [.gcStart 0, .user [.startTCP, .close]] }
    { world := LifecycleExample.world, gos := [.gcStart 0, .user [.startTCP, .close]] } := .refl
  have h1 := h0.one 1 rfl rfl .startTCP
  have h2 := h1.one 2 rfl rfl (.acceptGo rfl)
  have h3 := h2.one 2 rfl rfl .accepted
  have h4 := h3.one 2 rfl rfl .acceptSpawn
  have h5 := h4.one 3 rfl rfl (.connGo rfl)
  have h6 := h5.one 1 rfl rfl (.close rfl)
  have h7 := h6.one 2 rfl rfl (.acceptQuit rfl)
  have h8 := h7.one 2 rfl rfl .acceptClose
  have h9 := h8.one 0 rfl rfl (.gcGo rfl (by decide))
  refine ⟨_, _, ⟨_, rfl, h9⟩, rfl, ?_, by decide, rfl⟩
  intro s' h
  obtain ⟨-, hi, hg⟩ := h
  rename_i i g g' w' new
  rcases i with _ | _ | _ | _ | i
  · cases hi
    cases hg with
    | gcQuit h1 h2 => cases h1; cases h2
  · cases hi
    cases hg with
    | closed h => cases h
  · cases hi; cases hg
  · cases hi
    cases hg with
    | connTimeout h => exact absurd h (by decide)
  · cases hi

/-! ## C88 -/

/-- **C88**, `nil` managers: `NewServer` does not return a server (the option panics in the caller's
goroutine) exactly if an option passes a `nil` manager, or no key manager is passed and no key can be
generated. -/
theorem C88_nil_managers (opts : List ServerOption) (keyOk : Bool) (users : List (List Call)) :
    newServer opts keyOk users = none ↔
      .keyManager false ∈ opts ∨ .secretManager none ∈ opts ∨
        (keyOk = false ∧ .keyManager true ∉ opts) := by
  have hpan : opts.any ServerOption.panics = true ↔ .keyManager false ∈ opts ∨ .secretManager none ∈ opts := by
    rw [List.any_eq_true]
    constructor
    · rintro ⟨o, ho, hp⟩
      cases o with
      | keyManager b => cases b with
        | false => exact .inl ho
        | true => cases hp
      | secretManager m => cases m with
        | none => exact .inr ho
        | some m => cases hp
      | _ => cases hp
    · rintro (h | h)
      · exact ⟨_, h, rfl⟩
      · exact ⟨_, h, rfl⟩
  have hkey : ∀ x : ServerOptions, opts.any ServerOption.panics = false →
      ((opts.foldl (fun x o => o.apply x) x).keyManager = true ↔
        x.keyManager = true ∨ .keyManager true ∈ opts) := by
    clear hpan
    induction opts with
    | nil => intro x _; simp
    | cons o opts ih =>
      intro x hp
      rw [List.any_cons, Bool.or_eq_false_iff] at hp
      rw [List.foldl_cons, ih _ hp.2]
      cases o with
      | keyManager b =>
        cases b with
        | false => cases hp.1
        | true => simp [ServerOption.apply]
      | _ => simp [ServerOption.apply]
  unfold newServer
  by_cases hp : opts.any ServerOption.panics = true
  · rw [if_pos hp]
    rcases hpan.mp hp with h | h
    · exact ⟨fun _ => .inl h, fun _ => rfl⟩
    · exact ⟨fun _ => .inr (.inl h), fun _ => rfl⟩
  · rw [if_neg hp]
    have hno := mt hpan.mpr hp
    have hk := hkey defaultOptions (by simpa using hp)
    dsimp only
    split
    · rename_i h
      simp only [Bool.and_eq_true, Bool.not_eq_true'] at h
      refine ⟨fun _ => .inr (.inr ⟨h.2, fun hm => ?_⟩), fun _ => rfl⟩
      rw [hk.mpr (.inr hm)] at h
      cases h.1
    · rename_i h
      simp only [Bool.and_eq_true, Bool.not_eq_true', not_and] at h
      constructor
      · intro hn
        split at hn <;> cases hn
      rintro (h1 | h1 | ⟨h1, h2⟩)
      · exact absurd (.inl h1) hno
      · exact absurd (.inr h1) hno
      · have : (opts.foldl (fun x o => o.apply x) defaultOptions).keyManager ≠ true := by
          rw [Ne, hk]
          rintro (h3 | h3)
          · cases h3
          · exact h2 h3
        exact absurd h1 (h (by simpa using this))

example : newServer [.readTimeout 5, .secretManager none] true [] = none ∧
    (newServer [.readTimeout 5] true []).isSome = true := ⟨rfl, rfl⟩

/-- As long as the process has not ended, each `Close` is still to come, or is the one that closed the
channel. -/
theorem closes_pending {cfg : LConfig} {s s' : LState} (h : LRuns cfg s s') (hq : s.world.quit = false)
    (hc : s'.world.crashed = false) :
    (s'.gos.map Go.closes).sum + (if s'.world.quit then 1 else 0) = (s.gos.map Go.closes).sum := by
  induction h with
  | refl => simp [hq]
  | step h1 h2 ih =>
    obtain ⟨hc0, hi, hg⟩ := h2
    rename_i i g g' w' new
    have ih := ih hc0
    have hsum := sum_set Go.closes g' hi
    dsimp only at hc ⊢
    rw [List.map_append, List.sum_append]
    cases hg <;> simp_all [Go.closes, LWorld.log] <;> omega

/-- **C88**, why the number of `Close` calls matters: if `Close` is called twice, anywhere in the
application, the process ends (with a read timeout; without one, the first call may wait for ever). -/
theorem C88_second_close {opts : List ServerOption} {keyOk : Bool} {users : List (List Call)}
    {cfg : LConfig} {s : LState} (h : Started opts keyOk users cfg s)
    (h2 : (users.map fun cs => cs.count .close).sum ≥ 2) (ht : cfg.readTimeout > 0) (hr : s.AtRest cfg) :
    s.world.crashed = true := by
  refine Classical.byContradiction fun hc => ?_
  have hc : s.world.crashed = false := by simpa using hc
  have hs := h
  obtain ⟨s0, h0, h1⟩ := hs
  have hstart : s0.world.quit = false ∧ (s0.gos.map Go.closes).sum ≥ 2 := by
    have hu : ((users.map Go.user).map Go.closes).sum ≥ 2 := by
      rw [List.map_map]; exact h2
    unfold newServer at h0
    split at h0
    · cases h0
    · dsimp only at h0
      split at h0
      · cases h0
      · split at h0 <;> cases h0 <;> refine ⟨rfl, ?_⟩ <;>
          rw [List.map_append, List.sum_append] <;> omega
  have hp := closes_pending h1 hstart.1 hc
  have hpos : 0 < (s.gos.map Go.closes).sum := by
    split at hp <;> omega
  have hnz : ¬ ∀ g ∈ s.gos, g.closes = 0 := by
    intro hz
    have : ∀ gs : List Go, (∀ g ∈ gs, g.closes = 0) → (gs.map Go.closes).sum = 0 := by
      intro gs
      induction gs with
      | nil => intro _; rfl
      | cons g gs ih =>
        intro hgs
        simp [hgs g List.mem_cons_self, ih (fun g' hg' => hgs g' (List.mem_cons_of_mem _ hg'))]
    have := this _ hz
    omega
  obtain ⟨g, hg⟩ := Classical.not_forall.mp hnz
  obtain ⟨hg, hne⟩ := Classical.not_imp.mp hg
  have stuck := rest_go hr hc hg
  cases g with
  | user cs =>
    cases cs with
    | nil => exact hne rfl
    | cons c cs =>
      by_cases hcl : c = .close
      · subst hcl
        cases hq : s.world.quit with
        | true => exact stuck _ _ _ (.closeTwice hq)
        | false => exact stuck _ _ _ (.close hq)
      · exact stuck _ _ _ (.startFails hcl)
  | closeWait cs =>
    have hq : s.world.quit = true := h.inv.gone _ hg rfl
    exact (C87_close_returns h hq hc hr ht).2.2.2.2 cs hg
  | _ => exact hne rfl

/-- **C88**, as one would want it: no choice of options makes the process crash, as long as `Close` is
called at most once (for a second call see C78). -/
def C88_claim : Prop :=
  ∀ (opts : List ServerOption) (keyOk : Bool) (users : List (List Call)) (cfg : LConfig) (s : LState),
    Started opts keyOk users cfg s → (users.map fun cs => cs.count .close).sum ≤ 1 →
    s.world.crashed = false

/-- **C88 is refuted**: `InMemoryManagerWithGCTicker(0)` is accepted; the collector's goroutine then
panics, and nothing recovers this. -/
theorem C88_refuted : ¬ C88_claim := by
  intro h
  have := h [.secretManager (some (.inMemory [.gcTicker 0]))] true [] { LifecycleExample.cfg with store := .inMemory 1 }
    { world := { LifecycleExample.world with
        mgrs := [LifecycleExample.mgr, { LifecycleExample.mgr with gcTicker := 0 }], crashed := true },
      gos := [.gcStart 0, .ended] }
    ⟨_, rfl, .one .refl 1 rfl rfl (.gcPanics rfl (by decide))⟩ (by simp)
  cases this

/-- **C88**, the other way: `ServerWithLogger(nil)` is accepted, and then any client can end the process. -/
theorem C88_nil_logger : ∃ (users : List (List Call)) (cfg : LConfig) (s : LState),
    Started [.logger false] true users cfg s ∧ (users.map fun cs => cs.count .close).sum = 0 ∧
    s.world.crashed = true := by
  have h0 : LRuns { LifecycleExample.cfg with logger := false }
    { world := LifecycleExample.world, gos := [.gcStart 0, .user [.startTCP]] }
    { world := LifecycleExample.world, gos := [.gcStart 0, .user [.startTCP]] } := .refl
  have h1 := h0.one 1 rfl rfl .startTCP
  have h2 := h1.one 2 rfl rfl (.acceptGo rfl)
  have h3 := h2.one 2 rfl rfl .accepted
  have h4 := h3.one 2 rfl rfl .acceptSpawn
  have h5 := h4.one 3 rfl rfl (.connGo rfl)
  have h6 := h5.one 3 rfl rfl .connHangUp
  exact ⟨[[.startTCP]], _, _, ⟨_, rfl, h6⟩, by decide, rfl⟩

/-- Options that pass a logger, and a positive tick to in-memory managers. -/
def ServerOption.sound : ServerOption → Prop
  | .logger b => b = true
  | .secretManager (some (.inMemory mopts)) => ∀ d, .gcTicker d ∈ mopts → d > 0
  | _ => True

theorem newInMemoryManager_ticker {mopts : List ManagerOption} (h : ∀ d, .gcTicker d ∈ mopts → d > 0) :
    (newInMemoryManager mopts).gcTicker > 0 := by
  have : ∀ m : Mgr, m.gcTicker > 0 → (mopts.foldl (fun m o => match o with
    | .gcTicker d => { m with gcTicker := d }
    | .ttl d => { m with ttl := d }) m).gcTicker > 0 := by
    induction mopts with
    | nil => exact fun m hm => hm
    | cons o mopts ih =>
      intro m hm
      refine ih (fun d hd => h d (List.mem_cons_of_mem _ hd)) _ ?_
      cases o with
      | gcTicker d => exact h d List.mem_cons_self
      | ttl d => exact hm
  exact this _ (by decide)

theorem options_sound {opts : List ServerOption} (h : ∀ o ∈ opts, o.sound) (x : ServerOptions)
    (hl : x.logger = true)
    (hm : ∀ mopts, x.secretManager = some (.inMemory mopts) → ∀ d, .gcTicker d ∈ mopts → d > 0) :
    (opts.foldl (fun x o => o.apply x) x).logger = true ∧
    ∀ mopts, (opts.foldl (fun x o => o.apply x) x).secretManager = some (.inMemory mopts) →
      ∀ d, .gcTicker d ∈ mopts → d > 0 := by
  induction opts generalizing x with
  | nil => exact ⟨hl, hm⟩
  | cons o opts ih =>
    have ho := h o List.mem_cons_self
    refine ih (fun o' ho' => h o' (List.mem_cons_of_mem _ ho')) _ ?_ ?_
    · cases o <;> first | exact hl | exact ho
    · cases o with
      | secretManager m =>
        intro mopts hs
        have : m = some (.inMemory mopts) := hs
        subst this
        exact ho
      | _ => exact hm

/-- **C88**, what holds (`_partial`: some options are not checked): with options that pass a logger (or
leave the default) and positive ticks, and at most one `Close`, the process never crashes, whatever the
clients do. -/
theorem C88_sound_options_partial {opts : List ServerOption} {keyOk : Bool} {users : List (List Call)}
    {cfg : LConfig} {s : LState} (h : Started opts keyOk users cfg s) (hopts : ∀ o ∈ opts, o.sound)
    (hclose : (users.map fun cs => cs.count .close).sum ≤ 1) : s.world.crashed = false := by
  obtain ⟨s0, h0, h1⟩ := h
  refine (SafeConfig.runs ?_ h1).crashed
  have hsum : ∀ gs : List Go, (∀ g ∈ gs, g.closes = 0) →
      ((gs ++ users.map Go.user).map Go.closes).sum ≤ 1 := by
    intro gs hgs
    rw [List.map_append, List.sum_append, List.map_map]
    have : (gs.map Go.closes).sum = 0 := by
      clear hclose h0 h1
      induction gs with
      | nil => rfl
      | cons g gs ih =>
        simp [hgs g List.mem_cons_self, ih (fun g' hg' => hgs g' (List.mem_cons_of_mem _ hg'))]
    rw [this, Nat.zero_add]
    exact hclose
  have hcol : ∀ m x, ∀ g ∈ collector m x, g = .gcStart m := by
    intro m x g hg
    unfold collector at hg
    split at hg
    · simpa using hg
    · cases hg
  have hso := options_sound hopts defaultOptions rfl (by intro mopts h; cases h)
  unfold newServer at h0
  split at h0
  · cases h0
  · dsimp only at h0
    split at h0
    · cases h0
    · split at h0 <;> cases h0
      · rename_i mopts hm
        refine ⟨hso.1, rfl, ?_, ?_⟩
        · intro m x hx hmem
          rcases m with _ | _ | m
          · cases hx; exact newInMemoryManager_ticker (by intro d hd; cases hd)
          · cases hx; exact newInMemoryManager_ticker (hso.2 _ hm)
          · cases hx
        · refine hsum _ ?_
          intro g hg
          rcases List.mem_append.mp hg with hg | hg <;> cases hcol _ _ g hg <;> rfl
      all_goals
        refine ⟨hso.1, rfl, ?_, ?_⟩
        · intro m x hx hmem
          rcases m with _ | m
          · cases hx; exact newInMemoryManager_ticker (by intro d hd; cases hd)
          · cases hx
        · refine hsum _ ?_
          intro g hg
          cases hcol _ _ g hg
          rfl

/-- The default options are sound, and so are many others. -/
example : ∀ o ∈ [ServerOption.logger true, .readTimeout 0, .secretManager (some (.inMemory [.gcTicker 5, .ttl (-1)]))],
    o.sound := by
  intro o ho
  simp at ho
  rcases ho with rfl | rfl | rfl
  · exact rfl
  · trivial
  · intro d hd
    simp at hd
    omega

/-! ## C89 -/

/-- **C89**, as one would want it: `Close` lets the requests being served finish, so no response to a
datagram is lost because the server closed its socket. -/
def C89_claim : Prop :=
  ∀ (opts : List ServerOption) (keyOk : Bool) (users : List (List Call)) (cfg : LConfig) (s : LState),
    Started opts keyOk users cfg s → s.world.lost = 0

/-- **C89 is refuted**: `Close` does not wait for goroutines that serve datagrams, and the packet loop
closes the socket they need. -/
theorem C89_refuted : ¬ C89_claim := by
  intro h
  have h0 : LRuns LifecycleExample.cfg
    { world := LifecycleExample.world, gos := [.gcStart 0, .user [.startUDP, .close]] }
    { world := LifecycleExample.world, gos := [.gcStart 0, .user [.startUDP, .close]] } := .refl
  have h1 := h0.one 1 rfl rfl .startUDP
  have h2 := h1.one 2 rfl rfl (.packetGo rfl)
  have h3 := h2.one 2 rfl rfl .received
  have h4 := h3.one 2 rfl rfl .packetSpawn
  have h5 := h4.one 1 rfl rfl (.close rfl)
  have h6 := h5.one 2 rfl rfl (.packetQuit rfl)
  have h7 := h6.one 2 rfl rfl .packetClose
  have h8 := h7.one 3 rfl rfl (.datagramLost rfl)
  cases h [] true [[.startUDP, .close]] _ _ ⟨_, rfl, h8⟩

/-- **C89**, what holds (`_partial`: only before `Close`): as long as `Close` was not called, no response
is lost for this reason. -/
theorem C89_before_close_partial {opts : List ServerOption} {keyOk : Bool} {users : List (List Call)}
    {cfg : LConfig} {s : LState} (h : Started opts keyOk users cfg s) (hq : s.world.quit = false) :
    s.world.lost = 0 := by
  refine Classical.byContradiction fun h1 => ?_
  have := h.inv.lost h1
  rw [hq] at this
  cases this

/-- **C89** for TCP: when `Close` has returned, no request on a TCP connection is being served or waited
for; each such goroutine served its request to the end (server.go:225) before it left. -/
theorem C89_tcp_finished {opts : List ServerOption} {keyOk : Bool} {users : List (List Call)}
    {cfg : LConfig} {s : LState} (h : Started opts keyOk users cfg s) (hret : s.world.returned = true) :
    .connServe ∉ s.gos ∧ .connRead ∉ s.gos :=
  ⟨fun hm => (h.inv.over hret _ hm).2 rfl, fun hm => (h.inv.over hret _ hm).1 rfl⟩

/-- A server that is closed while a connection waits, with the read deadline still to come: `Close` has
not returned. -/
example : ∃ s, Started [] true [[.startTCP, .close]] LifecycleExample.cfg s ∧ s.world.quit = true ∧
    s.world.returned = false ∧ .connRead ∈ s.gos := by
  have h0 : LRuns LifecycleExample.cfg
    { world := LifecycleExample.world, gos := [.gcStart 0, .user [.startTCP, .close]] }
    { world := LifecycleExample.world, gos := [.gcStart 0, .user [.startTCP, .close]] } := .refl
  have h1 := h0.one 1 rfl rfl .startTCP
  have h2 := h1.one 2 rfl rfl (.acceptGo rfl)
  have h3 := h2.one 2 rfl rfl .accepted
  have h4 := h3.one 2 rfl rfl .acceptSpawn
  have h5 := h4.one 3 rfl rfl (.connGo rfl)
  have h6 := h5.one 1 rfl rfl (.close rfl)
  exact ⟨_, ⟨_, LifecycleExample.default_server _ _ rfl, h6⟩, rfl, rfl, by decide⟩

/-- A manager whose TTL is zero has no collector; one with the smallest TTL has. -/
example :
    ((newServer [.secretManager (some (.inMemory [.ttl 0]))] true []).map fun x => x.2.gos.length) = some 1 ∧
    ((newServer [.secretManager (some (.inMemory [.ttl 1]))] true []).map fun x => x.2.gos.length) = some 2 := by
  decide +kernel

end Goe2ee
