import Verif.Props.Lifecycle

/-!
# C179: a listener that was started is served

`StartTCP` and `StartUDP` return the address they listen on and no error as soon as the socket is open.
They do not look at whether `Close` was called before (server.go:140-171, 239-254).
-/

set_option autoImplicit false

namespace Goe2ee

/-- In this state the socket `l` has just handed over a connection or a datagram. -/
def LState.Took (s : LState) (l : Nat) : Prop := .acceptGot l ∈ s.gos ∨ .packetGot l ∈ s.gos

/-- From `s` on, with whatever else happens, a client of the socket `l` can get through. -/
def LState.CanTake (cfg : LConfig) (s : LState) (l : Nat) : Prop :=
  ∃ s' s'', LRuns cfg s s' ∧ LStep cfg (some .arrival) s' s'' ∧ s''.Took l

/-- **C179.**  When `StartTCP` or `StartUDP` returned an address and no error (there is one socket more),
clients of that address can get through. -/
def C179_claim : Prop :=
  ∀ (opts : List ServerOption) (keyOk : Bool) (users : List (List Call)) (cfg : LConfig) (s s' : LState),
    Started opts keyOk users cfg s → LStep cfg none s s' →
    s'.world.socks.length = s.world.socks.length + 1 →
    s'.CanTake cfg s.world.socks.length

/-- Before `Close`, every socket that was opened is open, and its goroutine needs at most two steps of its
own, and nothing else, to be ready for a client. -/
theorem C179_served_partial {opts : List ServerOption} {keyOk : Bool} {users : List (List Call)}
    {cfg : LConfig} {s : LState} (h : Started opts keyOk users cfg s) (hq : s.world.quit = false)
    (hc : s.world.crashed = false) {l : Nat} (hl : l < s.world.socks.length) :
    s.world.socks[l]? = some true ∧
    ∃ n s' s'', n ≤ 2 ∧ LAlone cfg n s s' ∧ LStep cfg (some .arrival) s' s'' ∧ s''.Took l := by
  have hopen : s.world.socks[l]? = some true := by
    rcases hx : s.world.socks[l]? with _ | _ | _
    · rw [List.getElem?_eq_none_iff] at hx; omega
    · have := h.inv.shut l hx; rw [hq] at this; cases this
    · rfl
  refine ⟨hopen, ?_⟩
  obtain ⟨g, hg, hown⟩ := h.inv.own l hopen
  have hgone := h.inv.gone g hg
  obtain ⟨i, hi⟩ := List.mem_iff_getElem?.mp hg
  have hlen : i < s.gos.length := (List.getElem?_eq_some_iff.mp hi).1
  have key : ∀ (s1 : LState) (g1 : Go), s1.world.crashed = false → s1.gos[i]? = some g1 →
      (g1 = .acceptWait l ∨ g1 = .packetWait l) →
      ∃ s2, LStep cfg (some .arrival) s1 s2 ∧ s2.Took l := by
    intro s1 g1 hc1 hi1 hg1
    have hlen1 : i < s1.gos.length := (List.getElem?_eq_some_iff.mp hi1).1
    rcases hg1 with rfl | rfl
    · exact ⟨_, .go hc1 hi1 .accepted, .inl (List.mem_append_left _ (List.mem_set hlen1 _))⟩
    · exact ⟨_, .go hc1 hi1 .received, .inr (List.mem_append_left _ (List.mem_set hlen1 _))⟩
  have hset : ∀ (gos new : List Go) (g' : Go), i < gos.length → (gos.set i g' ++ new)[i]? = some g' := by
    intro gos new g' hg'
    rw [List.getElem?_append_left (by simpa using hg'), List.getElem?_set_self hg']
  cases g <;> simp only [Go.owns, beq_iff_eq, Bool.false_eq_true] at hown
  all_goals try subst hown
  case acceptTop =>
    have s1 : LStep cfg none s _ := .go hc hi (.acceptGo hq)
    obtain ⟨s2, h2, h3⟩ := key { world := s.world, gos := s.gos.set i (.acceptWait _) ++ [] } _ hc
      (hset _ _ _ hlen) (.inl rfl)
    exact ⟨1, _, s2, by omega, .step .refl s1, h2, h3⟩
  case acceptWait =>
    obtain ⟨s2, h2, h3⟩ := key s _ hc hi (.inl rfl)
    exact ⟨0, _, s2, by omega, .refl, h2, h3⟩
  case acceptGot k =>
    have s1 : LStep cfg none s _ := .go hc hi .acceptSpawn
    have s2 := LStep.go (cfg := cfg) (e := none) (i := i)
      (s := { world := { s.world with wg := s.world.wg + 1 },
              gos := s.gos.set i (.acceptTop k) ++ [.connTop] })
      hc (hset _ _ _ hlen) (.acceptGo hq)
    obtain ⟨s3, h3, h4⟩ := key
      { world := { s.world with wg := s.world.wg + 1 },
        gos := (s.gos.set i (.acceptTop k) ++ [Go.connTop]).set i (.acceptWait k) ++ [] } _ hc
      (hset _ _ _ (by simp; omega)) (.inl rfl)
    exact ⟨2, _, s3, by omega, .step (.step .refl s1) s2, h3, h4⟩
  case acceptGone => have := hgone rfl; rw [hq] at this; cases this
  case packetTop =>
    have s1 : LStep cfg none s _ := .go hc hi (.packetGo hq)
    obtain ⟨s2, h2, h3⟩ := key { world := s.world, gos := s.gos.set i (.packetWait _) ++ [] } _ hc
      (hset _ _ _ hlen) (.inr rfl)
    exact ⟨1, _, s2, by omega, .step .refl s1, h2, h3⟩
  case packetWait =>
    obtain ⟨s2, h2, h3⟩ := key s _ hc hi (.inr rfl)
    exact ⟨0, _, s2, by omega, .refl, h2, h3⟩
  case packetGot k =>
    have s1 : LStep cfg none s _ := .go hc hi .packetSpawn
    have s2 := LStep.go (cfg := cfg) (e := none) (i := i)
      (s := { world := s.world, gos := s.gos.set i (.packetTop k) ++ [.datagram k] })
      hc (hset _ _ _ hlen) (.packetGo hq)
    obtain ⟨s3, h3, h4⟩ := key
      { world := s.world, gos := (s.gos.set i (.packetTop k) ++ [Go.datagram k]).set i (.packetWait k) ++ [] }
      _ hc (hset _ _ _ (by simp; omega)) (.inr rfl)
    exact ⟨2, _, s3, by omega, .step (.step .refl s1) s2, h3, h4⟩
  case packetGone => have := hgone rfl; rw [hq] at this; cases this

/-- The goroutine of `l` may only be where it looks at `quit`, or on its way out. -/
def LState.Unserved (s : LState) (l : Nat) : Prop :=
  ∀ g ∈ s.gos, g.owns l = true →
    g = .acceptTop l ∨ g = .acceptGone l ∨ g = .packetTop l ∨ g = .packetGone l

theorem unserved_step {cfg : LConfig} {e : Option Ext} {s s' : LState} {l : Nat} (hs : LStep cfg e s s')
    (hq : s.world.quit = true) (hl : l < s.world.socks.length) (h : s.Unserved l) :
    l < s'.world.socks.length ∧ s'.Unserved l := by
  obtain ⟨hc, hi, hg⟩ := hs
  rename_i i g g' w' new
  have hmem := List.mem_of_getElem? hi
  have hold := h g hmem
  constructor
  · cases hg <;> first | exact hl | (simp; omega)
  · intro x hx hown
    rcases mem_step hx with hx | rfl | hx
    · exact h x hx hown
    · cases hg <;> simp_all [Go.owns]
    · cases hg <;> simp_all [Go.owns] <;> omega

/-- A socket opened after `Close` is never served, whatever happens; unless the process ends, it is closed
when the server has come to rest. -/
theorem C179_late_partial {opts : List ServerOption} {keyOk : Bool} {users : List (List Call)}
    {cfg : LConfig} {s s' s'' : LState} (h : Started opts keyOk users cfg s) (hq : s.world.quit = true)
    (h1 : LStep cfg none s s') (hn : s'.world.socks.length = s.world.socks.length + 1)
    (h2 : LRuns cfg s' s'') :
    ¬ s''.Took s.world.socks.length ∧
    (s''.world.crashed = false → s''.AtRest cfg → s''.world.socks[s.world.socks.length]? = some false) := by
  have hstart : Started opts keyOk users cfg s'' := by
    obtain ⟨s0, ha, hb⟩ := h
    exact ⟨s0, ha, (LRuns.step hb h1).trans h2⟩
  have base : s.world.socks.length < s'.world.socks.length ∧ s'.Unserved s.world.socks.length := by
    refine ⟨by omega, ?_⟩
    have hvalid := h.inv.valid
    obtain ⟨hc, hi, hg⟩ := h1
    rename_i i g g' w' new
    intro x hx hown
    rcases mem_step hx with hx | rfl | hn'
    · have := hvalid x hx _ hown; omega
    · cases hg <;> first | (simp [Go.owns] at hown; done) | (simp [LWorld.log] at hn; done) | skip
      all_goals simp at hn
    · cases hg
      case startTCP =>
        rw [List.mem_singleton] at hn'
        exact .inl hn'
      case startUDP =>
        rw [List.mem_singleton] at hn'
        exact .inr (.inr (.inl hn'))
      all_goals first | cases hn'; done | skip
      all_goals
        rw [List.mem_singleton] at hn'
        subst hn'
        cases hown
  have inv : s''.world.quit = true ∧ s.world.socks.length < s''.world.socks.length ∧
      s''.Unserved s.world.socks.length := by
    clear hstart
    induction h2 with
    | refl => exact ⟨quit_stays h1 hq, base⟩
    | step _ h3 ih => exact ⟨quit_stays h3 ih.1, unserved_step h3 ih.1 ih.2.1 ih.2.2⟩
  obtain ⟨hq2, hl2, hu⟩ := inv
  constructor
  · rintro (hg | hg)
    · rcases hu _ hg (by simp [Go.owns]) with h | h | h | h <;> cases h
    · rcases hu _ hg (by simp [Go.owns]) with h | h | h | h <;> cases h
  · intro hc hr
    rcases hx : s''.world.socks[s.world.socks.length]? with _ | _ | _
    · rw [List.getElem?_eq_none_iff] at hx; omega
    · rfl
    · obtain ⟨g, hg, hown⟩ := hstart.inv.own _ hx
      rcases hu g hg hown with rfl | rfl | rfl | rfl
      · exact (rest_go hr hc hg _ _ _ (.acceptQuit hq2)).elim
      · exact (rest_go hr hc hg _ _ _ .acceptClose).elim
      · exact (rest_go hr hc hg _ _ _ (.packetQuit hq2)).elim
      · exact (rest_go hr hc hg _ _ _ .packetClose).elim

namespace LateStartExample

open LifecycleExample

/-- A server that was closed, about to be started. -/
def closedFirst : LState :=
  { world := { world with quit := true, returned := true, mgrs := [{ mgr with closed := true }] },
    gos := [.ended, .user [.startTCP]] }

theorem closedFirst_started : Started [] true [[.close, .startTCP]] cfg closedFirst := by
  refine ⟨_, default_server _ _ rfl, ?_⟩
  have h0 : LRuns cfg { world, gos := [.gcStart 0, .user [.close, .startTCP]] }
    { world, gos := [.gcStart 0, .user [.close, .startTCP]] } := .refl
  have h1 := h0.one 1 rfl rfl (.close rfl)
  have h2 := h1.one 1 rfl rfl (.closed rfl)
  have h3 := h2.one 0 rfl rfl (.gcGo rfl (by decide))
  have h4 := h3.one 0 rfl rfl (.gcQuit rfl rfl)
  exact h4

def lateState : LState :=
  { closedFirst with world := { closedFirst.world with socks := [true] },
                     gos := [.ended, .user [], .acceptTop 0] }

theorem late_start : LStep cfg none closedFirst lateState :=
  .go (i := 1) (new := [.acceptTop 0]) rfl rfl .startTCP

/-- Start after `Close`: there is a socket, and nobody will ever take anything from it. -/
example : closedFirst.world.returned = true ∧ lateState.world.socks = [true] ∧
    ∀ s'', LRuns cfg lateState s'' → ¬ s''.Took 0 :=
  ⟨rfl, rfl, fun _ h => (C179_late_partial closedFirst_started rfl late_start rfl h).1⟩

/-- Start before `Close`: the socket is served. -/
example : ∃ s, Started [] true [[.startTCP, .close]] cfg s ∧ s.world.socks[0]? = some true ∧
    s.CanTake cfg 0 := by
  have h0 : LRuns cfg { world, gos := [.gcStart 0, .user [.startTCP, .close]] }
    { world, gos := [.gcStart 0, .user [.startTCP, .close]] } := .refl
  have h1 := h0.one 1 rfl rfl .startTCP
  have hs : Started [] true [[.startTCP, .close]] cfg _ := ⟨_, default_server _ _ rfl, h1⟩
  obtain ⟨ha, n, s1, s2, -, hb, hc, hd⟩ := C179_served_partial hs rfl rfl (l := 0) (by decide)
  exact ⟨_, hs, ha, s1, s2, hb.runs, hc, hd⟩

end LateStartExample

theorem C179_refuted : ¬ C179_claim := by
  intro h
  obtain ⟨s', s'', h1, h2, h3⟩ := h _ _ _ _ _ _ LateStartExample.closedFirst_started
    LateStartExample.late_start rfl
  exact (C179_late_partial LateStartExample.closedFirst_started rfl LateStartExample.late_start rfl
    (.step h1 h2)).1 h3

end Goe2ee
