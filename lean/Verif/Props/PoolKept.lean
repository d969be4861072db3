import Verif.Proofs.PoolKept
import Verif.Props.Pool

/-!
# C165: the pool loses neither connections nor places
-/

set_option autoImplicit false

namespace Goe2ee

/-- No call of the pool is being executed, except calls of `Get` that wait for a client. -/
def PoolSys.Quiet (s : PoolSys) : Prop :=
  ∀ (i : Nat) (p : Prog PSig PLoop), s.threads[i]? = some p → outside p = true ∨ i ∈ s.world.waiting

section
variable {cfg : PoolCfg} {n : Nat} {acts : List (Nat × PEnv)}

theorem quiet_facts (h0 : 0 ≤ cfg.maxOpen) (hq : (careful cfg n acts).Quiet) :
    (careful cfg n acts).world.locked = false ∧ (careful cfg n acts).world.closed = false ∧
    (∀ c, (careful cfg n acts).world.idle.count c + (careful cfg n acts).world.held.count c ≤ 1) ∧
    (∀ c, 0 < (careful cfg n acts).world.idle.count c + (careful cfg n acts).world.held.count c ↔
      ∃ s, (careful cfg n acts).world.clients[c]? = some ⟨s, true⟩) ∧
    (careful cfg n acts).world.number ≤ openConns (careful cfg n acts).world := by
  obtain ⟨gs, h⟩ := kept_reach cfg h0 n acts
  have hw : WaitInv cfg (careful cfg n acts) := wait_reach cfg (List.replicate n (.user false)) acts
  obtain ⟨hlen, hsafe, hinv, hkept⟩ := h
  generalize careful cfg n acts = s at *
  have hmail : s.world.mail = [] := by
    rcases hm : s.world.mail with _ | ⟨m, ms⟩
    · rfl
    · have h1 : 0 < s.world.mail.countP (·.1 == m.1) := by
        rw [hm]; simp
      have h2 := hw.once m.1
      obtain ⟨b, hb⟩ := hw.at_ m.1 (by unfold registered; omega)
      rcases hq m.1 _ hb with h3 | h3
      · cases h3
      · have := List.count_pos_iff.mpr h3
        unfold registered at h2
        omega
  have hph : ∀ g ∈ gs, g = .idle ∨ g = .parked := by
    intro g hg
    obtain ⟨j, hj, rfl⟩ := List.mem_iff_getElem.mp hg
    have hjt : j < s.threads.length := by omega
    have hs := hsafe j s.threads[j] gs[j] (List.getElem?_eq_getElem hjt) (List.getElem?_eq_getElem hj)
    have hf := hinv.facts j gs[j] (List.getElem?_eq_getElem hj)
    generalize gs[j] = g at *
    rcases hq j _ (List.getElem?_eq_getElem hjt) with ho | ho
    · generalize s.threads[j] = p at *
      cases p with
      | op o k => cases ho
      | panic m => cases ho
      | ret l =>
        cases l with
        | user b =>
          cases b
          · exact .inl hs
          · cases hs
        | done => cases hs
        | scan b => cases ho
        | closer => cases ho
    · obtain ⟨b, hb⟩ := hw.at_ j (by have := List.count_pos_iff.mpr ho; unfold registered; omega)
      rw [List.getElem?_eq_getElem hjt] at hb
      rw [Option.some.inj hb] at hs
      have hpre : poolPre cfg .await g := hs.1
      cases g <;> first | exact hpre.elim | exact hf.elim | exact .inr rfl
  have hown : ∀ c, tot (PPh.owns c) gs = 0 := fun c => tot_zero _ fun g hg => by
    rcases hph g hg with rfl | rfl <;> rfl
  have hadj : totI PPh.adj gs = 0 := totI_zero _ fun g hg => by rcases hph g hg with rfl | rfl <;> rfl
  have hlocked : tot PPh.locked gs = 0 := tot_zero _ fun g hg => by rcases hph g hg with rfl | rfl <;> rfl
  have hcnt : ∀ c, cnt s.world gs c = s.world.idle.count c + s.world.held.count c := by
    intro c
    simp [cnt, hmail, mailed, hown c]
  refine ⟨?_, hinv.isOpen, ?_, ?_, ?_⟩
  · have := hinv.lock
    rw [hlocked] at this
    cases hl : s.world.locked
    · rfl
    · rw [hl] at this; cases this
  · intro c; rw [← hcnt]; exact hinv.once c
  · intro c
    rw [← hcnt]
    exact ⟨hinv.live c, fun ⟨s', hs⟩ => hkept c s' hs⟩
  · have := hinv.count
    omega

/-- **C165**, connections: whatever dials, borrow tests and closes have failed, whenever no call of the pool is being
executed (calls of `Get` may be waiting), the connections that are open are exactly the idle and the borrowed ones, and
each of them is one or the other, once. -/
theorem C165_connections (h0 : 0 ≤ cfg.maxOpen) (hq : (careful cfg n acts).Quiet) :
    let w := (careful cfg n acts).world
    (w.idle ++ w.held).Nodup ∧ (∀ c, c ∈ w.idle ++ w.held ↔ ∃ s, w.clients[c]? = some ⟨s, true⟩) ∧
    openConns w = w.idle.length + w.held.length := by
  obtain ⟨-, -, h3, h4, -⟩ := quiet_facts h0 hq
  generalize careful cfg n acts = s at *
  intro w
  have hnd : (w.idle ++ w.held).Nodup := List.nodup_iff_count.mpr fun c => by
    rw [List.count_append]; exact h3 c
  have hmem : ∀ c, c ∈ w.idle ++ w.held ↔ ∃ s, w.clients[c]? = some ⟨s, true⟩ := fun c => by
    rw [← List.count_pos_iff, List.count_append]; exact h4 c
  exact ⟨hnd, hmem, by rw [openConns_eq w _ hnd hmem, List.length_append]⟩

/-- **C165**, places: then, if the application has borrowed fewer clients than the limit, `Get` of a goroutine that runs
alone returns: the first idle client, if it is alive; and if there is none, a new client, unless dialling fails. -/
theorem C165_places (h0 : 0 ≤ cfg.maxOpen) (hq : (careful cfg n acts).Quiet) (i : Nat) (alive : Nat → Bool)
    (dial : Option Err) (hi : (careful cfg n acts).threads[i]? = some (.ret (.user false)))
    (hb : ((careful cfg n acts).world.held.length : Int) < cfg.maxOpen)
    (ha : ∀ c, (careful cfg n acts).world.idle.head? = some c → alive c = true) :
    ∃ k, (solo cfg alive dial i k (careful cfg n acts)).threads[i]? = some (.ret (.user false)) ∧
      (solo cfg alive dial i k (careful cfg n acts)).world.lent = (careful cfg n acts).world.lent ++
        match (careful cfg n acts).world.idle.head?, dial with
        | some c, _ => [c]
        | none, none => [(careful cfg n acts).world.clients.length]
        | none, some _ => [] := by
  obtain ⟨h1, h2, -, -, h5⟩ := quiet_facts h0 hq
  have hopen := (C165_connections h0 hq).2.2
  generalize careful cfg n acts = s at *
  rcases hidle : s.world.idle with _ | ⟨c, rest⟩
  · rw [hidle] at hopen
    obtain ⟨k, hk1, -, hk3⟩ := C44_dials_partial cfg s i alive dial hi h1 hidle (by simp at hopen; omega)
    refine ⟨k, hk1, ?_⟩
    cases dial with
    | none => exact hk3.1
    | some e => rw [hk3]; simp
  · have h := At.solo (cfg := cfg) (alive := alive) (d := dial) (i := i) (s := s)
      (x := (s.world, .ret (.user false))) ⟨rfl, hi⟩ (3 + 5)
    rw [soloRun_add, enters _ _ h1, (round_live (w := { s.world with locked := true }) false hidle
      (ha c (by rw [hidle]; rfl))).2] at h
    exact ⟨8, h.2, by rw [h.1]; rfl⟩

end

/-- A client is borrowed and returned, fails its next borrow test, is put back and borrowed again; then a dial of another
goroutine fails. -/
def keptActs : List (Nat × PEnv) :=
  go 0 13 ++ go 0 7 { cmd := .close 0 } ++ go 0 14 { test := false } ++ go 0 5 ++ go 1 10 { dial := some .eof }

/-- One of two places is taken, and nobody is inside a call; the next `Get` returns a second client. -/
example : (careful ⟨1, 2⟩ 3 keptActs).threads.map outside = [true, true, true] ∧
    (careful ⟨1, 2⟩ 3 keptActs).world.held = [0] ∧ (careful ⟨1, 2⟩ 3 keptActs).world.failed = 1 ∧
    openConns (careful ⟨1, 2⟩ 3 keptActs).world = 1 ∧
    (solo ⟨1, 2⟩ (fun _ => true) none 1 13 (careful ⟨1, 2⟩ 3 keptActs)).world.lent = [0, 0, 1] := by decide +kernel

example : (careful ⟨1, 2⟩ 3 keptActs).Quiet := by
  have h : ∀ p ∈ (careful ⟨1, 2⟩ 3 keptActs).threads.map outside, p = true := by decide +kernel
  exact fun i p hp => .inl (h _ (List.mem_map_of_mem (List.mem_of_getElem? hp)))

end Goe2ee
