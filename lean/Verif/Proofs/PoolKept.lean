import Verif.Proofs.Pool
import Verif.Proofs.PoolWait

/-!
# Every open connection of the pool is somewhere
-/

set_option autoImplicit false

namespace Goe2ee

/-- Every open connection is idle, borrowed, on its way to a waiting goroutine, or in the hand of a goroutine. -/
def PoolKept (w : PWorld) (gs : List PPh) : Prop :=
  ∀ (c : Nat) (s : Option Nat), w.clients[c]? = some ⟨s, true⟩ → 0 < cnt w gs c

section
variable {cfg : PoolCfg} {w : PWorld} {gs : List PPh} {i : Nat} {g : PPh}

/-- A step that loses nothing. -/
theorem PoolKept.moves (hk : PoolKept w gs) (hg : gs[i]? = some g) (g' : PPh) (w' : PWorld)
    (hclients : ∀ (c : Nat) (s : Option Nat), w'.clients[c]? = some ⟨s, true⟩ → ∃ s, w.clients[c]? = some ⟨s, true⟩)
    (hcnt : ∀ c, w.base c + g.owns c ≤ w'.base c + g'.owns c) : PoolKept w' (gs.set i g') := by
  intro c s hc
  obtain ⟨s', hc'⟩ := hclients c s hc
  have h1 := hk c s' hc'
  have h2 := hcnt c
  have h3 := tot_set (PPh.owns c) hg g'
  simp only [cnt, PWorld.base] at h1 h2 ⊢
  omega

theorem kept_step (e : PEnv) (o : POp) (r : POp.Ret o) (w' : PWorld) (h : PInv cfg w gs) (hk : PoolKept w gs)
    (hg : gs[i]? = some g) (hpre : poolPre cfg o g) (hx : pexec e i o w = some (r, w')) :
    PoolKept w' (gs.set i (poolNext cfg o r g)) := by
  have hF := h.facts i g hg
  have hsame : ∀ (c : Nat) (s : Option Nat), w.clients[c]? = some ⟨s, true⟩ → ∃ s, w.clients[c]? = some ⟨s, true⟩ :=
    fun c s h => ⟨s, h⟩
  cases o with
  | lock =>
    simp only [pexec] at hx
    split at hx
    · cases hx
    cases hx
    cases g <;> first | exact hpre.elim | exact hF.elim | exact hk.moves hg _ _ hsame fun _ => Nat.le_refl _
  | unlock =>
    simp only [pexec] at hx
    cases hx
    cases g with
    | putDone f => cases f <;> exact hk.moves hg _ _ hsame fun _ => Nat.le_refl _
    | _ => first | exact hpre.elim | exact hF.elim | exact hk.moves hg _ _ hsame fun _ => Nat.le_refl _
  | popIdle =>
    simp only [pexec] at hx
    cases hx
    have hc := fun d => count_head_tail w.idle d
    cases g <;> first | exact hpre.elim | exact hF.elim | skip
    all_goals
      rcases hh : w.idle.head? with _ | c
      · refine hk.moves hg .scan _ hsame fun d => ?_
        have := hc d
        simp [hh] at this
        simp [PWorld.base, PPh.owns, PPh.own]
        omega
      · refine hk.moves hg (.popped c) _ hsame fun d => ?_
        have := hc d
        simp [hh] at this
        simp [PWorld.base, PPh.owns, PPh.own]
        omega
  | countIdle =>
    simp only [pexec] at hx
    cases hx
    cases g <;> first | exact hpre.elim | exact hF.elim | exact hk.moves hg _ _ hsame fun _ => Nat.le_refl _
  | pushIdle c =>
    simp only [pexec] at hx
    cases hx
    cases g <;> first | exact hpre.elim | exact hF.elim | skip
    rename_i f c' n
    obtain ⟨rfl, hn⟩ := hpre
    refine hk.moves hg (.putDone f) _ hsame fun d => ?_
    simp [PWorld.base, PPh.owns, PPh.own, List.count_append, List.count_singleton]
    omega
  | listIdle => cases g <;> first | exact hpre.elim | exact hF.elim
  | clearIdle => cases g <;> first | exact hpre.elim | exact hF.elim
  | getNumber =>
    simp only [pexec] at hx
    cases hx
    cases g <;> first | exact hpre.elim | exact hF.elim | skip
    show PoolKept w (gs.set i (limitPh cfg w.number))
    unfold limitPh
    split <;> exact hk.moves hg _ _ hsame fun _ => Nat.le_refl _
  | addNumber d =>
    simp only [pexec] at hx
    cases hx
    cases g <;> first | exact hpre.elim | exact hF.elim | exact hk.moves hg _ _ hsame fun _ => Nat.le_refl _
  | zeroNumber => cases g <;> first | exact hpre.elim | exact hF.elim
  | getSession =>
    simp only [pexec] at hx
    cases hx
    cases g <;> first | exact hpre.elim | exact hF.elim | exact hk.moves hg _ _ hsame fun _ => Nat.le_refl _
  | setSession s =>
    simp only [pexec] at hx
    cases hx
    cases g <;> first | exact hpre.elim | exact hF.elim | exact hk.moves hg _ _ hsame fun _ => Nat.le_refl _
  | dial handshake =>
    simp only [pexec] at hx
    cases g <;> first | exact hpre.elim | exact hF.elim | skip
    rename_i s
    cases hpre
    cases hd : e.dial with
    | some err =>
      rw [hd] at hx
      cases hx
      exact hk.moves hg .failed _ hsame fun _ => Nat.le_refl _
    | none =>
      rw [hd] at hx
      have hnew : ∀ (x : PClient) (g' : PPh) (w' : PWorld), w'.clients = w.clients ++ [x] →
          (∀ c, w'.base c = w.base c) → g'.own = some w.clients.length → PoolKept w' (gs.set i g') := by
        intro x g' w' h1 h2 h3 c s' hc
        have h4 := tot_set (PPh.owns c) hg g'
        have h5 : (PPh.sess s).owns c = 0 := by simp [PPh.owns, PPh.own]
        have h6 := h2 c
        rw [h1] at hc
        by_cases hcn : c < w.clients.length
        · rw [List.getElem?_append_left hcn] at hc
          have h7 := hk c s' hc
          simp only [cnt, PWorld.base] at h6 h7 ⊢
          omega
        · have hc2 : c = w.clients.length := by
            have := (List.getElem?_eq_some_iff.mp hc).1
            simp at this
            omega
          have h8 : g'.owns c = 1 := by simp [PPh.owns, h3, hc2]
          simp only [cnt, PWorld.base] at h6 ⊢
          omega
      cases hs : s with
      | none =>
        subst hs
        cases hx
        exact hnew ⟨some w.handshakes, true⟩ (.fresh w.clients.length) _ rfl (fun _ => rfl) rfl
      | some k =>
        subst hs
        cases hx
        exact hnew ⟨none, true⟩ (.plain w.clients.length) _ rfl (fun _ => rfl) rfl
  | sessionOf c =>
    simp only [pexec] at hx
    cases hx
    cases g <;> first | exact hpre.elim | exact hF.elim | exact hk.moves hg _ _ hsame fun _ => Nat.le_refl _
  | setSessionOf c s =>
    simp only [pexec] at hx
    cases hx
    cases g <;> first | exact hpre.elim | exact hF.elim | skip
    obtain ⟨rfl, rfl⟩ := hpre
    refine hk.moves hg (.ready c) _ (fun d s' hd => ?_) fun _ => Nat.le_refl _
    dsimp only at hd
    by_cases hcd : c = d
    · subst hcd
      rw [List.getElem?_modify] at hd
      simp only [if_true] at hd
      cases hx : w.clients[c]? with
      | none => rw [hx] at hd; cases hd
      | some x =>
        rw [hx] at hd
        obtain ⟨a, b⟩ := x
        cases hd
        exact ⟨a, rfl⟩
    · rw [getElem?_modify_ne hcd] at hd
      exact ⟨s', hd⟩
  | test c =>
    simp only [pexec] at hx
    cases hx
    cases g <;> first | exact hpre.elim | exact hF.elim | skip
    cases hpre
    cases ht : e.test with
    | true => exact hk.moves hg (.good c) _ hsame fun _ => Nat.le_refl _
    | false => exact hk.moves hg (.put true c) _ hsame fun _ => Nat.le_refl _
  | closeConn c =>
    simp only [pexec] at hx
    cases hx
    cases g <;> first | exact hpre.elim | exact hF.elim | skip
    rename_i f c'
    cases hpre
    intro d s hd
    dsimp only at hd
    by_cases hcd : c = d
    · subst hcd
      rw [List.getElem?_modify] at hd
      simp only [if_true] at hd
      cases hx : w.clients[c]? with
      | none => rw [hx] at hd; cases hd
      | some x => rw [hx] at hd; cases hd
    · rw [getElem?_modify_ne hcd] at hd
      have h1 := hk d s hd
      have h2 := tot_set (PPh.owns d) hg (.putDone f)
      have h3 : (PPh.shut f c).owns d = 0 := by simp [PPh.owns, PPh.own, hcd]
      show 0 < cnt _ (gs.set i (.putDone f)) d
      simp only [cnt] at h1 ⊢
      omega
  | park =>
    simp only [pexec, h.isOpen] at hx
    cases hx
    cases g <;> first | exact hpre.elim | exact hF.elim | exact hk.moves hg _ _ hsame fun _ => Nat.le_refl _
  | await =>
    simp only [pexec] at hx
    cases hm : w.mail.find? (·.1 == i) with
    | none => rw [hm] at hx; cases hx
    | some m =>
    rw [hm] at hx
    cases hx
    have hmem := List.mem_of_find?_eq_some hm
    obtain ⟨c, hc⟩ := h.mail m hmem
    have he := fun d => mailed_erase hmem hc d
    cases g <;> first | exact hpre.elim | exact hF.elim | skip
    rw [hc]
    refine hk.moves hg (.hand c) _ hsame fun d => ?_
    have := he d
    simp [PWorld.base, PPh.owns, PPh.own]
    omega
  | send c =>
    simp only [pexec, h.isOpen] at hx
    simp only [Bool.false_eq_true, if_false] at hx
    cases g <;> first | exact hpre.elim | exact hF.elim | skip
    rename_i f c'
    cases hpre
    split at hx
    · cases hx
      refine hk.moves hg (.putDone f) _ hsame fun d => ?_
      simp [PWorld.base, PPh.owns, PPh.own, mailed, List.count_singleton]
      omega
    · split at hx
      · cases hx
        exact hk.moves hg (.kept f c) _ hsame fun _ => Nat.le_refl _
      · cases hx
  | closeChan => cases g <;> first | exact hpre.elim | exact hF.elim
  | command careless =>
    cases g <;> first | exact hpre.elim | exact hF.elim | skip
    cases hpre
    simp only [pexec] at hx
    cases hcmd : e.cmd with
    | get =>
      rw [hcmd] at hx
      cases hx
      exact hk.moves hg .entry _ hsame fun _ => Nat.le_refl _
    | close k =>
      rw [hcmd] at hx
      dsimp only at hx
      cases hk' : w.held[k]? with
      | none => rw [hk'] at hx; cases hx
      | some c =>
        rw [hk'] at hx
        cases hx
        have he := fun d => count_eraseIdx hk' d
        refine hk.moves hg (.put false c) _ hsame fun d => ?_
        have := he d
        simp [PWorld.base, PPh.owns, PPh.own]
        omega
  | lend r =>
    cases g <;> first | exact hpre.elim | exact hF.elim | skip
    · rename_i c
      cases hpre
      simp only [pexec] at hx
      cases hx
      refine hk.moves hg .idle _ hsame fun d => ?_
      simp [PWorld.base, PPh.owns, PPh.own, List.count_append, List.count_singleton]
      omega
    · obtain ⟨err, rfl⟩ := hpre
      simp only [pexec] at hx
      cases hx
      exact hk.moves hg .idle _ hsame fun _ => Nat.le_refl _

end

theorem kept_reach (cfg : PoolCfg) (h0 : 0 ≤ cfg.maxOpen) (n : Nat) (acts : List (Nat × PEnv)) :
    ∃ gs, LoopsOK (poolA cfg) poolAt poolX (fun w gs => PInv cfg w gs ∧ PoolKept w gs) (careful cfg n acts) gs := by
  refine LoopsOK.run (poolBody_safe cfg)
    (fun e i o w gs g r w' hg hpre hI hx => ⟨pinv_step e o r w' hI.1 hg hpre hx, kept_step e o r w' hI.1 hI.2 hg hpre hx⟩)
    acts (gs := List.replicate n .idle) ⟨by simp [poolStart], ?_, ?_, ?_⟩
  · intro i p g hp hg
    simp only [poolStart, List.map_replicate, List.getElem?_replicate] at hp hg
    split at hp
    · cases hp
      rw [if_pos (by assumption)] at hg
      cases hg
      rfl
    · cases hp
  · obtain ⟨gs, h⟩ := pool_reach cfg h0 n []
    have hgs : gs = List.replicate n .idle := by
      refine List.eq_replicate_iff.mpr ⟨by rw [h.len]; simp [PoolSys.run, Loops.run, poolStart], fun g hg => ?_⟩
      obtain ⟨j, hj, rfl⟩ := List.mem_iff_getElem.mp hg
      have hj' : j < n := by
        rw [h.len] at hj
        simpa [PoolSys.run, Loops.run, poolStart] using hj
      have := h.safe j (.ret (.user false)) gs[j]
        (by simp [PoolSys.run, Loops.run, poolStart, hj']) (List.getElem?_eq_getElem hj)
      exact this
    rw [← hgs]
    exact h.inv
  · intro c s hc
    cases hc

/-- Counting the open connections by their numbers. -/
theorem openConns_range (clients : List PClient) :
    clients.countP (·.isOpen) =
      ((List.range clients.length).filter fun c => clients[c]?.any (·.isOpen)).length := by
  induction clients with
  | nil => rfl
  | cons x clients ih =>
    rw [List.countP_cons, ih, List.length_cons, List.range_succ_eq_map, List.filter_cons, List.filter_map]
    have h : ((fun c => (x :: clients)[c]?.any (·.isOpen)) ∘ Nat.succ) = fun c => clients[c]?.any (·.isOpen) := rfl
    rw [h]
    cases hx : x.isOpen <;> simp [hx]

/-- A list of all open connections, without repetition. -/
theorem openConns_eq (w : PWorld) (l : List Nat) (hn : l.Nodup)
    (h : ∀ c, c ∈ l ↔ ∃ s, w.clients[c]? = some ⟨s, true⟩) : openConns w = l.length := by
  rw [openConns, openConns_range]
  refine List.Perm.length_eq ((List.perm_ext_iff_of_nodup (List.nodup_range.filter _) hn).mpr fun c => ?_)
  rw [h, List.mem_filter, List.mem_range]
  constructor
  · rintro ⟨h1, h2⟩
    rw [List.getElem?_eq_getElem h1] at h2 ⊢
    refine ⟨w.clients[c].session, ?_⟩
    have h3 : w.clients[c].isOpen = true := h2
    rw [← h3]
  · rintro ⟨s, hs⟩
    exact ⟨(List.getElem?_eq_some_iff.mp hs).1, by rw [hs]; rfl⟩

end Goe2ee
