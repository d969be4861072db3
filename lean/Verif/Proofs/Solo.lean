import Verif.Proofs.Local

/-!
# A goroutine that runs while the others wait

What a program does alone (`seqI`) is one of the schedules of the interleaved server: the scheduler
picks the same goroutine again and again.  So states reached by the sequential server are reachable.
-/

set_option autoImplicit false

namespace Goe2ee

section
variable {C : Crypto}

/-- Effects that neither block nor start goroutines. -/
def SOp.alone : SOp → Prop
  | .wgWait | .spawn _ => False
  | _ => True

theorem alone_enabled {o : SOp} (h : o.alone) (w : World) : enabled w o = true := by
  cases o <;> first | rfl | exact h.elim

theorem alone_spawned {o : SOp} (h : o.alone) (timeout : Nat) (a : Answer C) (c : Conn) (w : World)
    (hw : w.spawned = []) : (exec C timeout a o (c, w)).2.2.spawned = [] := by
  rw [exec_spawned, hw]
  cases o <;> first | rfl | exact h.elim

/-- What remains when a program has been run. -/
def rest : Res Bool → SProg C Bool
  | .val b => .ret b
  | .panic m => .panic m

theorem Sys.step_op (M : Manager C) (timeout : Nat) {s : Sys C} {i : Nat} {conn : Conn} {o : SOp}
    {k : SOp.Ret C o → SProg C Bool} {loop deferred : SProg C Bool}
    (hi : s.threads[i]? = some ⟨conn, .op o k, loop, deferred⟩) (ho : o.alone)
    (hw : s.world.spawned = []) (a : Answer C) :
    s.step M timeout (i, a) =
      { world := (exec C timeout a o (conn, s.world)).2.2,
        threads := s.threads.set i ⟨(exec C timeout a o (conn, s.world)).2.1,
          k (exec C timeout a o (conn, s.world)).1, loop, deferred⟩ } := by
  have hsp := alone_spawned ho timeout a conn s.world hw
  unfold Sys.step
  rw [hi]
  simp only [Thread.step, alone_enabled ho, if_true]
  rw [hsp]
  simp only [List.map_nil, List.append_nil]
  congr 1
  generalize (exec C timeout a o (conn, s.world)).2.2 = w at hsp
  cases w
  cases hsp
  rfl

theorem seqI_exec (timeout : Nat) (ans : Nat → Answer C) (o : SOp) (x : Seq) :
    ∃ a, (a = ans x.pos) ∧ (seqI C timeout ans o x).1 = (exec C timeout a o (x.conn, x.world)).1 ∧
      (seqI C timeout ans o x).2.conn = (exec C timeout a o (x.conn, x.world)).2.1 ∧
      (seqI C timeout ans o x).2.world = (exec C timeout a o (x.conn, x.world)).2.2 := by
  refine ⟨_, rfl, ?_⟩
  cases o <;> exact ⟨rfl, rfl, rfl⟩

/-- Running a program alone is a schedule. -/
theorem Sys.solo (M : Manager C) (timeout : Nat) (ans : Nat → Answer C) {p : SProg C Bool}
    (hp : Uses (S := SSig C) SOp.alone p) (s : Sys C) (i : Nat) (loop deferred : SProg C Bool) (x : Seq)
    (hx : x.world = s.world) (hi : s.threads[i]? = some ⟨x.conn, p, loop, deferred⟩)
    (hw : s.world.spawned = []) :
    ∃ acts : List (Nat × Answer C), (∀ act ∈ acts, act.1 = i ∧ ∃ n, act.2 = ans n) ∧
      s.run M timeout acts =
        { world := (p.run (seqI C timeout ans) x).2.world,
          threads := s.threads.set i ⟨(p.run (seqI C timeout ans) x).2.conn,
            rest (p.run (seqI C timeout ans) x).1, loop, deferred⟩ } ∧
      (p.run (seqI C timeout ans) x).2.world.spawned = [] := by
  induction p generalizing s x with
  | ret b => exact ⟨[], by simp, by simp [Sys.run, Prog.run, hx, rest, set_same hi], hx ▸ hw⟩
  | panic m => exact ⟨[], by simp, by simp [Sys.run, Prog.run, hx, rest, set_same hi], hx ▸ hw⟩
  | op o k ih =>
    obtain ⟨a, ha, h1, h2, h3⟩ := seqI_exec timeout ans o x
    have hstep := Sys.step_op M timeout hi hp.1 hw a
    rw [← hx] at hstep
    have hlen : i < s.threads.length := (List.getElem?_eq_some_iff.mp hi).1
    obtain ⟨acts, hacts, hrun, hsp⟩ := ih (seqI C timeout ans o x).1 (hp.2 _) (s.step M timeout (i, a))
      (seqI C timeout ans o x).2 (by rw [hstep, h3])
      (by rw [hstep]
          simp only [List.getElem?_set_self hlen, h2, h1])
      (by rw [hstep, ← h3, h3]; exact alone_spawned hp.1 timeout a _ _ (hx ▸ hw))
    refine ⟨(i, a) :: acts, ?_, ?_, hsp⟩
    · intro act hm
      rcases List.mem_cons.mp hm with rfl | hm
      · exact ⟨rfl, _, ha⟩
      · exact hacts act hm
    · show (s.step M timeout (i, a)).run M timeout acts = _
      rw [hrun, hstep]
      simp only [List.set_set]
      rfl

end

end Goe2ee
