import Verif.Proofs.Shutdown
import Verif.Props.Robust

/-!
# C57: prompt requests are answered

`C57_claim` (Props/Robust) does not hold because the write deadline is set before the request is awaited.  Here is what
holds for all kinds of requests, with any session manager: if the transport takes what is written and no request takes
longer than the write timeout, the wait for it included, every request is answered.
-/

set_option autoImplicit false

namespace Goe2ee

variable {C : Crypto}

/-- From `s0` on: the deadline stays, time does not go back, and what was written before the deadline was taken
completely. -/
def InTime (s0 s : Seq) : Prop :=
  s.conn.deadline = s0.conn.deadline ∧ s0.world.now ≤ s.world.now ∧
  ((∀ d, s0.conn.deadline = some d → s.world.now ≤ d) →
    ∀ ws, s.conn.writes = s0.conn.writes ++ ws → ∀ w ∈ ws, WRec.Complete w) ∧
  ∃ ws, s.conn.writes = s0.conn.writes ++ ws

theorem inTime_same {s0 s s' : Seq} (h : InTime s0 s) (hd : s'.conn.deadline = s.conn.deadline)
    (hw : s'.conn.writes = s.conn.writes) (hn : s.world.now ≤ s'.world.now) : InTime s0 s' :=
  ⟨hd.trans h.1, Nat.le_trans h.2.1 hn,
    fun hlate ws hws => h.2.2.1 (fun d hd' => Nat.le_trans hn (hlate d hd')) ws (hw ▸ hws),
    h.2.2.2.imp fun _ h => hw.trans h⟩

theorem inTime_write (timeout : Nat) (ans : Nat → Answer C) (hans : ∀ n, (ans n).write = (0, none)) {s0 s : Seq}
    (bs : Bytes) (h : InTime s0 s) : InTime s0 (seqI C timeout ans (.write bs) s).2 := by
  rw [seqI_other _ _ _ id]
  obtain ⟨ws0, hws0⟩ := h.2.2.2
  have hnow : s.world.now ≤ (exec C timeout (ans s.pos) (.write bs) (s.conn, s.world)).2.2.now := by
    simp only [exec, execWrite]
    split
    · exact Nat.le_refl _
    · split
      · split <;> exact Nat.le_add_right _ _
      · exact Nat.le_add_right _ _
  refine ⟨h.1, Nat.le_trans h.2.1 hnow, fun hlate ws hws => ?_,
    ⟨ws0 ++ [((bs, (exec C timeout (ans s.pos) (.write bs) (s.conn, s.world)).1) : WRec)], ?_⟩⟩
  · have hearlier := h.2.2.1 (fun d hd => Nat.le_trans hnow (hlate d hd)) ws0 hws0
    have hws' : ws = ws0 ++ [((bs, (exec C timeout (ans s.pos) (.write bs) (s.conn, s.world)).1) : WRec)] := by
      refine List.append_cancel_left (as := s0.conn.writes) ?_
      rw [← hws, ← List.append_assoc, ← hws0]
      rfl
    rw [hws']
    intro w hw
    rcases List.mem_append.mp hw with hw | hw
    · exact hearlier w hw
    · rw [List.mem_singleton.mp hw]
      show (exec C timeout (ans s.pos) (.write bs) (s.conn, s.world)).1 = (bs.length, none)
      simp only [exec, execWrite] at hlate ⊢
      split
      · rfl
      · rename_i hbuf
        rw [if_neg hbuf] at hlate
        split
        · rename_i d hd
          rw [hd] at hlate
          have hd0 : s0.conn.deadline = some d := h.1.symm.trans hd
          have := hlate d hd0
          dsimp only at this
          rw [if_neg]
          · rw [hans]; rfl
          · intro hlt
            rw [if_pos hlt] at this
            dsimp only at this
            omega
        · rw [hans]; rfl
  · rw [← List.append_assoc, ← hws0]
    rfl

theorem inTime_step (timeout : Nat) (ans : Nat → Answer C) (hans : ∀ n, (ans n).write = (0, none)) (s0 : Seq) (o : SOp)
    (s : Seq) (ho : o.serving) (h : InTime s0 s) : InTime s0 (seqI C timeout ans o s).2 := by
  cases o with
  | write bs => exact inTime_write timeout ans hans bs h
  | check r c =>
    rw [seqI_other _ _ _ id]
    simp only [exec]
    split
    · exact inTime_same h rfl rfl (Nat.le_refl _)
    · exact inTime_same h rfl rfl (Nat.le_refl _)
  | now => exact inTime_same h rfl rfl (Nat.le_add_right _ _)
  | setDeadlines => rcases ho with (h | h | h | h) | h <;> exact h.elim
  | flush => rcases ho with (h | h | h | h) | h <;> exact h.elim
  | _ => exact inTime_same h rfl rfl (Nat.le_refl _)

/-- One pass: if it ends before the write deadline, everything was written completely. -/
theorem pass_in_time {M : Manager C} (hM : M.Passive) (timeout : Nat) (ans : Nat → Answer C)
    (hans : ∀ n, (ans n).write = (0, none)) (host : Except Err Bytes) (s : Seq) (hquit : s.world.quit = false) :
    InTime (s.ready timeout ans) ((connPass M host).run (seqI C timeout ans) s).2 := by
  rw [run_connPass timeout ans M host s hquit]
  exact (serving_serveRequest hM host).run (seqI C timeout ans) (InTime (s.ready timeout ans))
    (fun o s' ho h => inTime_step timeout ans hans _ o s' ho h) _
    ⟨rfl, Nat.le_refl _, fun _ ws hws w hw => (by
      have : ws = [] := List.append_cancel_left (as := (s.ready timeout ans).conn.writes)
        (by rw [List.append_nil]; exact hws.symm)
      rw [this] at hw
      cases hw), ⟨[], (List.append_nil _).symm⟩⟩

/-- If the application does not panic, no pass does. -/
theorem pass_no_panic {M : Manager C} (hM : M.Passive) (hQ : M.Quiet) (timeout : Nat) (ans : Nat → Answer C)
    (happ : ∀ n m, (ans n).handle ≠ .panic m) (host : Except Err Bytes) (s : Seq) (m : String) :
    ((connPass M host).run (seqI C timeout ans) s).1 ≠ .panic m := by
  obtain ⟨g, hg, h⟩ := (panic_connPass hM hQ host).run (seqI C timeout ans) (fun g _ => g = none)
    (by
      intro o g s' _ hg
      cases o with
      | invoke r c h i msg =>
        rw [show (seqI C timeout ans (.invoke r c h i msg) s').1 = (ans s'.pos).handle from rfl]
        cases hh : (ans s'.pos).handle with
        | panic m => exact absurd hh (happ _ _)
        | reply _ => exact hg
        | error _ => exact hg
      | _ => exact hg) s rfl
  intro hp
  rw [hp, hg] at h
  cases h

/-- **C57**, what holds for every kind of request: if the transport takes what is written, the application does not
panic, and no request takes more than the write timeout, the wait for it included, then every request of a connection
gets its response, in order (except for process requests without the flag), however the octets arrive. -/
theorem C57_prompt_requests_answered_partial (hC : C.Lawful) {M : Manager C} (hM : M.Passive) (hQ : M.Quiet)
    (timeout : Nat) (ans : Nat → Answer C) (host : Except Err Bytes) (reqs : List (Req C))
    (hfit : ∀ q ∈ reqs, q.fits) (s : Seq) (hquit : s.world.quit = false) (rest : List (Byte ⊕ Err))
    (h : Delivers s.conn.input (reqs.flatMap Req.wire) rest)
    (hans : ∀ n, (ans n).write = (0, none)) (happ : ∀ n m, (ans n).handle ≠ .panic m)
    (hnone : timeout = 0 → s.conn.deadline = none)
    (hprompt : 0 < timeout → ∀ n < reqs.length, (serveConn C M timeout ans host (n + 1) s).2.world.now ≤
      (serveConn C M timeout ans host n s).2.world.now + timeout) :
    ∃ out s', serveConn C M timeout ans host reqs.length s = (.running, s') ∧
      s'.conn.output = s.conn.output ++ out ∧ Served reqs out true ∧ flatten s'.conn.input = rest := by
  induction reqs generalizing s with
  | nil => exact ⟨[], s, rfl, by simp, .nil, by simpa [Delivers] using h⟩
  | cons q qs ih =>
    obtain ⟨s1, ws, res, h1, h2, h3, h4, h5, h6⟩ := pass_wellformed hC hM timeout ans host q
      (hfit q (List.mem_cons_self ..)) s hquit ((qs.flatMap Req.wire).map Sum.inl ++ rest)
      (by rw [h]; simp)
    have htime := pass_in_time hM timeout ans hans host s hquit
    have hnp := pass_no_panic hM hQ timeout ans happ host s
    rw [h1] at htime hnp
    have hend : (serveConn C M timeout ans host 1 s).2.world.now = s1.world.now := by
      simp only [serveConn, h1]
      match res with
      | .val true => rfl
      | .val false => rfl
      | .panic m => rfl
    have hcomplete : ∀ w ∈ ws, WRec.Complete w := by
      refine htime.2.2.1 (fun d hd => ?_) ws h4
      simp only [Seq.ready] at hd
      split at hd
      · rename_i hpos
        have := hprompt hpos 0 (by simp)
        rw [hend] at this
        simp only [serveConn] at this
        have := Option.some.inj hd
        show s1.world.now ≤ d
        omega
      · rw [hnone (by omega)] at hd
        cases hd
    match res, h6 with
    | .val true, h6 =>
      have hstep : ∀ n, serveConn C M timeout ans host (n + 1) s = serveConn C M timeout ans host n s1 := by
        intro n
        simp only [serveConn, h1]
      obtain ⟨out, s', i1, i2, i3, i4⟩ := ih (fun q' hq' => hfit q' (List.mem_cons_of_mem _ hq')) s1 h3 h2
        (fun h0 => by
          rw [htime.1]
          simp only [Seq.ready]
          rw [if_neg (by omega)]
          exact hnone h0)
        (fun hpos n hn => by
          have := hprompt hpos (n + 1) (by simp; omega)
          rw [hstep, hstep] at this
          exact this)
      refine ⟨accepted ws ++ out, s', (hstep _).trans i1, by rw [i2, h5, List.append_assoc], ?_, i4⟩
      rcases accepted_outcome h6 with ⟨hs, hw⟩ | hr
      · rw [hw]; exact .silent hs i3
      · exact .response hr i3
    | .val false, h6 =>
      obtain ⟨-, w, hw, hn⟩ := h6
      exact absurd (hcomplete w hw) hn
    | .panic m, h6 => exact absurd rfl (hnp m)

/-! ## A concrete connection -/

/-- Hello, setup, a message with and one without reply, and hello again, each served within five microseconds: the
hypotheses hold. -/
example : ∃ out s', serveConn Toy.crypto (inMemory _) 5000 (fun _ => ServeExample.answer) (.ok (str "10.0.0.1")) 5
      (ServeExample.start (ServeExample.requests.flatMap Req.wire)) = (.running, s') ∧
    s'.conn.output = out ∧ Served ServeExample.requests out true ∧ flatten s'.conn.input = [] := by
  obtain ⟨out, s', h1, h2, h3, h4⟩ := C57_prompt_requests_answered_partial Toy.lawful (inMemory_passive _)
    (inMemory_quiet _) 5000 (fun _ => ServeExample.answer) (.ok (str "10.0.0.1")) ServeExample.requests
    (by
      intro q hq
      simp only [ServeExample.requests, List.mem_cons, List.not_mem_nil, or_false] at hq
      rcases hq with rfl | rfl | rfl | rfl | rfl
      · trivial
      · trivial
      · show List.length _ ≤ _
        decide +kernel
      · show List.length _ ≤ _
        decide +kernel
      · trivial)
    (ServeExample.start (ServeExample.requests.flatMap Req.wire)) rfl []
    (by unfold Delivers; decide +kernel) (fun _ => rfl) (fun _ _ h => by cases h) (fun h => by cases h)
    (fun _ n hn => by
      have hn5 : n < 5 := hn
      have : ∀ n < 5, (serveConn Toy.crypto (inMemory _) 5000 (fun _ => ServeExample.answer) (.ok (str "10.0.0.1"))
          (n + 1) (ServeExample.start (ServeExample.requests.flatMap Req.wire))).2.world.now ≤
        (serveConn Toy.crypto (inMemory _) 5000 (fun _ => ServeExample.answer) (.ok (str "10.0.0.1"))
          n (ServeExample.start (ServeExample.requests.flatMap Req.wire))).2.world.now + 5000 := by decide +kernel
      exact this n hn5)
  exact ⟨out, s', h1, by rw [h2]; rfl, h3, h4⟩

end Goe2ee
