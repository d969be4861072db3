import Verif.Proofs.Writes
import Verif.Proofs.UDP

/-!
# A datagram goroutine sends one response, not several
-/

set_option autoImplicit false

namespace Goe2ee

/-- If every write was complete, they contain nothing or what one of them wrote. -/
def OneResponse (ws : List WRec) : Prop :=
  (∀ w ∈ ws, w.Complete) → (ws.map (·.1)).flatten = [] ∨ ∃ w ∈ ws, (ws.map (·.1)).flatten = w.1

/-- Ghost state: the writes, and whether they were sent. -/
structure SendG where
  ws : List WRec
  flushed : Bool

section
variable (C : Crypto)

/-- Records the writes; they are sent once, and only if they are one response. -/
def sendA : Auto (SSig C) SendG where
  pre
    | .flush, g => g.flushed = false ∧ OneResponse g.ws
    | _, _ => True
  next
    | .write bs, (n, e), g => { g with ws := g.ws ++ [(bs, n, e)] }
    | .flush, _, g => { g with flushed := true }
    | _, _, g => g

variable {C}

theorem sendA_of_writesA {α : Type} {p : SProg C α} {ws : List WRec} {Q : α → List WRec → Prop}
    {E : String → List WRec → Prop} (h : SafeE (writesA C) p ws Q E) :
    SafeE (sendA C) p ⟨ws, false⟩ (fun a g => g.flushed = false ∧ Q a g.ws)
      (fun m g => g.flushed = false ∧ E m g.ws) := by
  induction p generalizing ws with
  | ret a => exact ⟨rfl, h⟩
  | panic m => exact ⟨rfl, h⟩
  | op o k ih =>
    obtain ⟨h1, h2⟩ := h
    refine ⟨?_, fun r => ?_⟩
    · cases o <;> first | exact h1.elim | trivial
    · have hn : (sendA C).next o r ⟨ws, false⟩ = ⟨(writesA C).next o r ws, false⟩ := by
        cases o <;> first | exact h1.elim | rfl
      rw [hn]
      exact ih r (h2 r)

/-- Effects other than sending the answer. -/
def SOp.noFlush : SOp → Prop
  | .flush => False
  | _ => True

theorem serving_noFlush (o : SOp) (h : o.serving) : o.noFlush := by
  rcases h with (h | h | h | h) | h <;> cases o <;> first | exact h.elim | trivial

theorem send_free {α : Type} {p : SProg C α} (hp : Uses (S := SSig C) SOp.noFlush p) (g : SendG) :
    SafeE (sendA C) p g (fun _ _ => True) (fun _ _ => True) := by
  induction p generalizing g with
  | ret a => trivial
  | panic m => trivial
  | op o k ih =>
    refine ⟨?_, fun r => ih r (hp.2 r) _⟩
    have := hp.1
    cases o <;> first | exact this.elim | trivial

theorem oneResponse_of_outcome {silent : Prop} {P : Bytes → Prop} (err : Option Err) {ws : List WRec}
    (h : Outcome silent P err ws) : OneResponse ws := by
  intro hc
  cases err with
  | none =>
    rcases h with ⟨-, rfl⟩ | ⟨fails, r, rfl, -, hf⟩
    · exact .inl rfl
    · have hz : (fails.map (·.1)).flatten = [] := by
        simp only [List.flatten_eq_nil_iff, List.mem_map]
        rintro l ⟨w, hw, rfl⟩
        have h1 := hc w (List.mem_append_left _ hw)
        have h2 := (hf w hw).1
        rw [h1] at h2
        exact List.length_eq_zero_iff.mp h2
      exact .inr ⟨_, List.mem_append_right _ (List.mem_singleton_self _), by simp [hz]⟩
  | some e =>
    obtain ⟨-, w, hw, hn⟩ := h
    exact absurd (hc w hw) hn

theorem send_ofPeer {M : Manager C} (hM : M.Passive) (p : Peer) :
    ThreadOK (sendA C) (Thread.ofPeer M p) ⟨[], false⟩ := by
  cases p with
  | tcp host input =>
    have hpass : ∀ g, SafeE (sendA C) (connPass M host) g
        (fun b g' => if b then True else True) (fun _ _ => True) := by
      intro g
      refine ⟨trivial, fun (closed : Bool) => ?_⟩
      cases closed with
      | true => trivial
      | false =>
        refine ⟨trivial, fun _ => ?_⟩
        exact (send_free ((serving_serveRequest hM host).mono serving_noFlush) _).mono
          (fun a _ _ => by cases a <;> trivial) (fun _ _ _ => trivial)
    exact ⟨fun _ => True, fun _ => True, hpass _, fun g _ => hpass g,
      fun g _ => ⟨trivial, fun _ => ⟨trivial, fun _ => trivial⟩⟩⟩
  | udp host d =>
    refine ⟨fun _ => False, fun g => g.flushed = false ∧ OneResponse g.ws, ?_, fun g h => h.elim,
      fun g hg => ⟨hg, fun _ => trivial⟩⟩
    refine ⟨trivial, fun _ => SafeE.bind ((sendA_of_writesA (outcome_serveRequest hM host)).mono ?_ ?_)⟩
    · rintro b ⟨ws, f⟩ ⟨hf, h⟩
      refine ⟨hf, ?_⟩
      cases b with
      | true => exact oneResponse_of_outcome none h
      | false =>
        rcases h with h | h
        · intro _
          have h : ws = [] := h
          subst h
          exact .inl rfl
        · exact oneResponse_of_outcome (some .eof) h
    · rintro m ⟨ws, f⟩ ⟨hf, h⟩
      have h : ws = [] := h
      subst h
      exact ⟨hf, fun _ => .inl rfl⟩

/-- The connection of a datagram goroutine in terms of the recorded writes. -/
def SendR (g : SendG) (c : Conn) : Prop :=
  c.buffered = true → c.writes = g.ws ∧ (∀ w ∈ g.ws, w.Complete) ∧
    (g.flushed = false → c.sent = [] ∧ c.output = (g.ws.map (·.1)).flatten) ∧
    ∀ d ∈ c.sent, ∃ w ∈ g.ws, d = w.1

theorem sendR_keeps {M : Manager C} (hM : M.Passive) (timeout : Nat) :
    KeepsLocal M timeout (sendA C) SendR (fun _ => True) where
  exec a o c w g _ hpre h := by
    cases o with
    | write bs =>
      intro hb
      have hb : c.buffered = true := hb
      obtain ⟨h1, h2, h3, h4⟩ := h hb
      simp only [exec, execWrite, hb, if_true, sendA]
      refine ⟨by rw [h1], ?_, ?_, ?_⟩
      · intro x hx
        rcases List.mem_append.mp hx with hx | hx
        · exact h2 x hx
        · rw [List.mem_singleton.mp hx]; rfl
      · intro hf
        refine ⟨(h3 hf).1, ?_⟩
        rw [(h3 hf).2, List.take_length]
        simp
      · intro d hd
        obtain ⟨x, hx, he⟩ := h4 d hd
        exact ⟨x, List.mem_append_left _ hx, he⟩
    | flush =>
      obtain ⟨hpf, hpo⟩ := hpre
      show SendR { g with flushed := true } _
      intro hb
      simp only [exec] at hb ⊢
      split at hb
      · rename_i ho
        rw [if_pos ho]
        obtain ⟨h1, h2, h3, h4⟩ := h hb
        exact ⟨h1, h2, fun hf => (Bool.noConfusion hf), h4⟩
      · rename_i ho
        rw [if_neg ho]
        obtain ⟨h1, h2, h3, h4⟩ := h hb
        obtain ⟨h5, h6⟩ := h3 hpf
        refine ⟨h1, h2, fun hf => (Bool.noConfusion hf), fun d hd => ?_⟩
        have hd : d ∈ c.sent ++ [c.output] := hd
        rw [h5, List.nil_append, List.mem_singleton] at hd
        rcases hpo h2 with hz | ⟨x, hx, he⟩
        · exact absurd (.inl (h6.trans hz)) ho
        · exact ⟨x, hx, by rw [hd, h6, he]⟩
    | check r counter =>
      simp only [exec]
      split <;> exact h
    | receive =>
      simp only [exec]
      split <;> exact h
    | accept =>
      simp only [exec]
      split <;> exact h
    | _ => exact h
  spawn p c g _ _ := by
    refine ⟨_, send_ofPeer hM p, fun _ => ?_⟩
    cases p <;> exact ⟨rfl, fun _ h => absurd h List.not_mem_nil, fun _ => ⟨rfl, rfl⟩,
      fun _ h => absurd h List.not_mem_nil⟩

theorem send_start (ttl closers : Nat) :
    ∀ t ∈ (Sys.start (C := C) ttl closers).threads, LocalOK (sendA C) SendR t := by
  have hR : SendR ⟨[], false⟩ Conn.none := fun h => by cases h
  have hloop : ∀ {p : SProg C Bool}, Uses (S := SSig C) SOp.noFlush p →
      LocalOK (sendA C) SendR (.repeating p) := by
    intro p hp
    refine ⟨⟨[], false⟩, ⟨fun _ => True, fun _ => True, ?_, ?_, fun _ _ => trivial⟩, hR⟩
    · exact (send_free hp _).mono (fun a _ _ => by cases a <;> trivial) (fun _ _ _ => trivial)
    · exact fun g _ => (send_free hp g).mono (fun a _ _ => by cases a <;> trivial) (fun _ _ _ => trivial)
  refine start_threads (hloop ?_) (hloop ?_) (hloop ?_) ?_
  · refine ⟨trivial, fun (closed : Bool) => ?_⟩
    cases closed with
    | true => trivial
    | false =>
      refine ⟨trivial, fun (acc : Except Err Peer) => ?_⟩
      cases acc with
      | error e => trivial
      | ok p => exact ⟨trivial, fun _ => ⟨trivial, fun _ => trivial⟩⟩
  · refine ⟨trivial, fun (closed : Bool) => ?_⟩
    cases closed with
    | true => trivial
    | false =>
      refine ⟨trivial, fun (acc : Except Err Peer) => ?_⟩
      cases acc with
      | error e => trivial
      | ok p => exact ⟨trivial, fun _ => trivial⟩
  · refine ⟨trivial, fun (key : Bytes) => ⟨trivial, fun (value : Option (Ref × Nat)) => ?_⟩⟩
    rcases value with _ | ⟨r, last⟩
    · trivial
    refine ⟨trivial, fun (t : Nat) => ?_⟩
    dsimp only
    split
    · exact ⟨trivial, fun _ => trivial⟩
    · trivial
  · refine ⟨⟨[], false⟩, ⟨fun _ => True, fun _ => True, ?_, fun _ _ => trivial, fun _ _ => trivial⟩, hR⟩
    refine ⟨trivial, fun (ok : Bool) => ?_⟩
    cases ok with
    | true => exact ⟨trivial, fun _ => ⟨trivial, fun _ => trivial⟩⟩
    | false => trivial

/-- Whatever the schedule and traffic: what a datagram goroutine sends is exactly one of its writes. -/
theorem sent_is_write {M : Manager C} (hM : M.Passive) (timeout ttl closers : Nat)
    (acts : List (Nat × Answer C)) (t : Thread C)
    (ht : t ∈ (Sys.run M timeout (Sys.start ttl closers) acts).threads)
    (hudp : t.conn.buffered = true) (d : Bytes) (hd : d ∈ t.conn.sent) :
    ∃ w ∈ t.conn.writes, d = w.1 := by
  obtain ⟨g, -, hR⟩ := (sendR_keeps hM timeout).run acts (fun _ _ => trivial) (Sys.start ttl closers) rfl
    (send_start ttl closers) t ht
  obtain ⟨h1, -, -, h4⟩ := hR hudp
  rw [h1]
  exact h4 d hd

end

end Goe2ee
