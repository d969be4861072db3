import Verif.Model.SlowServer
import Verif.Props.SlowPeer
import Verif.Props.Errors

/-!
# C177: a server that takes its time

A `Read` with a timeout ends when the timeout expires, however the octets of the server are spread over
it; it says so then, and it returns any reply that is complete before.
-/

set_option autoImplicit false

namespace Goe2ee

section
variable {C : Crypto}

/-! ## How long -/

theorem slowClient_read (timeout : Nat) (env : CEnv C) (o : ROp) (t : SlowConn) (s : CConn × CShared) :
    slowClientI C timeout env (.read o) (t, s) =
      ((readInterp readSlow o t).1, ((readInterp readSlow o t).2, s)) := rfl

/-- Use of a parser on a slow connection. -/
theorem run_slow_parse {α β : Type} (timeout : Nat) (env : CEnv C) (p : RProg α) (f : α → CProg C β) (t : SlowConn)
    (s : CConn × CShared) :
    ((onClientConn p).bind f).run (slowClientI C timeout env) (t, s) =
      match p.run (readInterp readSlow) t with
      | (.val a, t') => (f a).run (slowClientI C timeout env) (t', s)
      | (.panic m, t') => (.panic m, (t', s)) := by
  induction p generalizing t with
  | ret a => rfl
  | panic m => rfl
  | op o k ih => exact ih (readInterp readSlow o t).1 (readInterp readSlow o t).2

theorem run_after {α : Type} (p : RProg α) (t : SlowConn) : t.After (p.run (readInterp readSlow) t).2 := by
  induction p generalizing t with
  | ret a => exact .refl t
  | panic m => exact .refl t
  | op o k ih => exact (readInterp_after o t).trans (ih _ _)

/-! ## What a read says when it ends after the deadline -/

theorem readSlow_overdue (t : SlowConn) (k : Nat) (h : t.now ≤ t.readBy) :
    (readSlow t k).2.now ≤ t.readBy ∨ (readSlow t k).1 = ([], some .timeout) := by
  unfold readSlow
  split
  · omega
  · split
    · exact .inr rfl
    · split
      · exact .inr rfl
      · exact .inl (by dsimp only; omega)

theorem readFullLoop_overdue (fuel remaining : Nat) (acc : Bytes) (t : SlowConn) (h : t.now ≤ t.readBy) :
    (readFullLoop readSlow fuel remaining acc t).2.now ≤ t.readBy ∨
      (readFullLoop readSlow fuel remaining acc t).1 = .error .timeout := by
  induction fuel generalizing remaining acc t with
  | zero => cases remaining <;> exact .inl h
  | succ fuel ih =>
    cases remaining with
    | zero => exact .inl h
    | succ r =>
      simp only [readFullLoop]
      have h1 := readSlow_after t (r + 1)
      rcases readSlow_overdue t (r + 1) h with h2 | h2
      · split
        · exact .inl h2
        · split
          · rw [← h1.readBy] at h2 ⊢
            exact ih _ _ _ h2
          · exact .inl h2
      · generalize readSlow t (r + 1) = x at h2
        obtain ⟨⟨bs, err⟩, t'⟩ := x
        cases h2
        exact .inr (by simp)

theorem copyLoop_overdue (fuel remaining : Nat) (acc : Bytes) (t : SlowConn) (h : t.now ≤ t.readBy) :
    (copyLoop readSlow fuel remaining acc t).2.now ≤ t.readBy ∨
      ∃ bs, (copyLoop readSlow fuel remaining acc t).1 = (bs, some .timeout) := by
  induction fuel generalizing remaining acc t with
  | zero => cases remaining <;> exact .inl h
  | succ fuel ih =>
    cases remaining with
    | zero => exact .inl h
    | succ r =>
      simp only [copyLoop]
      have h1 := readSlow_after t (r + 1)
      rcases readSlow_overdue t (r + 1) h with h2 | h2
      · split
        · rw [← h1.readBy] at h2 ⊢
          exact ih _ _ _ h2
        · exact .inl h2
        · exact .inl h2
      · generalize readSlow t (r + 1) = x at h2
        obtain ⟨⟨bs, err⟩, t'⟩ := x
        cases h2
        exact .inr ⟨_, rfl⟩

/-- A parser that reports an expired deadline. -/
def ReportsDeadline {α : Type} : RProg (Except Err α) → Prop
  | .ret _ => True
  | .panic _ => True
  | .op (.alloc _) k => ∀ r, ReportsDeadline (k r)
  | .op (.readFull _) k =>
    (∃ e, k (Except.error .timeout : Except Err Bytes) = .ret (.error e) ∧ e.isDeadline = true) ∧
      ∀ r, ReportsDeadline (k r)
  | .op (.copyLimit _) k =>
    (∀ bs, ∃ e, k ((bs, some .timeout) : Bytes × Option Err) = .ret (.error e) ∧ e.isDeadline = true) ∧
      ∀ r, ReportsDeadline (k r)

theorem reports_readField {α : Type} (n : Nat) (what : String) (k : Bytes → RProg (Except Err α))
    (h : ∀ bs, ReportsDeadline (k bs)) : ReportsDeadline (readField n what k) := by
  refine ⟨⟨_, rfl, rfl⟩, fun r => ?_⟩
  show ReportsDeadline (match r with | .ok bs => k bs | .error .unexpectedEOF => _ | .error e => _)
  split
  · exact h _
  · trivial
  · trivial

theorem reports_readOctet {α : Type} (what : String) (k : Byte → RProg (Except Err α))
    (h : ∀ b, ReportsDeadline (k b)) : ReportsDeadline (readOctet what k) := by
  refine ⟨fun bs => ⟨_, rfl, rfl⟩, fun r => ?_⟩
  show ReportsDeadline (match r with | (bs, some e) => _ | ([], none) => _ | ([b], none) => k b | (_, none) => _)
  split
  · split
    · trivial
    · split
      · trivial
      · exact h _
      · trivial
  · trivial
  · exact h _
  · trivial

theorem reports_common : ReportsDeadline parseResponseCommon :=
  reports_readOctet _ _ fun _ => trivial

theorem reports_error (common : ResponseCommon) : ReportsDeadline (parseErrorResponse common) := by
  refine reports_readField _ _ _ fun _ => reports_readField _ _ _ fun _ => ?_
  dsimp only
  split
  · trivial
  refine ⟨fun bs => ⟨_, rfl, rfl⟩, fun r => ?_⟩
  obtain ⟨bs, err⟩ := r
  cases err with
  | none =>
    dsimp only
    split <;> trivial
  | some e =>
    dsimp only
    split
    · trivial
    · split <;> trivial

theorem reports_process (common : ResponseCommon) : ReportsDeadline (parseProcessResponse common) := by
  refine reports_readField _ _ _ fun _ => reports_readField _ _ _ fun _ => ?_
  dsimp only
  split
  · trivial
  exact fun _ => reports_readField _ _ _ fun _ => trivial

theorem run_overdue {α : Type} (p : RProg (Except Err α)) (hp : ReportsDeadline p) (t : SlowConn)
    (h : t.now ≤ t.readBy) :
    (p.run (readInterp readSlow) t).2.now ≤ t.readBy ∨
      ∃ e, (p.run (readInterp readSlow) t).1 = .val (.error e) ∧ e.isDeadline = true := by
  induction p generalizing t with
  | ret a => exact .inl h
  | panic m => exact .inl h
  | op o k ih =>
    have ha := readInterp_after o t
    show SlowConn.now (Prog.run (readInterp readSlow) (k (readInterp readSlow o t).1) (readInterp readSlow o t).2).2 ≤ _ ∨
      ∃ e, (Prog.run (readInterp readSlow) (k (readInterp readSlow o t).1) (readInterp readSlow o t).2).1 =
        .val (.error e) ∧ _
    have go : ReportsDeadline (k (readInterp readSlow o t).1) → (readInterp readSlow o t).2.now ≤ t.readBy → _ :=
      fun h1 h2 => ih (readInterp readSlow o t).1 h1 (readInterp readSlow o t).2 (by rw [ha.readBy]; exact h2)
    rw [ha.readBy] at go
    cases o with
    | alloc n => exact go (hp _) h
    | readFull n =>
      rcases readFullLoop_overdue n n [] t h with h2 | h2
      · exact go (hp.2 _) h2
      · obtain ⟨e, h3, h4⟩ := hp.1
        rw [show (readInterp readSlow (.readFull n) t).1 = (Except.error .timeout : Except Err Bytes) from h2, h3]
        exact .inr ⟨e, rfl, h4⟩
    | copyLimit n =>
      rcases copyLoop_overdue n.toNat n.toNat [] t h with h2 | ⟨bs, h2⟩
      · exact go (hp.2 _) h2
      · obtain ⟨e, h3, h4⟩ := hp.1 bs
        rw [show (readInterp readSlow (.copyLimit n) t).1 = ((bs, some .timeout) : Bytes × Option Err) from h2, h3]
        exact .inr ⟨e, rfl, h4⟩

/-- What is known about the end of a `Read` whose deadline is `d`. -/
def EndsWell (c : Client) (d : Nat) (r : Res ((Bytes × Option Err) × Client) × (SlowConn × CConn × CShared)) :
    Prop :=
  r.2.1.now ≤ d ∨ r.2.1.now ≤ d + 1 ∧ ∃ e, r.1 = .val (([], some e), c) ∧ e.isDeadline = true

theorem endsWell_parse {α : Type} {timeout : Nat} {env : CEnv C} {c : Client} {p : RProg (Except Err α)}
    (hp : ReportsDeadline p) {f : Except Err α → CProg C ((Bytes × Option Err) × Client)} {t : SlowConn}
    {s : CConn × CShared} {d : Nat} (hby : t.readBy = d) (h : t.now ≤ d)
    (hd : ∀ e, e.isDeadline = true → ∃ e', f (.error e) = .ret (([], some e'), c) ∧ e'.isDeadline = true)
    (hf : ∀ a t', t'.readBy = d → t'.now ≤ d → EndsWell c d ((f a).run (slowClientI C timeout env) (t', s))) :
    EndsWell c d (((onClientConn p).bind f).run (slowClientI C timeout env) (t, s)) := by
  subst hby
  rw [run_slow_parse]
  have h1 := run_after p t
  have h2 := run_overdue p hp t h
  generalize p.run (readInterp readSlow) t = x at h1 h2
  obtain ⟨r, t'⟩ := x
  have h3 := h1.bound
  rcases h2 with h2 | ⟨e, h2, h4⟩
  · cases r with
    | val a => exact hf a t' h1.readBy h2
    | panic m => exact .inl h2
  · cases h2
    obtain ⟨e', h5, h6⟩ := hd e h4
    dsimp only
    rw [h5]
    exact .inr ⟨by show t'.now ≤ _; dsimp only at h3; omega, e', rfl, h6⟩

theorem slow_read (env : CEnv C) (c : Client) (hr : c.readTimeout > 0) (n : Nat) (t : SlowConn)
    (s : CConn × CShared) :
    EndsWell c (t.now + c.readTimeout.toNat)
      ((c.read n).run (slowClientI C c.readTimeout.toNat env) (t, s)) := by
  unfold Client.read
  rw [if_pos hr]
  show EndsWell c _ (Prog.run (slowClientI C c.readTimeout.toNat env)
    (match env.readDeadline with | some e => _ | none => _) ({ t with readBy := _ }, s))
  cases hd : env.readDeadline with
  | some e => exact .inl (Nat.le_add_right _ _)
  | none =>
    dsimp only [Option.isNone_none, if_true]
    split
    · exact .inl (Nat.le_add_right _ _)
    refine endsWell_parse reports_common rfl (Nat.le_add_right _ _) (fun e he => ⟨_, rfl, he⟩) ?_
    intro a t' h1 h2
    rcases a with e | common
    · exact .inl h2
    dsimp only
    split
    · refine endsWell_parse (reports_error common) h1 h2 (fun e he => ⟨_, rfl, he⟩) ?_
      intro a t'' _ h3
      cases a <;> exact .inl h3
    · refine endsWell_parse (reports_process common) h1 h2 (fun e he => ⟨_, rfl, he⟩) ?_
      intro a t'' _ h3
      rcases a with e | response
      · exact .inl h3
      dsimp only
      split
      · exact .inl h3
      split
      · exact .inl h3
      split
      · exact .inl h3
      generalize nonce directionServerToClient response.counter gcmNonceSize = x
      cases x with
      | panic m => exact .inl h3
      | val nonce =>
        dsimp only [ofClientRes, Prog.ret_bind]
        split <;> exact .inl h3

/-- **C177**, the time: whatever the server sends, and when, `Read` returns when its timeout has expired at the
latest (`+ 1`: the error comes after the deadline).  If it returns after the deadline, it returns no data, leaves
the client unchanged and its error is a `deadline exceeded`. -/
theorem C177_timeout (env : CEnv C) (c : Client) (hr : c.readTimeout > 0) (n : Nat) (t : SlowConn)
    (s : CConn × CShared) :
    (readFromSlow C env c n t s).2.now ≤ t.now + c.readTimeout.toNat + 1 ∧
      (t.now + c.readTimeout.toNat < (readFromSlow C env c n t s).2.now →
        ∃ e, (readFromSlow C env c n t s).1 = .val (([], some e), c) ∧ e.Is .timeout) := by
  rcases slow_read env c hr n t s with h | ⟨h1, e, h2, h3⟩
  · exact ⟨Nat.le_trans h (Nat.le_add_right _ _), fun h' => absurd h (Nat.not_le.mpr h')⟩
  · exact ⟨h1, fun _ => ⟨e, h2, (Err.isDeadline_iff e).mp h3⟩⟩

/-! ## A reply that is complete in time -/

/-- The next octets, `xs`, arrive by the time `d`, before the deadline. -/
structure ArrivesBy (d : Nat) (xs rest : List (Nat × Byte)) (t : SlowConn) : Prop where
  arrivals : t.arrivals = xs ++ rest
  now : t.now ≤ d
  readBy : d ≤ t.readBy
  all : ∀ x ∈ xs, x.1 ≤ d

theorem readSlow_inTime {d : Nat} {xs rest : List (Nat × Byte)} {t : SlowConn} (h : ArrivesBy d xs rest t) (k : Nat)
    (hk : 0 < k) (hle : k ≤ xs.length) :
    ∃ m t', 0 < m ∧ m ≤ k ∧ readSlow t k = (((xs.take m).map (·.2), none), t') ∧
      ArrivesBy d (xs.drop m) rest t' := by
  cases xs with
  | nil => simp at hle; omega
  | cons x xs =>
    obtain ⟨a, b⟩ := x
    have h1 : a ≤ d := h.all (a, b) (by simp)
    have h2 := h.now
    have h3 := h.readBy
    have h4 : t.arrivals = (a, b) :: (xs ++ rest) := h.arrivals
    let more := ((xs ++ rest).takeWhile fun x => x.1 ≤ max t.now a).take (k - 1)
    have hm : more = (xs ++ rest).take more.length := by
      rw [← List.prefix_iff_eq_take]
      exact (List.take_prefix _ _).trans (List.takeWhile_prefix _)
    have hl : more.length ≤ k - 1 := by simp only [more, List.length_take]; omega
    simp only [List.length_cons] at hle
    refine ⟨more.length + 1, { t with now := max t.now a, arrivals := (xs ++ rest).drop more.length },
      Nat.succ_pos _, by omega, ?_, ?_⟩
    · unfold readSlow
      rw [if_neg (by omega), h4]
      dsimp only
      rw [if_neg (by omega)]
      have : more.map (·.2) = (xs.take more.length).map (·.2) := by
        exact congrArg (List.map (·.2)) (hm.trans (List.take_append_of_le_length (by omega)))
      rw [List.take_succ_cons, List.map_cons, ← this]
    · refine ⟨?_, ?_, h3, ?_⟩
      · show (xs ++ rest).drop more.length = _
        rw [List.drop_append_of_le_length (by omega), List.drop_succ_cons]
      · show max t.now a ≤ d
        omega
      · intro x hx
        rw [List.drop_succ_cons] at hx
        exact h.all x (List.mem_cons_of_mem _ (List.mem_of_mem_drop hx))

theorem readFullLoop_inTime {d : Nat} {rest : List (Nat × Byte)} (n : Nat) : ∀ (fuel : Nat) (acc : Bytes)
    (xs : List (Nat × Byte)) (t : SlowConn), ArrivesBy d xs rest t → n ≤ fuel → n ≤ xs.length →
    ∃ t', readFullLoop readSlow fuel n acc t = (.ok (acc ++ (xs.take n).map (·.2)), t') ∧
      ArrivesBy d (xs.drop n) rest t' := by
  induction n using Nat.strongRecOn with
  | _ n ih =>
  intro fuel acc xs t h hf hn
  cases n with
  | zero => exact ⟨t, by cases fuel <;> simp [readFullLoop], by simpa using h⟩
  | succ n =>
    cases fuel with
    | zero => omega
    | succ fuel =>
      obtain ⟨m, t', hm, hmk, h1, h2⟩ := readSlow_inTime h (n + 1) (by omega) hn
      have hlen : ((xs.take m).map (·.2)).length = m := by simp; omega
      rw [readFullLoop, h1]
      by_cases hfull : n + 1 ≤ m
      · have : m = n + 1 := by omega
        subst this
        exact ⟨t', by simp only [hlen, hfull, if_true], h2⟩
      · simp only [hlen, hfull, if_false]
        obtain ⟨t'', h3, h4⟩ := ih (n + 1 - m) (by omega) fuel (acc ++ (xs.take m).map (·.2)) (xs.drop m) t' h2
          (by omega) (by simp; omega)
        refine ⟨t'', ?_, ?_⟩
        · rw [h3, List.append_assoc, ← List.map_append]
          congr 4
          rw [← List.take_add]
          congr 1
          omega
        · rw [List.drop_drop, show m + (n + 1 - m) = n + 1 by omega] at h4
          exact h4

theorem copyLoop_inTime {d : Nat} {rest : List (Nat × Byte)} (n : Nat) : ∀ (fuel : Nat) (acc : Bytes)
    (xs : List (Nat × Byte)) (t : SlowConn), ArrivesBy d xs rest t → n ≤ fuel → n ≤ xs.length →
    ∃ t', copyLoop readSlow fuel n acc t = ((acc ++ (xs.take n).map (·.2), none), t') ∧
      ArrivesBy d (xs.drop n) rest t' := by
  induction n using Nat.strongRecOn with
  | _ n ih =>
  intro fuel acc xs t h hf hn
  cases n with
  | zero => exact ⟨t, by cases fuel <;> simp [copyLoop], by simpa using h⟩
  | succ n =>
    cases fuel with
    | zero => omega
    | succ fuel =>
      obtain ⟨m, t', hm, hmk, h1, h2⟩ := readSlow_inTime h (n + 1) (by omega) hn
      have hlen : ((xs.take m).map (·.2)).length = m := by simp; omega
      rw [copyLoop, h1]
      simp only [hlen]
      obtain ⟨t'', h3, h4⟩ := ih (n + 1 - m) (by omega) fuel (acc ++ (xs.take m).map (·.2)) (xs.drop m) t' h2
        (by omega) (by simp; omega)
      refine ⟨t'', ?_, ?_⟩
      · rw [h3, List.append_assoc, ← List.map_append]
        congr 4
        rw [← List.take_add]
        congr 1
        omega
      · rw [List.drop_drop, show m + (n + 1 - m) = n + 1 by omega] at h4
        exact h4

/-- The octets, followed by an error. -/
def thenFail (xs : List (Nat × Byte)) : List Item := (xs.map (·.2)).map Sum.inl ++ [.inr .timeout]

theorem readFullI_short (bs : Bytes) (n : Nat) (h : bs.length < n) :
    (readFullI (bs.map Sum.inl ++ [.inr .timeout]) n).2 = [] := by
  induction bs generalizing n with
  | nil =>
    cases n with
    | zero => simp at h
    | succ n => rfl
  | cons b bs ih =>
    cases n with
    | zero => simp at h
    | succ n =>
      have := ih n (by simpa using h)
      simp only [List.map_cons, List.cons_append, readFullI]
      split <;> rename_i heq <;> rw [heq] at this <;> exact this

theorem copyLimitI_short (bs : Bytes) (n : Nat) (h : bs.length < n) :
    (copyLimitI (bs.map Sum.inl ++ [.inr .timeout]) n).2 = [] := by
  induction bs generalizing n with
  | nil =>
    cases n with
    | zero => simp at h
    | succ n => rfl
  | cons b bs ih =>
    cases n with
    | zero => simp at h
    | succ n => exact ih n (by simpa using h)

theorem runI_nil {α : Type} (p : RProg α) : (runI p []).2 = [] := by
  induction p with
  | ret a => rfl
  | panic m => rfl
  | op o k ih =>
    cases o with
    | alloc n => exact ih _
    | readFull n => cases n <;> exact ih _
    | copyLimit n =>
      show (runI (k (copyLimitI [] n.toNat).1) (copyLimitI [] n.toNat).2).2 = []
      cases n.toNat <;> exact ih _

/-- A parser for which the octets suffice computes on the slow connection what it computes otherwise. -/
theorem run_inTime {α : Type} {d : Nat} {rest : List (Nat × Byte)} (p : RProg α) (r : Res α) (ys : List Item)
    (xs : List (Nat × Byte)) (t : SlowConn) (h : ArrivesBy d xs rest t) (hp : runI p (thenFail xs) = (r, ys))
    (hy : ys ≠ []) :
    ∃ zs t', p.run (readInterp readSlow) t = (r, t') ∧ ys = thenFail zs ∧ ArrivesBy d zs rest t' := by
  induction p generalizing xs t with
  | ret a => cases hp; exact ⟨xs, t, rfl, rfl, h⟩
  | panic m => cases hp; exact ⟨xs, t, rfl, rfl, h⟩
  | op o k ih =>
    cases o with
    | alloc n => exact ih () xs t h hp
    | readFull n =>
      by_cases hn : n ≤ xs.length
      · obtain ⟨t', h1, h2⟩ := readFullLoop_inTime n n [] xs t h (Nat.le_refl _) hn
        have h3 : readFullI (thenFail xs) n = (.ok ((xs.take n).map (·.2)), thenFail (xs.drop n)) := by
          have := readFullI_full ((xs.take n).map (·.2)) (thenFail (xs.drop n))
          rw [List.length_map, List.length_take, Nat.min_eq_left hn] at this
          rw [← this, thenFail, thenFail, ← List.append_assoc, ← List.map_append, ← List.map_append,
            List.take_append_drop]
        have hp' : runI (k (readFullI (thenFail xs) n).1) (readFullI (thenFail xs) n).2 = (r, ys) := hp
        rw [h3] at hp'
        obtain ⟨zs, t'', g1, g2⟩ := ih _ _ _ h2 hp'
        refine ⟨zs, t'', ?_, g2⟩
        show Prog.run (readInterp readSlow) (k (readFullLoop readSlow n n [] t).1) (readFullLoop readSlow n n [] t).2 = _
        rw [h1]
        exact g1
      · refine absurd ?_ hy
        have h1 := readFullI_short (xs.map (·.2)) n (by simp; omega)
        have hp' : runI (k (readFullI (thenFail xs) n).1) (readFullI (thenFail xs) n).2 = (r, ys) := hp
        have h2 : (readFullI (thenFail xs) n).2 = [] := h1
        rw [h2] at hp'
        exact (congrArg Prod.snd hp').symm.trans (runI_nil _)
    | copyLimit m =>
      generalize hm : m.toNat = n
      by_cases hn : n ≤ xs.length
      · obtain ⟨t', h1, h2⟩ := copyLoop_inTime n n [] xs t h (Nat.le_refl _) hn
        have h3 : copyLimitI (thenFail xs) n = (((xs.take n).map (·.2), none), thenFail (xs.drop n)) := by
          have := copyLimitI_append ((xs.take n).map (·.2)) (thenFail (xs.drop n)) 0
          rw [List.length_map, List.length_take, Nat.min_eq_left hn, Nat.add_zero] at this
          rw [show copyLimitI (thenFail (xs.drop n)) 0 = (([], none), thenFail (xs.drop n)) by
            unfold copyLimitI; rfl, List.append_nil] at this
          rw [← this, thenFail, thenFail, ← List.append_assoc, ← List.map_append, ← List.map_append,
            List.take_append_drop]
        have hp' : runI (k (copyLimitI (thenFail xs) m.toNat).1) (copyLimitI (thenFail xs) m.toNat).2 = (r, ys) := hp
        rw [hm, h3] at hp'
        obtain ⟨zs, t'', g1, g2⟩ := ih _ _ _ h2 hp'
        refine ⟨zs, t'', ?_, g2⟩
        show Prog.run (readInterp readSlow) (k (copyLoop readSlow m.toNat m.toNat [] t).1)
          (copyLoop readSlow m.toNat m.toNat [] t).2 = _
        rw [hm, h1]
        exact g1
      · refine absurd ?_ hy
        have h1 := copyLimitI_short (xs.map (·.2)) n (by simp; omega)
        have hp' : runI (k (copyLimitI (thenFail xs) m.toNat).1) (copyLimitI (thenFail xs) m.toNat).2 = (r, ys) := hp
        have h2 : (copyLimitI (thenFail xs) n).2 = [] := h1
        rw [hm, h2] at hp'
        exact (congrArg Prod.snd hp').symm.trans (runI_nil _)

/-- **C177**, replies: if the octets of the reply to the request sent last have all arrived by the time `d`, which
is before the timeout expires, `Read` returns its data, by the time `d`, and reads nothing that follows the
reply. -/
theorem C177_in_time (hC : C.Lawful) (env : CEnv C) (c : Client) (hr : c.readTimeout > 0) (n : Nat)
    (session : ClientSession) (key ct message : Bytes) (d : Nat) (xs rest : List (Nat × Byte)) (t : SlowConn)
    (s : CConn × CShared) (hd : env.readDeadline = none) (hb : c.buffer = []) (hs : c.session = some session)
    (hk : deriveKey C session.secret kdfInfo aesKeySize = .ok key) (hl : ct.length ≤ 2 ^ 30)
    (ho : C.aeadOpen key (Wire.nonce12 1 c.lastSentCounter.toNat) ct = some message)
    (harr : t.arrivals = xs ++ rest) (hx : xs.map (·.2) = Wire.processResponse c.lastSentCounter.toNat ct)
    (hall : ∀ x ∈ xs, x.1 ≤ d) (hnow : t.now ≤ d) (hby : d ≤ t.now + c.readTimeout.toNat) :
    (readFromSlow C env c n t s).1 = .val (readBuffer { c with buffer := message } n) ∧
      (readFromSlow C env c n t s).2.now ≤ d ∧ (readFromSlow C env c n t s).2.arrivals = rest := by
  have hbytes : Wire.processResponse c.lastSentCounter.toNat ct =
      0x80#8 :: (beEnc 8 c.lastSentCounter.toNat ++ (beEnc 8 ct.length ++ ct)) := by
    simp [Wire.processResponse, beEnc_eight]
  have hin : ArrivesBy d xs rest { t with readBy := t.now + c.readTimeout.toNat } := ⟨harr, hnow, hby, hall⟩
  have h1 : runI parseResponseCommon (thenFail xs) = (.val (.ok ⟨true, 0⟩),
      (beEnc 8 c.lastSentCounter.toNat ++ (beEnc 8 ct.length ++ ct)).map Sum.inl ++ [.inr .timeout]) := by
    rw [thenFail, hx, hbytes, List.map_cons, List.cons_append]
    exact runI_parseResponseCommon _ _
  obtain ⟨zs, t', g1, g2, g3⟩ := run_inTime _ _ _ _ _ hin h1 (by simp)
  have h2 : runI (parseProcessResponse ⟨true, 0⟩) (thenFail zs) =
      (.val (.ok ⟨⟨true, 0⟩, c.lastSentCounter, BitVec.ofNat 64 ct.length, ct⟩), [.inr .timeout]) := by
    rw [← g2]
    exact runI_parseProcessResponse _ c.lastSentCounter ct hl _
  obtain ⟨ws, t'', g4, g5, g6⟩ := run_inTime _ _ _ _ _ g3 h2 (by simp)
  have hws : ws = [] := by
    cases ws with
    | nil => rfl
    | cons w ws => simp [thenFail] at g5
  subst hws
  obtain ⟨key', hk1, hk2⟩ := newGCM_ok hC session.secret
  rw [hk] at hk1
  cases hk1
  have hrun : (c.read n).run (slowClientI C c.readTimeout.toNat env) (t, s) =
      (.val (readBuffer { c with buffer := message } n), (t'', s)) := by
    unfold Client.read
    rw [if_pos hr]
    show Prog.run (slowClientI C c.readTimeout.toNat env)
      (match env.readDeadline with | some e => _ | none => _) ({ t with readBy := _ }, s) = _
    rw [hd]
    dsimp only [Option.isNone_none]
    rw [if_pos rfl, if_neg (by simpa using hb), run_slow_parse, g1]
    dsimp only
    rw [if_neg (by decide), run_slow_parse, g4]
    dsimp only
    rw [if_neg (by simp), hs]
    dsimp only
    rw [hk2]
    dsimp only
    rw [show gcmNonceSize = 12 from rfl, C12_nonce_layout]
    dsimp only [ofClientRes, Prog.ret_bind]
    rw [show directionServerToClient = 1 from rfl, ho, hb, ← hs]
    rfl
  exact ⟨congrArg Prod.fst hrun, Nat.le_trans (Nat.le_of_eq (congrArg (fun x => x.2.1.now) hrun)) g6.now,
    (congrArg (fun x => x.2.1.arrivals) hrun).trans g6.arrivals⟩

/-! ## A reply that is not complete in time -/

/-- The next octets, `xs`, arrive before the deadline, and the one after them does not. -/
structure OnlyThese (xs rest : List (Nat × Byte)) (t : SlowConn) : Prop where
  arrives : ArrivesBy t.readBy xs rest t
  late : ∀ x, rest.head? = some x → t.readBy < x.1

theorem takeWhile_only {xs rest : List (Nat × Byte)} {d : Nat} (now : Nat) (h : now ≤ d)
    (hl : ∀ x, rest.head? = some x → d < x.1) :
    ((xs ++ rest).takeWhile fun x => x.1 ≤ now).length ≤ xs.length := by
  induction xs with
  | nil =>
    cases rest with
    | nil => simp
    | cons x rest =>
      have := hl x rfl
      simp [List.takeWhile_cons, show ¬ x.1 ≤ now by omega]
  | cons x xs ih =>
    simp only [List.cons_append, List.takeWhile_cons]
    split
    · simp only [List.length_cons]; omega
    · simp

theorem readSlow_only {xs rest : List (Nat × Byte)} {t : SlowConn} (h : OnlyThese xs rest t) (k : Nat) (hk : 0 < k) :
    t.readBy < (readSlow t k).2.now ∨
    ∃ m t', 0 < m ∧ m ≤ k ∧ m ≤ xs.length ∧ readSlow t k = (((xs.take m).map (·.2), none), t') ∧
      OnlyThese (xs.drop m) rest t' := by
  have harr := h.arrives.arrivals
  have hnow := h.arrives.now
  cases xs with
  | nil =>
    refine .inl ?_
    unfold readSlow
    rw [if_neg (by omega), harr]
    cases rest with
    | nil => exact Nat.lt_succ_self _
    | cons x rest =>
      have := h.late x rfl
      dsimp only [List.nil_append]
      rw [if_pos this]
      exact Nat.lt_succ_self _
  | cons x xs =>
    obtain ⟨a, b⟩ := x
    refine .inr ?_
    have h1 : a ≤ t.readBy := h.arrives.all (a, b) (by simp)
    have hw := takeWhile_only (xs := xs) (max t.now a) (show _ ≤ t.readBy by omega) h.late
    have hle : min k (xs.length + 1) ≤ ((a, b) :: xs).length := Nat.min_le_right _ _
    obtain ⟨m, t', g1, g2, g3, g4⟩ := readSlow_inTime h.arrives (min k (xs.length + 1)) (by omega) hle
    have hsame : readSlow t k = readSlow t (min k (xs.length + 1)) := by
      unfold readSlow
      rw [harr]
      have : (((xs ++ rest).takeWhile fun x => x.1 ≤ max t.now a).take (k - 1)) =
          (((xs ++ rest).takeWhile fun x => x.1 ≤ max t.now a).take (min k (xs.length + 1) - 1)) := by
        by_cases hkx : k ≤ xs.length + 1
        · rw [Nat.min_eq_left hkx]
        · rw [List.take_of_length_le (by omega), List.take_of_length_le (by omega)]
      simp only [List.cons_append, this]
    have ha := readSlow_after t (min k (xs.length + 1))
    rw [g3] at ha
    have hby : t'.readBy = t.readBy := ha.readBy
    refine ⟨m, t', g1, by omega, by simp only [List.length_cons]; omega, hsame.trans g3, ?_, ?_⟩
    · rw [hby]; exact g4
    · rw [hby]; exact h.late

theorem readFullLoop_only {rest : List (Nat × Byte)} (n : Nat) : ∀ (fuel : Nat) (acc : Bytes)
    (xs : List (Nat × Byte)) (t : SlowConn), OnlyThese xs rest t → n ≤ fuel → xs.length < n →
    t.readBy < (readFullLoop readSlow fuel n acc t).2.now := by
  induction n using Nat.strongRecOn with
  | _ n ih =>
  intro fuel acc xs t h hf hn
  cases n with
  | zero => omega
  | succ n =>
    cases fuel with
    | zero => omega
    | succ fuel =>
      have ha := readSlow_after t (n + 1)
      rcases readSlow_only h (n + 1) (by omega) with h1 | ⟨m, t', hm, hmk, hmx, h1, h2⟩
      · simp only [readFullLoop]
        split
        · exact h1
        · split
          · exact Nat.lt_of_lt_of_le h1 (readFullLoop_after _ _ _ _).mono
          · exact h1
      · have hlen : ((xs.take m).map (·.2)).length = m := by simp; omega
        rw [h1] at ha
        rw [readFullLoop, h1]
        simp only [hlen, show ¬ n + 1 ≤ m by omega, if_false]
        rw [← show t'.readBy = t.readBy from ha.readBy]
        exact ih _ (by omega) _ _ _ _ h2 (by omega) (by simp; omega)

theorem copyLoop_only {rest : List (Nat × Byte)} (n : Nat) : ∀ (fuel : Nat) (acc : Bytes)
    (xs : List (Nat × Byte)) (t : SlowConn), OnlyThese xs rest t → n ≤ fuel → xs.length < n →
    t.readBy < (copyLoop readSlow fuel n acc t).2.now := by
  induction n using Nat.strongRecOn with
  | _ n ih =>
  intro fuel acc xs t h hf hn
  cases n with
  | zero => omega
  | succ n =>
    cases fuel with
    | zero => omega
    | succ fuel =>
      have ha := readSlow_after t (n + 1)
      rcases readSlow_only h (n + 1) (by omega) with h1 | ⟨m, t', hm, hmk, hmx, h1, h2⟩
      · simp only [copyLoop]
        split
        · exact Nat.lt_of_lt_of_le h1 (copyLoop_after _ _ _ _).mono
        · exact h1
        · exact h1
      · have hlen : ((xs.take m).map (·.2)).length = m := by simp; omega
        rw [h1] at ha
        rw [copyLoop, h1]
        simp only [hlen]
        rw [← show t'.readBy = t.readBy from ha.readBy]
        exact ih _ (by omega) _ _ _ _ h2 (by omega) (by simp; omega)

/-- A parser either gets by with the octets, whatever follows them, or waits until the deadline has passed. -/
theorem run_only {α : Type} {rest : List (Nat × Byte)} (p : RProg α) (xs : List (Nat × Byte)) (t : SlowConn)
    (h : OnlyThese xs rest t) :
    t.readBy < (p.run (readInterp readSlow) t).2.now ∨
    ∃ r zs t', p.run (readInterp readSlow) t = (r, t') ∧ OnlyThese zs rest t' ∧
      ∀ w, runI p ((xs.map (·.2)).map Sum.inl ++ w) = (r, (zs.map (·.2)).map Sum.inl ++ w) := by
  induction p generalizing xs t with
  | ret a => exact .inr ⟨_, xs, t, rfl, h, fun w => rfl⟩
  | panic m => exact .inr ⟨_, xs, t, rfl, h, fun w => rfl⟩
  | op o k ih =>
    have ha := readInterp_after o t
    cases o with
    | alloc n => exact ih () xs t h
    | readFull n =>
      show t.readBy < (Prog.run (readInterp readSlow) (k (readFullLoop readSlow n n [] t).1)
        (readFullLoop readSlow n n [] t).2).2.now ∨ ∃ r zs t', Prog.run (readInterp readSlow)
          (k (readFullLoop readSlow n n [] t).1) (readFullLoop readSlow n n [] t).2 = (r, t') ∧ _
      by_cases hn : n ≤ xs.length
      · obtain ⟨t', h1, h2⟩ := readFullLoop_inTime n n [] xs t h.arrives (Nat.le_refl _) hn
        have hby : t'.readBy = t.readBy := by
          have := ha.readBy
          rw [show (readInterp readSlow (.readFull n) t).2 = t' from congrArg Prod.snd h1] at this
          exact this
        rw [h1]
        have h3 : OnlyThese (xs.drop n) rest t' := ⟨by rw [hby]; exact h2, by rw [hby]; exact h.late⟩
        rcases ih _ _ _ h3 with h4 | ⟨r, zs, t'', g1, g2, g3⟩
        · exact .inl (by rw [← hby]; exact h4)
        · refine .inr ⟨r, zs, t'', g1, g2, fun w => ?_⟩
          show runI (k (readFullI ((xs.map (·.2)).map Sum.inl ++ w) n).1)
            (readFullI ((xs.map (·.2)).map Sum.inl ++ w) n).2 = _
          have h5 := readFullI_full ((xs.take n).map (·.2)) (((xs.drop n).map (·.2)).map Sum.inl ++ w)
          rw [List.length_map, List.length_take, Nat.min_eq_left hn, ← List.append_assoc, ← List.map_append,
            ← List.map_append, List.take_append_drop] at h5
          rw [h5]
          exact g3 w
      · exact .inl (Nat.lt_of_lt_of_le (readFullLoop_only n n [] xs t h (Nat.le_refl _) (by omega))
          (run_after _ _).mono)
    | copyLimit m =>
      show t.readBy < (Prog.run (readInterp readSlow) (k (copyLoop readSlow m.toNat m.toNat [] t).1)
        (copyLoop readSlow m.toNat m.toNat [] t).2).2.now ∨ ∃ r zs t', Prog.run (readInterp readSlow)
          (k (copyLoop readSlow m.toNat m.toNat [] t).1) (copyLoop readSlow m.toNat m.toNat [] t).2 = (r, t') ∧ _
      by_cases hn : m.toNat ≤ xs.length
      · obtain ⟨t', h1, h2⟩ := copyLoop_inTime m.toNat m.toNat [] xs t h.arrives (Nat.le_refl _) hn
        have hby : t'.readBy = t.readBy := by
          have := ha.readBy
          rw [show (readInterp readSlow (.copyLimit m) t).2 = t' from congrArg Prod.snd h1] at this
          exact this
        rw [h1]
        have h3 : OnlyThese (xs.drop m.toNat) rest t' := ⟨by rw [hby]; exact h2, by rw [hby]; exact h.late⟩
        rcases ih _ _ _ h3 with h4 | ⟨r, zs, t'', g1, g2, g3⟩
        · exact .inl (by rw [← hby]; exact h4)
        · refine .inr ⟨r, zs, t'', g1, g2, fun w => ?_⟩
          show runI (k (copyLimitI ((xs.map (·.2)).map Sum.inl ++ w) m.toNat).1)
            (copyLimitI ((xs.map (·.2)).map Sum.inl ++ w) m.toNat).2 = _
          have h5 := copyLimitI_append ((xs.take m.toNat).map (·.2)) (((xs.drop m.toNat).map (·.2)).map Sum.inl ++ w) 0
          rw [List.length_map, List.length_take, Nat.min_eq_left hn, ← List.append_assoc, ← List.map_append,
            ← List.map_append, List.take_append_drop, Nat.add_zero] at h5
          rw [show copyLimitI (((xs.drop m.toNat).map (·.2)).map Sum.inl ++ w) 0 =
            (([], none), ((xs.drop m.toNat).map (·.2)).map Sum.inl ++ w) by unfold copyLimitI; rfl,
            List.append_nil] at h5
          rw [h5]
          exact g3 w
      · exact .inl (Nat.lt_of_lt_of_le (copyLoop_only _ _ [] xs t h (Nat.le_refl _) (by omega)) (run_after _ _).mono)

/-- **C177**, replies that come too late: if octets of the reply are missing when the deadline passes, `Read` ends
just after the deadline and reports it; how much of the reply had arrived does not matter. -/
theorem C177_incomplete (env : CEnv C) (c : Client) (hr : c.readTimeout > 0) (n : Nat)
    (ct missing : Bytes) (xs rest : List (Nat × Byte)) (t : SlowConn) (s : CConn × CShared)
    (hd : env.readDeadline = none) (hb : c.buffer = []) (hl : ct.length ≤ 2 ^ 30) (harr : t.arrivals = xs ++ rest)
    (hx : xs.map (·.2) ++ missing = Wire.processResponse c.lastSentCounter.toNat ct) (hmiss : missing ≠ [])
    (hall : ∀ x ∈ xs, x.1 ≤ t.now + c.readTimeout.toNat)
    (hlate : ∀ x, rest.head? = some x → t.now + c.readTimeout.toNat < x.1) :
    (readFromSlow C env c n t s).2.now = t.now + c.readTimeout.toNat + 1 ∧
      ∃ e, (readFromSlow C env c n t s).1 = .val (([], some e), c) ∧ e.Is .timeout := by
  have hbytes : Wire.processResponse c.lastSentCounter.toNat ct =
      0x80#8 :: (beEnc 8 c.lastSentCounter.toNat ++ (beEnc 8 ct.length ++ ct)) := by
    simp [Wire.processResponse, beEnc_eight]
  have hin : OnlyThese xs rest { t with readBy := t.now + c.readTimeout.toNat } :=
    ⟨⟨harr, Nat.le_add_right _ _, Nat.le_refl _, hall⟩, hlate⟩
  suffices h : t.now + c.readTimeout.toNat < (readFromSlow C env c n t s).2.now by
    obtain ⟨h1, h2⟩ := C177_timeout env c hr n t s
    exact ⟨by omega, h2 h⟩
  show _ < ((c.read n).run (slowClientI C c.readTimeout.toNat env) (t, s)).2.1.now
  unfold Client.read
  rw [if_pos hr]
  show _ < SlowConn.now (Prog.run (slowClientI C c.readTimeout.toNat env)
    (match env.readDeadline with | some e => _ | none => _) ({ t with readBy := _ }, s)).2.1
  rw [hd]
  dsimp only [Option.isNone_none]
  rw [if_pos rfl, if_neg (by simpa using hb)]
  have hw : ((xs.map (·.2)).map Sum.inl ++ missing.map Sum.inl : List Item) =
      Sum.inl 0x80#8 :: (beEnc 8 c.lastSentCounter.toNat ++ (beEnc 8 ct.length ++ ct)).map Sum.inl := by
    rw [← List.map_append, hx, hbytes, List.map_cons]
  rw [run_slow_parse]
  rcases run_only parseResponseCommon xs _ hin with h1 | ⟨r, zs, t', g1, g2, g3⟩
  · rcases run_overdue _ reports_common _ hin.arrives.now with h2 | ⟨e, h2, -⟩
    · exact absurd h1 (Nat.not_lt.mpr h2)
    · generalize Prog.run (readInterp readSlow) parseResponseCommon _ = x at h1 h2
      obtain ⟨r, t'⟩ := x
      cases h2
      exact h1
  · have hby : t'.readBy = t.now + c.readTimeout.toNat := by
      have := (run_after parseResponseCommon { t with readBy := t.now + c.readTimeout.toNat }).readBy
      rw [g1] at this
      exact this
    have g4 := g3 (missing.map Sum.inl)
    rw [hw, runI_parseResponseCommon,
      show (⟨(0x80#8 >>> 7) == 1#8, (0x80#8 <<< 1) >>> 1⟩ : ResponseCommon) = ⟨true, 0⟩ from rfl] at g4
    obtain ⟨g5, g6⟩ := Prod.mk.inj g4
    rw [g1, ← g5]
    dsimp only
    rw [if_neg (by decide), run_slow_parse]
    rcases run_only (parseProcessResponse ⟨true, 0⟩) zs t' g2 with h1 | ⟨r', zs', t'', -, -, g7⟩
    · rcases run_overdue _ (reports_process ⟨true, 0⟩) _ g2.arrives.now with h2 | ⟨e, h2, -⟩
      · exact absurd h1 (Nat.not_lt.mpr h2)
      · generalize Prog.run (readInterp readSlow) (parseProcessResponse ⟨true, 0⟩) t' = x at h1 h2
        obtain ⟨r, t''⟩ := x
        cases h2
        rw [hby] at h1
        exact h1
    · have g8 := g7 (missing.map Sum.inl)
      rw [← g6, ← List.append_nil (List.map _ _), runI_parseProcessResponse _ c.lastSentCounter ct hl] at g8
      have := (Prod.mk.inj g8).2
      simp [hmiss] at this

end

namespace SlowServerExample

/-- A client with a session and a read timeout of 50 that has sent one request. -/
def waitingClient : Client :=
  { host := .ok (str "server"), readTimeout := 50, writeTimeout := 0, expectReply := true,
    session := some ⟨beEnc 32 14, ⟨List.replicate 16 7, rfl⟩, 0⟩, lastSentCounter := 1, buffer := [] }

/-- The octets of the reply arrive one by one, each `gap` after the one before, and an octet of another follows. -/
def trickle (gap : Nat) : SlowConn :=
  { now := 7, readBy := 0, late := false,
    arrivals := (ClientExample.reply 1 (str "pong")).mapIdx (fun i b => (7 + gap * i, b)) ++ [(0, 0x80#8)] }

def slowRead (gap : Nat) : Res ((Bytes × Option Err) × Client) × SlowConn :=
  readFromSlow Toy.crypto HandshakeExample.env waitingClient 10 (trickle gap) (HandshakeExample.start (.tcp []))

/-- One octet per unit of time is fast enough: the whole message, at the time the last octet arrives. -/
example : (match (slowRead 1).1 with | .val (r, _) => decide (r.1 = str "pong") | .panic _ => false) = true ∧
    (slowRead 1).2.now = 7 + ((ClientExample.reply 1 (str "pong")).length - 1) ∧
    (slowRead 1).2.arrivals = [(0, 0x80#8)] := by
  decide +kernel

/-- One octet every two units of time is not: an error, just after the deadline. -/
example : (match (slowRead 2).1 with | .val ((bs, some e), _) => bs.isEmpty && e.isDeadline | _ => false) = true ∧
    (slowRead 2).2.now = 7 + 50 + 1 := by
  decide +kernel

/-- The hypotheses of `C177_in_time` hold for it. -/
example : waitingClient.readTimeout > 0 ∧ waitingClient.buffer = [] ∧
    deriveKey Toy.crypto (beEnc 32 14) kdfInfo aesKeySize = .ok OnceExample.key ∧
    ∃ ct, Toy.crypto.aeadOpen OnceExample.key (Wire.nonce12 1 1) ct = some (str "pong") ∧
      ((trickle 1).arrivals.take (Wire.processResponse 1 ct).length).map (·.2) = Wire.processResponse 1 ct :=
  ⟨by decide, rfl, SessionExample.key_ok,
    Toy.crypto.aeadSeal OnceExample.key (Wire.nonce12 1 1) (str "pong"), by decide +kernel, by decide +kernel⟩

end SlowServerExample

end Goe2ee
