import Verif.Proofs.FetcherCache

/-!
# C36, C61: the caching key fetcher

Any number of goroutines call `Fetch`, collectors run beside them, the scheduler may switch between any
two effects, and any time may pass before each.
-/

set_option autoImplicit false

namespace Goe2ee

/-- C36, age: a key returned by `Fetch` was returned by the underlying fetcher for the same host at
most `ttl` before some instant of the call.  False: the recorded time is read after the answer. -/
def C36_age_claim : Prop :=
  ∀ (ttl : Int) (callers : List (List Bytes)) (collectors : List Nat) (acts : List (Nat × KAnswer))
    (l : List KEvent) (i : Nat) (host : Bytes) (key : PublicKey) (t : Nat) (l' : List KEvent),
    cacheLog ttl callers collectors acts = l ++ .returned i host (.ok key) t :: l' → 0 < ttl →
    ∃ t0 j ta tc, callBegan i l = some t0 ∧ .asked j host (.ok key) ta ∈ l ∧ t0 ≤ tc ∧ tc ≤ t ∧
      (tc : Int) ≤ (ta : Nat) + ttl

/-- C36, hits: a call that begins after a key was stored does not ask the underlying fetcher while that
key is younger than `ttl`.  False: a goroutine that saw the previous, expired entry may delete the new
one. -/
def C36_hit_claim : Prop :=
  ∀ (ttl : Int) (callers : List (List Bytes)) (collectors : List Nat) (acts : List (Nat × KAnswer))
    (l m n : List KEvent) (i j : Nat) (host : Bytes) (key : PublicKey) (r : Except Err PublicKey)
    (ts t0 t : Nat) (l' : List KEvent),
    cacheLog ttl callers collectors acts =
      l ++ .stored j host key ts :: m ++ .called i host t0 :: n ++ .asked i host r t :: l' →
    (∀ e ∈ n, e.who ≠ i) → (ts : Int) + ttl < t

/-- C36: every result of `Fetch` is justified: an error is the underlying fetcher's, in that call; a
key is either the underlying fetcher's answer in that call, or an answer for the same host stored
with a time that was at most `ttl` old at some instant of the call (or any stored answer for
`ttl ≤ 0`).  Missing from the full claim: the recorded time may be later than the answer
(`C36_age_refuted`), and a fresh entry may be deleted (`C36_hit_refuted`). -/
theorem C36_justified_partial (ttl : Int) (callers : List (List Bytes)) (collectors : List Nat)
    (acts : List (Nat × KAnswer)) (l : List KEvent) (i : Nat) (host : Bytes)
    (r : Except Err PublicKey) (t : Nat) (l' : List KEvent)
    (h : cacheLog ttl callers collectors acts = l ++ .returned i host r t :: l') :
    Justified ttl l i host r t := by
  obtain ⟨gs, hok⟩ := kinv_run ttl callers collectors acts
  exact hok.inv.log l i host r t l' h

/-- C36, hits: a call that nobody interrupts returns a fresh entry without asking the underlying
fetcher, and leaves the table alone. -/
theorem C36_hit_alone_partial (ttl : Int) (host : Bytes) (i : Nat) (w : KWorld) (key : PublicKey)
    (ts : Nat) (a b : KAnswer) (as : List KAnswer) (ht : w.table host = some (key, ts))
    (hfresh : ttl ≤ 0 ∨ ((w.now + a.tick + b.tick : Nat) : Int) ≤ ts + ttl) :
    ∃ w' as', (cacheFetch ttl host).run (kalone i) (w, a :: b :: as) = (.val (.ok key), w', as') ∧
      w'.table = w.table ∧ w'.log = w.log := by
  unfold cacheFetch
  simp only [Prog.run, kalone, kexec, ht]
  by_cases h0 : ttl ≤ 0
  · rw [if_pos h0]
    exact ⟨_, _, rfl, rfl, rfl⟩
  · rw [if_neg h0]
    simp only [Prog.run, kalone, kexec]
    rw [show useCached ttl host key ts (w.now + a.tick + b.tick) = .ret (.ok key) from
      if_pos (by omega)]
    exact ⟨_, _, rfl, rfl, rfl⟩

/-- C36, the collector: a visit that nobody interrupts removes an entry only if it is older than the
TTL when the visit ends; every other entry is as before, and no key is fetched. -/
theorem C36_collector_keeps_fresh (ttl : Int) (i : Nat) (w : KWorld) (as : List KAnswer) (host : Bytes) :
    ∃ w' as', (cacheVisit ttl).run (kalone i) (w, as) = (.val (), w', as') ∧ w'.log = w.log ∧
      (w'.table host = w.table host ∨
        w'.table host = none ∧ ∃ key ts, w.table host = some (key, ts) ∧ (w'.now : Int) > ts + ttl) := by
  unfold cacheVisit
  rcases as with _ | ⟨a, _ | ⟨b, _ | ⟨c, _ | ⟨d, as⟩⟩⟩⟩
  all_goals
    simp only [Prog.run, kalone, kexec]
    split
    · exact ⟨_, _, rfl, rfl, .inl rfl⟩
    rename_i key ts ht
    simp only [Prog.run, kalone, kexec]
    unfold collectCached
    split
    · rename_i hx
      simp only [Prog.run, kalone, kexec]
      refine ⟨_, _, rfl, rfl, ?_⟩
      dsimp only
      split
      · rename_i hh
        subst hh
        exact .inr ⟨rfl, key, ts, ht, by omega⟩
      · exact .inl rfl
    · exact ⟨_, _, rfl, rfl, .inl rfl⟩

/-- A visit at time 15 keeps a key stored at 10 with TTL 10; a visit at time 25 removes it. -/
example :
    let w (t : Nat) : KWorld := { table := fun h => if h = str "h" then some (.nilIface, 10) else none,
                                  now := t, log := [] }
    let visit (t : Nat) := ((cacheVisit 10).run (kalone 0) (w t, [⟨0, .error .eof, str "h"⟩])).2.1
    (visit 15).table (str "h") = some (.nilIface, 10) ∧ (visit 25).table (str "h") = none := by
  decide +kernel

/-- C36, failures: when a call that nobody interrupts fails, nothing is left cached for its host and
the other hosts' entries are as before. -/
theorem C36_failure_not_cached (ttl : Int) (host : Bytes) (i : Nat) (w w' : KWorld) (e : Err)
    (as as' : List KAnswer)
    (h : (cacheFetch ttl host).run (kalone i) (w, as) = (.val (.error e), w', as')) :
    w'.table host = none ∧ ∀ host', host' ≠ host → w'.table host' = w.table host' := by
  have hstore : ∀ (w : KWorld) (as : List KAnswer), w.table host = none →
      (fetchAndStore host).run (kalone i) (w, as) = (.val (.error e), w', as') →
      w'.table host = none ∧ ∀ host', host' ≠ host → w'.table host' = w.table host' := by
    intro w as hn h
    cases as with
    | nil =>
      simp only [fetchAndStore, Prog.run, kalone, kexec] at h
      cases h
      exact ⟨hn, fun _ _ => rfl⟩
    | cons a as =>
      rcases hr : a.fetch with e' | k
      · simp only [fetchAndStore, Prog.run, kalone, kexec, hr] at h
        cases h
        exact ⟨hn, fun _ _ => rfl⟩
      · rcases as with _ | ⟨b, _ | ⟨c, as⟩⟩ <;>
          · simp only [fetchAndStore, Prog.run, kalone, kexec, hr] at h
            cases h
  unfold cacheFetch at h
  rcases ht : w.table host with _ | ⟨k, ts⟩
  · cases as with
    | nil =>
      simp only [Prog.run, kalone, kexec, ht] at h
      exact hstore _ _ ht h
    | cons a as =>
      simp only [Prog.run, kalone, kexec, ht] at h
      exact hstore { w with now := w.now + a.tick } _ ht h
  · have hdel : ∀ (w1 : KWorld) (as1 : List KAnswer), w1.table = w.table →
        Prog.run (kalone i) (Prog.op (S := KSig) (.delete host) fun _ => fetchAndStore host) (w1, as1)
          = (.val (.error e), w', as') →
        w'.table host = none ∧ ∀ host', host' ≠ host → w'.table host' = w.table host' := by
      intro w1 as1 hw h
      cases as1 with
      | nil =>
        simp only [Prog.run, kalone, kexec] at h
        obtain ⟨h1, h2⟩ := hstore _ _ (if_pos rfl) h
        refine ⟨h1, fun host' hne => ?_⟩
        rw [h2 host' hne, ← hw]
        exact if_neg hne
      | cons a as =>
        simp only [Prog.run, kalone, kexec] at h
        obtain ⟨h1, h2⟩ := hstore _ _ (if_pos rfl) h
        refine ⟨h1, fun host' hne => ?_⟩
        rw [h2 host' hne, ← hw]
        exact if_neg hne
    rcases as with _ | ⟨a, _ | ⟨b, as⟩⟩
    all_goals
      simp only [Prog.run, kalone, kexec, ht] at h
      by_cases h0 : ttl ≤ 0
      · rw [if_pos h0] at h
        cases h
      · rw [if_neg h0] at h
        simp only [Prog.run, kalone, kexec] at h
        unfold useCached at h
        split at h
        · cases h
        · exact hdel _ _ (by rfl) h

/-- C61 as stated: once a call returned a key, a call that begins later returns another key only if the
underlying fetcher gave that key in between.  False. -/
def C61_claim : Prop :=
  ∀ (ttl : Int) (callers : List (List Bytes)) (collectors : List Nat) (acts : List (Nat × KAnswer))
    (l m n p q : List KEvent) (i i' j : Nat) (host : Bytes) (old new : PublicKey) (t t1 t2 t3 : Nat),
    cacheLog ttl callers collectors acts =
      l ++ .asked j host (.ok new) t :: m ++ .returned i host (.ok new) t1 :: n ++
        .called i' host t2 :: p ++ .returned i' host (.ok old) t3 :: q →
    old ≠ new → ∃ j' t', .asked j' host (.ok old) t' ∈ m ++ n ++ p

/-- C61: with one calling goroutine, whatever the collectors do, `Fetch` returns the last key the
underlying fetcher gave for the host.  Missing from the full claim: several calling goroutines, where
it is false (`C61_stale_store`). -/
theorem C61_last_answer_partial (ttl : Int) (hosts : List Bytes) (collectors : List Nat)
    (acts : List (Nat × KAnswer)) (l : List KEvent) (i : Nat) (host : Bytes) (key : PublicKey)
    (t : Nat) (l' : List KEvent)
    (h : cacheLog ttl [hosts] collectors acts = l ++ .returned i host (.ok key) t :: l') :
    lastAnswer host l = some key := by
  obtain ⟨gs, hok⟩ := kone_run ttl hosts collectors acts
  exact hok.inv.log l i host key t l' h

namespace FetcherExample

def old : PublicKey := .ed25519 (List.replicate 32 1)
def new : PublicKey := .ed25519 (List.replicate 32 2)

/-- `tick` passes, and the underlying fetcher, if asked, answers with `key`. -/
def ans (tick : Nat) (key : PublicKey) : KAnswer := ⟨tick, .ok key, []⟩

/-- One goroutine: the first call takes 100 between the underlying answer and `time.Now()`; the second
begins 5 later. -/
def slow : List (Nat × KAnswer) :=
  [(0, ans 0 old), (0, ans 0 old), (0, ans 0 old), (0, ans 100 old), (0, ans 0 old), (0, ans 0 old),
   (0, ans 5 old), (0, ans 0 old), (0, ans 0 old), (0, ans 0 old)]

theorem slow_log : cacheLog 10 [[[], []]] [] slow =
    [.called 0 [] 0, .asked 0 [] (.ok old) 0, .stored 0 [] old 100, .returned 0 [] (.ok old) 100,
     .called 0 [] 105, .returned 0 [] (.ok old) 105] := rfl

/-- Goroutine 0 sees the expired entry, goroutine 1 replaces it, goroutine 0 deletes the new entry. -/
def crossed : List (Nat × KAnswer) :=
  [(0, ans 0 old), (0, ans 0 old), (0, ans 0 old), (0, ans 0 old), (0, ans 0 old), (0, ans 0 old),
   (0, ans 20 old), (0, ans 0 old), (0, ans 0 old),
   (1, ans 0 new), (1, ans 0 new), (1, ans 0 new), (1, ans 0 new), (1, ans 0 new), (1, ans 0 new),
   (1, ans 0 new), (1, ans 0 new),
   (0, ans 0 new),
   (1, ans 0 new), (1, ans 0 new), (1, ans 0 new)]

theorem crossed_log : cacheLog 10 [[[], []], [[], []]] [] crossed =
    [.called 0 [] 0, .asked 0 [] (.ok old) 0, .stored 0 [] old 0, .returned 0 [] (.ok old) 0,
     .called 0 [] 20,
     .called 1 [] 20, .asked 1 [] (.ok new) 20, .stored 1 [] new 20, .returned 1 [] (.ok new) 20,
     .called 1 [] 20, .asked 1 [] (.ok new) 20] := rfl

/-- Goroutine 0 gets the old key and is slow to store it; goroutine 1 gets, stores and returns the new
key; then goroutine 0 stores the old one, and goroutine 1's next call returns it. -/
def raced : List (Nat × KAnswer) :=
  [(0, ans 0 old), (0, ans 0 old), (0, ans 0 old),
   (1, ans 0 new), (1, ans 0 new), (1, ans 0 new), (1, ans 0 new), (1, ans 0 new), (1, ans 0 new),
   (0, ans 0 new), (0, ans 0 new),
   (1, ans 1 new), (1, ans 0 new), (1, ans 0 new), (1, ans 0 new)]

theorem raced_log : cacheLog 10 [[[]], [[], []]] [] raced =
    [.called 0 [] 0, .asked 0 [] (.ok old) 0, .called 1 [] 0, .asked 1 [] (.ok new) 0,
     .stored 1 [] new 0, .returned 1 [] (.ok new) 0, .stored 0 [] old 0, .called 1 [] 1,
     .returned 1 [] (.ok old) 1] := rfl

end FetcherExample
open FetcherExample

/-- C36, age, fails: the underlying fetcher gave the key at time 0, and with `ttl = 10` a call that
begins at time 105 still gets it. -/
theorem C36_age_refuted : ¬ C36_age_claim := by
  intro h
  obtain ⟨t0, j, ta, tc, h1, h2, h3, h4, h5⟩ := h 10 [[[], []]] [] slow
    [.called 0 [] 0, .asked 0 [] (.ok old) 0, .stored 0 [] old 100, .returned 0 [] (.ok old) 100,
     .called 0 [] 105] 0 [] old 105 [] slow_log (by decide)
  have h1 : some 105 = some t0 := h1
  cases h1
  simp at h2
  omega

/-- C36, hits, fails: a key stored at time 20 with `ttl = 10`, and a call at time 20 asks again. -/
theorem C36_hit_refuted : ¬ C36_hit_claim := by
  intro h
  have := h 10 [[[], []], [[], []]] [] crossed
    [.called 0 [] 0, .asked 0 [] (.ok old) 0, .stored 0 [] old 0, .returned 0 [] (.ok old) 0,
     .called 0 [] 20, .called 1 [] 20, .asked 1 [] (.ok new) 20]
    [.returned 1 [] (.ok new) 20] [] 1 1 [] new (.ok new) 20 20 20 [] crossed_log (by simp)
  omega

/-- C61 fails: a call returns the new key, and a later call the old one, which the underlying fetcher
did not give again. -/
theorem C61_stale_store : ¬ C61_claim := by
  intro h
  obtain ⟨j, t, hj⟩ := h 10 [[[]], [[], []]] [] raced
    [.called 0 [] 0, .asked 0 [] (.ok old) 0, .called 1 [] 0] [.stored 1 [] new 0]
    [.stored 0 [] old 0] [] [] 1 1 1 [] old new 0 0 1 1 raced_log (by decide +kernel)
  simp at hj

/-- The theorems apply: `slow` returns a key twice, once from the table. -/
example : Justified 10 [.called 0 [] 0, .asked 0 [] (.ok old) 0, .stored 0 [] old 100,
    .returned 0 [] (.ok old) 100, .called 0 [] 105] 0 [] (.ok old) 105 :=
  C36_justified_partial 10 [[[], []]] [] slow _ 0 [] (.ok old) 105 [] slow_log

/-- … and `Justified` rejects a key nobody gave. -/
example : ¬ Justified 10 [.called 0 [] 0, .asked 0 [] (.ok old) 0, .stored 0 [] old 0] 0 [] (.ok new) 0 := by
  rintro ⟨a, t0, ⟨e, ta, h, _⟩ | ⟨key, ta, ts, h, _, _, _, he⟩ | ⟨key, ta, ts, tc, h, he, _⟩⟩
  · cases h
  · cases h
    have := congrArg List.getLast? he
    rw [show a ++ [KEvent.called 0 [] t0, .asked 0 [] (.ok new) ta, .stored 0 [] new ts]
      = (a ++ [KEvent.called 0 [] t0, .asked 0 [] (.ok new) ta]) ++ [.stored 0 [] new ts] by simp,
      List.getLast?_concat] at this
    have this : some (KEvent.stored 0 [] old 0) = some (.stored 0 [] new ts) := this
    simp [old, new] at this
  · have := congrArg List.getLast? he
    rw [List.getLast?_concat] at this
    have this : some (KEvent.stored 0 [] old 0) = some (.called 0 [] t0) := this
    simp at this

/-- A failing fetch with nothing cached: the error is returned and nothing is cached. -/
example : ((cacheFetch 10 []).run (kalone 0) (⟨fun _ => none, 0, []⟩, [ans 0 old, ⟨0, .error .eof, []⟩])).2.1.table []
    = none := rfl

example : lastAnswer [] [.called 0 [] 0, .asked 0 [] (.ok old) 0, .stored 0 [] old 100,
    .returned 0 [] (.ok old) 100, .called 0 [] 105] = some old :=
  C61_last_answer_partial 10 [[], []] [] slow _ 0 [] old 105 [] slow_log

end Goe2ee
