import Verif.Proofs.CloseReturns
import Verif.Props.Shutdown
import Mathlib.Data.Nat.Pairing

/-!
# C77, C78: what `Server.Close` stops, and that it returns
-/

set_option autoImplicit false

namespace Goe2ee

section
variable {C : Crypto} {M : Manager C}

/-- What every step preserves holds after every schedule. -/
theorem Kinds.run (hM : M.Passive) (timeout : Nat) (P : Sys C → List GKind → Prop)
    (hP : ∀ s act ks ks', Kinds M s ks → Kinds M (s.step M timeout act) ks' →
      KStep s act.1 ks (s.step M timeout act) ks' → P s ks → P (s.step M timeout act) ks')
    (acts : List (Nat × Answer C)) (s : Sys C) (ks : List GKind) (hk : Kinds M s ks) (h : P s ks) :
    ∃ ks', Kinds M (Sys.run M timeout s acts) ks' ∧ P (Sys.run M timeout s acts) ks' := by
  induction acts generalizing s ks with
  | nil => exact ⟨ks, hk, h⟩
  | cons act acts ih =>
    obtain ⟨ks', hk', hst⟩ := hk.step hM timeout act
    exact ih _ ks' hk' (hP s act ks ks' hk hk' hst h)

/-! ## C77 -/

/-- The claim: after `Server.Close` returned no goroutine is started for a connection or a datagram, under
every schedule. -/
def C77_claim : Prop :=
  ∀ (C : Crypto) (timeout ttl : Nat) (acts more : List (Nat × Answer C)),
    .closeReturned ∈ (Sys.run (inMemory C) timeout (Sys.start ttl 1) acts).world.log →
    (Sys.run (inMemory C) timeout (Sys.start ttl 1) (acts ++ more)).threads.length =
      (Sys.run (inMemory C) timeout (Sys.start ttl 1) acts).threads.length

namespace CloseExample
open OnceExample

/-- Both listeners wait for clients when `Server.Close` is called and returns. -/
def waiting : List (Nat × Answer Toy.crypto) :=
  [(0, answer (.error .eof)), (1, answer (.error .eof))] ++ List.replicate 4 (2, answer (.error .eof))

/-- A connection and a datagram arrive and are served. -/
def late : List (Nat × Answer Toy.crypto) :=
  List.replicate 5 (0, answer (.ok (.tcp (.ok (str "10.0.0.1")) [.data (setup ++ message)]))) ++
  List.replicate 5 (1, answer (.ok (.udp (.ok (str "10.0.0.1")) setup))) ++
  List.replicate 40 (3, answer (.error .eof)) ++ List.replicate 40 (4, answer (.error .eof))

end CloseExample

/-- **C77** is false of the code: the listeners look at the quit channel only before they wait. -/
theorem C77_refuted : ¬ C77_claim := by
  intro h
  have := h Toy.crypto 5000 0 CloseExample.waiting CloseExample.late (by decide +kernel)
  exact absurd this (by decide +kernel)

/-- One for the accept loop. -/
def GKind.isAcc : GKind → Nat
  | .acc0 | .acc1 | .acc2 _ | .acc3 _ => 1
  | _ => 0

/-- One for the accept loop if it will start another goroutine. -/
def GKind.mayAcc : GKind → Nat
  | .acc1 | .acc2 _ | .acc3 _ => 1
  | _ => 0

def GKind.isRec : GKind → Nat
  | .rec0 | .rec1 | .rec2 _ => 1
  | _ => 0

def GKind.mayRec : GKind → Nat
  | .rec1 | .rec2 _ => 1
  | _ => 0

/-- One for a call of `Server.Close` that has closed the quit channel. -/
def GKind.isClosing : GKind → Nat
  | .close1 | .close2 => 1
  | _ => 0

theorem total_mono {f g : GKind → Nat} (h : ∀ k, f k ≤ g k) (ks : List GKind) : total f ks ≤ total g ks := by
  induction ks with
  | nil => exact Nat.le_refl _
  | cons k ks ih =>
    have := h k
    simp only [total, List.map_cons, List.sum_cons] at ih ⊢
    omega

/-- There is one accept loop and one packet loop, and the quit channel is closed before `Server.Close`
waits. -/
structure Listening (s : Sys C) (ks : List GKind) : Prop where
  acc : total GKind.isAcc ks ≤ 1
  recv : total GKind.isRec ks ≤ 1
  closing : 0 < total GKind.isClosing ks → s.world.quit = true
  returned : .closeReturned ∈ s.world.log → s.world.quit = true

theorem total_peers (f : GKind → Nat) (hf : ∀ p, f (.ofPeer p) = 0) (sp : List Peer) :
    total f (sp.map GKind.ofPeer) = 0 := by
  induction sp with
  | nil => rfl
  | cons p sp ih =>
    have := hf p
    simp only [total, List.map_cons, List.sum_cons] at ih ⊢
    omega

theorem moves_listening {k k' : GKind} {q q' : Bool} {n n' : Nat} {sp : List Peer}
    (h : Moves k q n k' q' n' sp) : k'.isAcc ≤ k.isAcc ∧ k'.isRec ≤ k.isRec ∧ (q = true → q' = true) ∧
      (k.isClosing < k'.isClosing → q' = true) ∧ (k = .close2 → k.isClosing = 1) := by
  refine ⟨?_, ?_, ?_, ?_, fun h => by rw [h]; rfl⟩ <;> cases h <;>
    simp [GKind.isAcc, GKind.isRec, GKind.isClosing]

theorem listening_step {s s' : Sys C} {i : Nat} {ks ks' : List GKind} (hs : KStep s i ks s' ks')
    (h : Listening s ks) : Listening s' ks' := by
  cases hs with
  | idle _ h1 h2 => rw [h1, h2]; exact h
  | @move k k' sp hk hm he _ _ hr =>
    obtain ⟨h1, h2, h3, h4, h5⟩ := moves_listening hm
    have ha := total_set GKind.isAcc k' hk
    have hb := total_set GKind.isRec k' hk
    have hc := total_set GKind.isClosing k' hk
    have hcl := le_total GKind.isClosing hk
    have hpa := total_peers GKind.isAcc (fun p => by cases p <;> rfl) sp
    have hpb := total_peers GKind.isRec (fun p => by cases p <;> rfl) sp
    have hpc := total_peers GKind.isClosing (fun p => by cases p <;> rfl) sp
    refine ⟨?_, ?_, ?_, ?_⟩
    · rw [he, total_append]
      have := h.acc
      omega
    · rw [he, total_append]
      have := h.recv
      omega
    · rw [he, total_append]
      intro hpos
      by_cases hlt : k.isClosing < k'.isClosing
      · exact h4 hlt
      · exact h3 (h.closing (by omega))
    · intro hret
      rcases hr hret with hret | hret
      · exact h3 (h.returned hret)
      · exact h3 (h.closing (by have := h5 hret; omega))

theorem listening_start (ttl closers : Nat) :
    Listening (Sys.start (C := C) ttl closers)
      ([.acc0, .rec0] ++ (if ttl > 0 then [.plain] else []) ++ List.replicate closers .close0) := by
  have hrep : ∀ f : GKind → Nat, f .close0 = 0 → total f (List.replicate closers .close0) = 0 := by
    intro f hf
    simp [total, hf]
  refine ⟨?_, ?_, ?_, fun h => by cases h⟩
  · rw [total_append, total_append, hrep _ rfl]
    split <;> decide
  · rw [total_append, total_append, hrep _ rfl]
    split <;> decide
  · rw [total_append, total_append, hrep _ rfl]
    intro h
    split at h <;> exact absurd h (by decide)

/-- Goroutines started since `s0`, and those the listeners may still start. -/
def Bounded (s0 s : Sys C) (ks : List GKind) : Prop :=
  s.world.quit = true ∧ ∃ new : List Bool,
    s.threads.map (·.conn.buffered) = s0.threads.map (·.conn.buffered) ++ new ∧
    new.count false + total GKind.mayAcc ks ≤ 1 ∧ new.count true + total GKind.mayRec ks ≤ 1

theorem moves_bounded {k k' : GKind} {q' : Bool} {n n' : Nat} {sp : List Peer}
    (h : Moves k true n k' q' n' sp) : q' = true ∧
      (sp.map fun p => (Conn.ofPeer p).buffered).count false + k'.mayAcc ≤ k.mayAcc ∧
      (sp.map fun p => (Conn.ofPeer p).buffered).count true + k'.mayRec ≤ k.mayRec := by
  cases h with
  | @spawn q n p hp => cases p with
    | tcp => exact ⟨rfl, by simp [Conn.ofPeer, Conn.none, GKind.mayAcc, GKind.mayRec]⟩
    | udp => exact hp.elim
  | @spawnU q n p hp => cases p with
    | tcp => exact (hp trivial).elim
    | udp => exact ⟨rfl, by simp [Conn.ofPeer, Conn.none, GKind.mayAcc, GKind.mayRec]⟩
  | _ => exact ⟨rfl, by simp [GKind.mayAcc, GKind.mayRec]⟩

theorem bounded_step {s0 s s' : Sys C} {i : Nat} {ks ks' : List GKind} (hs : KStep s i ks s' ks')
    (h : Bounded s0 s ks) : Bounded s0 s' ks' := by
  cases hs with
  | idle _ h1 h2 => rw [h1, h2]; exact h
  | @move k k' sp hk hm he hb _ _ =>
    obtain ⟨hq, new, hnew, ha, hr⟩ := h
    rw [hq] at hm
    obtain ⟨h1, h2, h3⟩ := moves_bounded hm
    have h4 := total_set GKind.mayAcc k' hk
    have h5 := total_set GKind.mayRec k' hk
    have hpa := total_peers GKind.mayAcc (fun p => by cases p <;> rfl) sp
    have hpb := total_peers GKind.mayRec (fun p => by cases p <;> rfl) sp
    refine ⟨h1, new ++ sp.map (fun p => (Conn.ofPeer p).buffered), ?_, ?_, ?_⟩
    · rw [hb, hnew, List.append_assoc]
    · rw [he, total_append, List.count_append]
      omega
    · rw [he, total_append, List.count_append]
      omega

theorem run_append (timeout : Nat) (s : Sys C) (acts more : List (Nat × Answer C)) :
    Sys.run M timeout s (acts ++ more) = Sys.run M timeout (Sys.run M timeout s acts) more := by
  simp [Sys.run, List.foldl_append]

/-- **C77**, what holds: after `Server.Close` returned, the server accepts at most one connection
(`buffered` is `false`) and receives at most one datagram (`buffered` is `true`), under every schedule. -/
theorem C77_one_more_partial (hM : M.Passive) (timeout ttl closers : Nat) (acts more : List (Nat × Answer C))
    (h : .closeReturned ∈ (Sys.run M timeout (Sys.start ttl closers) acts).world.log) :
    ∃ new : List Bool,
      (Sys.run M timeout (Sys.start ttl closers) (acts ++ more)).threads.map (·.conn.buffered) =
        (Sys.run M timeout (Sys.start ttl closers) acts).threads.map (·.conn.buffered) ++ new ∧
      new.count false ≤ 1 ∧ new.count true ≤ 1 := by
  obtain ⟨ks, hk, hl⟩ := Kinds.run hM timeout Listening (fun _ _ _ _ _ _ hs h => listening_step hs h) acts _ _
    (Kinds.start ttl closers) (listening_start ttl closers)
  have h0 : Bounded (Sys.run M timeout (Sys.start ttl closers) acts)
      (Sys.run M timeout (Sys.start ttl closers) acts) ks := by
    refine ⟨hl.returned h, [], by simp, ?_, ?_⟩
    · have h1 := hl.acc
      have h2 := total_mono (f := GKind.mayAcc) (g := GKind.isAcc) (fun k => by
        cases k <;> simp [GKind.mayAcc, GKind.isAcc]) ks
      simp only [List.count_nil]
      omega
    · have h1 := hl.recv
      have h2 := total_mono (f := GKind.mayRec) (g := GKind.isRec) (fun k => by
        cases k <;> simp [GKind.mayRec, GKind.isRec]) ks
      simp only [List.count_nil]
      omega
  obtain ⟨ks', -, -, new, h1, h2, h3⟩ := Kinds.run hM timeout (Bounded (Sys.run M timeout (Sys.start ttl closers) acts))
    (fun _ _ _ _ _ _ hs h => bounded_step hs h) more _ ks hk h0
  rw [run_append]
  exact ⟨new, h1, by omega, by omega⟩

/-- A connection on which nothing was read or written. -/
def Refused (t : Thread C) : Prop :=
  ∃ p : Peer, p.isTcp ∧ (t.conn = Conn.ofPeer p ∨ t.conn = { Conn.ofPeer p with closed := true })

/-- The goroutine of a connection accepted when the quit channel is closed. -/
inductive Late (M : Manager C) : Thread C → Prop where
  | datagram {t : Thread C} : t.conn.buffered = true → Late M t
  | new {host : Except Err Bytes} {i : List Ev} : Late M (Thread.ofPeer M (.tcp host i))
  | quit {host : Except Err Bytes} {i : List Ev} :
    Late M ⟨.ofPeer (.tcp host i), .ret false, connPass M host, connDeferred⟩
  | leaving {host : Except Err Bytes} {i : List Ev} :
    Late M ⟨.ofPeer (.tcp host i), connDeferred, .ret false, .ret false⟩
  | closed {host : Except Err Bytes} {i : List Ev} :
    Late M ⟨{ Conn.ofPeer (.tcp host i) with closed := true }, .op .wgDone fun _ => .ret false, .ret false, .ret false⟩
  | done {host : Except Err Bytes} {i : List Ev} :
    Late M ⟨{ Conn.ofPeer (.tcp host i) with closed := true }, .ret false, .ret false, .ret false⟩

theorem late_step {t : Thread C} (h : Late M t) (timeout : Nat) (a : Answer C) (w : World)
    (hq : w.quit = true) : Late M (t.step timeout a w).1 := by
  obtain ⟨heap, table, now, quit, wg, spawned, log⟩ := w
  dsimp only at hq
  subst hq
  cases h with
  | datagram h => exact .datagram ((step_buffered ..).trans h)
  | new => exact .quit
  | @quit host i => exact .leaving (host := host)
  | @leaving host i => exact .closed (host := host)
  | @closed host i => exact .done (host := host)
  | @done host i => exact .done (host := host)

/-- Goroutines from number `n` on were started after the quit channel was closed. -/
def AllLate (M : Manager C) (n : Nat) (s : Sys C) : Prop :=
  s.world.quit = true ∧ ∀ (i : Nat) (t : Thread C), n ≤ i → s.threads[i]? = some t → Late M t

theorem allLate_step {n : Nat} {s : Sys C} {timeout : Nat} {act : Nat × Answer C}
    (hq' : (s.step M timeout act).world.quit = true) (h : AllLate M n s) :
    AllLate M n (s.step M timeout act) := by
  refine ⟨hq', ?_⟩
  unfold Sys.step
  split
  · exact h.2
  · rename_i t ht
    intro j t' hj hjt
    dsimp only at hjt
    rw [List.getElem?_append] at hjt
    split at hjt
    · by_cases hij : act.1 = j
      · subst hij
        rw [List.getElem?_set_self (List.getElem?_eq_some_iff.mp ht).1] at hjt
        cases hjt
        exact late_step (h.2 _ t hj ht) timeout act.2 s.world h.1
      · rw [List.getElem?_set_ne hij] at hjt
        exact h.2 j t' hj hjt
    · obtain ⟨p, -, rfl⟩ := List.mem_map.mp (List.mem_of_getElem? hjt)
      cases p with
      | tcp host i => exact .new
      | udp host d => exact .datagram rfl

/-- **C77**, what holds of the connection accepted after `Server.Close` returned: the server reads nothing
from it and writes nothing to it; it only closes it. -/
theorem C77_refused_partial (hM : M.Passive) (timeout ttl closers : Nat) (acts more : List (Nat × Answer C))
    (h : .closeReturned ∈ (Sys.run M timeout (Sys.start ttl closers) acts).world.log) (i : Nat) (t : Thread C)
    (hi : (Sys.run M timeout (Sys.start ttl closers) acts).threads.length ≤ i)
    (ht : (Sys.run M timeout (Sys.start ttl closers) (acts ++ more)).threads[i]? = some t)
    (htcp : t.conn.buffered = false) : Refused t := by
  obtain ⟨ks, hk, hl⟩ := Kinds.run hM timeout Listening (fun _ _ _ _ _ _ hs h => listening_step hs h) acts _ _
    (Kinds.start ttl closers) (listening_start ttl closers)
  obtain ⟨-, -, -, hlate⟩ := Kinds.run hM timeout
    (fun s _ => AllLate M (Sys.run M timeout (Sys.start ttl closers) acts).threads.length s)
    (fun _ _ _ _ _ _ hs h => allLate_step (kstep_weight hs h.1).1 h) more _ ks hk
    ⟨hl.returned h, fun i t hi ht => by
      rw [List.getElem?_eq_none (by omega)] at ht; cases ht⟩
  rw [run_append] at ht
  cases hlate i t hi ht with
  | datagram hd => rw [htcp] at hd; cases hd
  | @new host i => exact ⟨.tcp host i, trivial, .inl rfl⟩
  | @quit host i => exact ⟨.tcp host i, trivial, .inl rfl⟩
  | @leaving host i => exact ⟨.tcp host i, trivial, .inl rfl⟩
  | @closed host i => exact ⟨.tcp host i, trivial, .inr rfl⟩
  | @done host i => exact ⟨.tcp host i, trivial, .inr rfl⟩

/-- After `Server.Close` returned, a connection is accepted and closed, and a datagram is answered. -/
example :
    .closeReturned ∈ (Sys.run (inMemory Toy.crypto) 5000 (Sys.start 0 1) CloseExample.waiting).world.log ∧
    ((Sys.run (inMemory Toy.crypto) 5000 (Sys.start 0 1)
      (CloseExample.waiting ++ CloseExample.late)).threads.drop 3).map
        (fun t => (t.conn.buffered, t.conn.closed, t.conn.sent.length, t.conn.writes.length)) =
      [(false, true, 0, 0), (true, false, 1, 1)] := by
  constructor <;> decide +kernel

/-! ## C78 -/

/-- The claim: `Server.Close` does not panic, and under every fair schedule it returns, however often it is
called. -/
def C78_claim : Prop :=
  ∀ (C : Crypto) (timeout ttl closers : Nat),
    (∀ (acts : List (Nat × Answer C)) (i : Nat) (t0 t : Thread C) (m : String),
      (Sys.start ttl closers).threads[i]? = some t0 → t0.prog = closeServer →
      (Sys.run (inMemory C) timeout (Sys.start ttl closers) acts).threads[i]? = some t → t.prog ≠ .panic m) ∧
    (closers > 0 → ∀ σ, Fair (inMemory C) timeout (Sys.start ttl closers) σ →
      ∃ n, .closeReturned ∈ (Sys.after (inMemory C) timeout (Sys.start ttl closers) σ n).world.log)

/-- **C78** is false of the code: the second call panics. -/
theorem C78_refuted : ¬ C78_claim := by
  intro h
  have := (h Toy.crypto 5000 0 2).1 (List.replicate 4 (2, OnceExample.answer (.error .eof)) ++
    [(3, OnceExample.answer (.error .eof))]) 3 ⟨.none, closeServer, .ret false, .ret false⟩
    ⟨.none, .panic "close of closed channel", .ret false, .ret false⟩ "close of closed channel" rfl rfl rfl
  exact this rfl

/-- **C78**, what holds: a single call of `Server.Close` returns under every fair schedule, whatever the
clients do.  Fair: every goroutine goes on sooner or later, in particular reads of silent connections end
(by the read timeout); the listeners need not. -/
theorem C78_returns_partial (hM : M.Passive) (timeout ttl : Nat) (σ : Nat → Nat × Answer C)
    (hfair : Fair M timeout (Sys.start ttl 1) σ) :
    ∃ n, .closeReturned ∈ (Sys.after M timeout (Sys.start ttl 1) σ n).world.log :=
  close_returns hM timeout ttl 1 Nat.one_pos σ hfair

/-- One for a goroutine that will call `Server.Close`. -/
def GKind.isClose0 : GKind → Nat
  | .close0 => 1
  | _ => 0

/-- The goroutine calls `Server.Close` and has not panicked. -/
def InClose (t : Thread C) : Prop :=
  t.loop = .ret false ∧ t.deferred = .ret false ∧
    (t.prog = closeServer ∨ t.prog = (.op .wgWait fun _ => .op .closeReturned fun _ => .ret false) ∨
      t.prog = (.op .closeReturned fun _ => .ret false) ∨ t.prog = .ret false)

theorem inClose_step {t : Thread C} (h : InClose t) (timeout : Nat) (a : Answer C) (w : World)
    (hq : t.prog = closeServer → w.quit = false) : InClose (t.step timeout a w).1 := by
  obtain ⟨conn, prog, loop, deferred⟩ := t
  obtain ⟨heap, table, now, quit, wg, spawned, log⟩ := w
  obtain ⟨hl, hd, hp⟩ := h
  dsimp only at hl hd hp hq
  subst hl hd
  rcases hp with rfl | rfl | rfl | rfl
  · rw [hq rfl]
    exact ⟨rfl, rfl, .inr (.inl rfl)⟩
  · cases wg with
    | zero => exact ⟨rfl, rfl, .inr (.inr (.inl rfl))⟩
    | succ n => exact ⟨rfl, rfl, .inr (.inl rfl)⟩
  · exact ⟨rfl, rfl, .inr (.inr (.inr rfl))⟩
  · exact ⟨rfl, rfl, .inr (.inr (.inr rfl))⟩

/-- As long as the only call of `Server.Close` has not begun, the quit channel is open. -/
def OneClose (c : Nat) (s : Sys C) (ks : List GKind) : Prop :=
  total GKind.isClose0 ks + s.world.quit.toNat ≤ 1 ∧ ∃ t, s.threads[c]? = some t ∧ InClose t

theorem moves_close0 {k k' : GKind} {q q' : Bool} {n n' : Nat} {sp : List Peer}
    (h : Moves k q n k' q' n' sp) :
    k'.isClose0 + q'.toNat ≤ k.isClose0 + q.toNat := by
  cases h <;> simp [GKind.isClose0]

theorem fits_close0 {k : GKind} {t : Thread C} (h : k.Fits M t) (ht : t.prog = closeServer) : k = .close0 := by
  obtain ⟨conn, prog, loop, deferred⟩ := t
  dsimp only at ht
  subst ht
  cases k with
  | close0 => rfl
  | acc0 => rcases h with ⟨h | h, -⟩ <;> cases h
  | acc1 => obtain ⟨⟨k, h, -⟩, -⟩ := h; cases h
  | rec0 => rcases h with ⟨h | h, -⟩ <;> cases h
  | rec1 => obtain ⟨⟨k, h, -⟩, -⟩ := h; cases h
  | serve => obtain ⟨host, h, -⟩ := h; exact h.1.elim
  | plain => exact h.1.1.elim
  | _ => have := h.1; cases this

theorem oneClose_step {c : Nat} {s : Sys C} {timeout : Nat} {act : Nat × Answer C} {ks ks' : List GKind}
    (hk : Kinds M s ks) (hs : KStep s act.1 ks (s.step M timeout act) ks') (h : OneClose c s ks) :
    OneClose c (s.step M timeout act) ks' := by
  refine ⟨?_, ?_⟩
  · cases hs with
    | idle _ h1 h2 => rw [h1, h2]; exact h.1
    | @move k k' sp hki hm he _ _ _ =>
      have h1 := moves_close0 hm
      have h2 := total_set GKind.isClose0 k' hki
      have h3 := total_peers GKind.isClose0 (fun p => by cases p <;> rfl) sp
      have h4 := h.1
      rw [he, total_append]
      omega
  · obtain ⟨t, ht, hin⟩ := h.2
    have hlt := (List.getElem?_eq_some_iff.mp ht).1
    unfold Sys.step
    split
    · exact ⟨t, ht, hin⟩
    · rename_i t' ht'
      dsimp only
      rw [List.getElem?_append_left (by rw [List.length_set]; exact hlt)]
      by_cases hc : act.1 = c
      · subst hc
        rw [ht] at ht'
        cases ht'
        rw [List.getElem?_set_self hlt]
        refine ⟨_, rfl, inClose_step hin timeout act.2 s.world fun hp => ?_⟩
        have hki := List.getElem?_eq_getElem (hk.len ▸ hlt : act.1 < ks.length)
        have hz := fits_close0 (hk.fits _ _ _ ht hki) hp
        rw [hz] at hki
        have h1 := le_total GKind.isClose0 hki
        have h2 := h.1
        simp only [GKind.isClose0] at h1
        cases hq : s.world.quit with
        | false => rfl
        | true => rw [hq] at h2; simp only [Bool.toNat_true] at h2; omega
      · rw [List.getElem?_set_ne hc]
        exact ⟨t, ht, hin⟩

/-- **C78**, what holds: a single call of `Server.Close` does not panic, under every schedule. -/
theorem C78_no_panic_partial (hM : M.Passive) (timeout ttl : Nat) (acts : List (Nat × Answer C)) (i : Nat)
    (t0 t : Thread C) (m : String) (h0 : (Sys.start ttl 1).threads[i]? = some t0) (hp : t0.prog = closeServer)
    (ht : (Sys.run M timeout (Sys.start ttl 1) acts).threads[i]? = some t) : t.prog ≠ .panic m := by
  have hin : InClose t0 := by
    refine start_threads (C := C) (ttl := ttl) (closers := 1) (P := fun t => t.prog = closeServer → InClose t)
      ?_ ?_ ?_ ?_ t0 (List.mem_of_getElem? h0) hp
    · intro h; cases h
    · intro h; cases h
    · intro h; cases h
    · exact fun _ => ⟨rfl, rfl, .inl rfl⟩
  obtain ⟨-, -, -, t', ht', hl, hd, hin'⟩ := Kinds.run hM timeout (OneClose i)
    (fun _ _ _ _ hk _ hs h => oneClose_step hk hs h) acts _ _ (Kinds.start (M := M) ttl 1) ⟨by
      rw [total_append, total_append]
      split <;> exact Nat.le_refl 1, t0, h0, hin⟩
  rw [ht] at ht'
  cases ht'
  rcases hin' with h | h | h | h <;> rw [h] <;> exact fun h => by cases h

/-- There are fair schedules. -/
theorem fair_unpair (timeout : Nat) (s : Sys C) (a : Nat → Answer C) :
    Fair M timeout s fun n => (n.unpair.1, a n) :=
  fun n i _ _ _ => ⟨Nat.pair i n, Nat.right_le_pair i n, by simp⟩

example : ∃ n, .closeReturned ∈ (Sys.after (inMemory Toy.crypto) 5000 (Sys.start 0 1)
    (fun n => (n.unpair.1, OnceExample.answer (.ok (.tcp (.ok (str "10.0.0.1"))
      [.data (OnceExample.setup ++ OnceExample.message)])))) n).world.log :=
  C78_returns_partial (inMemory_passive _) 5000 0 _ (fair_unpair _ _ _)

end

end Goe2ee
