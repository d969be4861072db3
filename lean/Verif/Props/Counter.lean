import Verif.Proofs.Counter
import Verif.Props.Client

/-!
# C21: client nonces

Clients of a pool share a session, and with it the address of a send counter.  A process is any
number of goroutines, each with an established client, calling `Write` and `Read`; the scheduler may
switch between any two effects, and every effect may fail.
-/

set_option autoImplicit false

namespace Goe2ee

/-- C21 as stated: no two messages are ever encrypted with the same key and nonce.  False. -/
def C21_claim : Prop :=
  ∀ (C : Crypto), C.Lawful → ∀ (k : Nat) (workers : List Worker), (∀ w ∈ workers, w.ok) →
    Sessions C k workers → ∀ acts : List (Nat × CEnv C),
    (((CSys.start C k workers).run acts).shared.sealed.map fun e => (e.1, e.2.1)).Nodup

/-- C21: every successful dial gives its session a send counter of its own: one that did not exist in
the process before (so no earlier session has it), which starts at zero; the counters of the other
sessions are as before. -/
theorem C21_own_counter {C : Crypto} (env : CEnv C) (udp : Bool) (host : Except Err Bytes)
    (options : ClientOptions) (s s' : CConn × CShared) (c : Client)
    (h : runClient env (dial udp host options) s = (.val (.ok c), s')) :
    ∃ session, c.session = some session ∧ s.2.counters[session.sendCounter]? = none ∧
      s'.2.counters[session.sendCounter]? = some 0 ∧
      ∀ a, a ≠ session.sendCounter → s'.2.counters[a]? = s.2.counters[a]? := by
  obtain ⟨session, h1, rfl⟩ := dial_ok h
  obtain ⟨_, _, _, _, _, _, _, _, _, _, _, -, -, -, -, -, -, -, -, -, -, -, hcount, hshared, -⟩ :=
    handshake_ok h1
  refine ⟨session, rfl, ?_, ?_, fun a ha => ?_⟩
  · rw [hcount]; simp
  · rw [hshared, hcount]; simp
  · rw [hshared]
    rcases Nat.lt_or_ge a s.2.counters.length with hl | hl
    · exact List.getElem?_append_left hl
    · have hne : a ≠ s.2.counters.length := hcount ▸ ha
      rw [List.getElem?_eq_none hl, List.getElem?_eq_none (by simp; omega)]

/-- C21: as long as `Write` is called at most 2^64 times on the clients of each session, no two
messages are encrypted with the same key and nonce, whatever the interleaving.  Missing from the full
claim: longer lives, where it is false (`C21_reuse_after_exhaustion`). -/
theorem C21_nonces_unique_partial (C : Crypto) (k : Nat) (workers : List Worker)
    (hok : ∀ w ∈ workers, w.ok) (hS : Sessions C k workers)
    (hw : ∀ a, (workers.map fun w => if w.session.sendCounter = a then w.writes else 0).sum ≤ 2 ^ 64)
    (acts : List (Nat × CEnv C)) :
    (((CSys.start C k workers).run acts).shared.sealed.map fun e => (e.1, e.2.1)).Nodup := by
  obtain ⟨gs, used, issued, h⟩ := draw_run acts _ (draw_start hok hS hw)
  refine draw_nodup h.shared ?_
  rintro a a' key ⟨w, hw, rfl, hk⟩ ⟨w', hw', rfl, hk'⟩
  exact hS.2 w hw w' hw' key hk hk'

namespace CounterExample
open HandshakeExample

/-- An established client. -/
def session : ClientSession := ⟨List.replicate 32 9, ⟨List.replicate 16 1, rfl⟩, 0⟩

/-- A goroutine that calls `Write` `n` times. -/
def writer (n : Nat) : Worker :=
  { client := { host := .ok (str "example.com"), readTimeout := 0, writeTimeout := 0,
                expectReply := true, session := some session, lastSentCounter := 0, buffer := [] },
    session := session, conn := ⟨.tcp [], [], true⟩, calls := List.replicate n (.write []) }

end CounterExample
open CounterExample

/-- C21 fails after 2^64 calls of `Write`: one call fails, "message counter exhausted", and the next
call uses the first nonce again. -/
theorem C21_reuse_after_exhaustion : ¬ C21_claim := by
  intro h
  have hC := Toy.lawful
  obtain ⟨key, hk, -⟩ := newGCM_ok hC session.secret
  have hd : HandshakeExample.env.writeDeadline = none := rfl
  obtain ⟨m, hm⟩ : ∃ m : Nat, m = 2 ^ 64 - 1 := ⟨_, rfl⟩
  have hS : Sessions Toy.crypto 1 [writer (m + 1 + 1)] := by
    refine ⟨?_, ?_⟩
    · intro w hw
      rw [List.mem_singleton] at hw
      subst hw
      exact Nat.zero_lt_one
    · intro w hw w' hw' _ _ _
      rw [List.mem_singleton] at hw hw'
      rw [hw, hw']
  have hok : ∀ w ∈ [writer (m + 1 + 1)], w.ok := by
    intro w hw
    rw [List.mem_singleton] at hw
    subst hw
    rfl
  have hrun : ∃ c' s' es n, ((writer (m + 1 + 1)).client.calls (writer (m + 1 + 1)).calls).run
      (cexec HandshakeExample.env) ((writer (m + 1 + 1)).conn, ⟨[0], []⟩) =
        (.val c', (s', ⟨[1], (key, n, []) :: es ++ [(key, n, [])]⟩)) := by
    have hcalls : (writer (m + 1 + 1)).calls =
        .write [] :: (List.replicate m (.write []) ++ [.write []]) := by
      show List.replicate (m + 1 + 1) _ = _
      rw [List.replicate_succ, List.replicate_succ']
    rw [hcalls, Client.calls, Prog.run_bind, Client.call, Prog.run_bind,
      write_run hC hd (show (writer (m + 1 + 1)).client.session = some session from rfl) hk 1 rfl
        (by decide) (by decide)]
    obtain ⟨c', s', es, h1, h2⟩ := many_writes hC hd (session := session) rfl [] (by decide)
      [.write []] m { (writer (m + 1 + 1)).client with lastSentCounter := 1 } rfl
      { (writer (m + 1 + 1)).conn with
        net := (writer (m + 1 + 1)).conn.net.written,
        writes := (writer (m + 1 + 1)).conn.writes ++ [(writeRequest Toy.crypto (writer (m + 1 + 1)).client session
          key 1 [], (writeRequest Toy.crypto (writer (m + 1 + 1)).client session key 1 []).length -
          HandshakeExample.env.write.1, HandshakeExample.env.write.2)] } 1
      ([] ++ [(key, Wire.nonce12 0 (1 : BitVec 64).toNat, [])])
    have h0 : (1 : BitVec 64) + BitVec.ofNat 64 m = 0 := by
      rw [hm]; rfl
    rw [h0] at h1
    have hlast : ∃ c'' s'', (c'.calls [.write []]).run (cexec HandshakeExample.env)
        (s', ⟨[0], [] ++ [(key, Wire.nonce12 0 (1 : BitVec 64).toNat, [])] ++ es⟩) =
          (.val c'', (s'', ⟨[1], ([] ++ [(key, Wire.nonce12 0 (1 : BitVec 64).toNat, [])] ++ es) ++
            [(key, Wire.nonce12 0 (1 : BitVec 64).toNat, [])]⟩)) := by
      rw [Client.calls, Prog.run_bind, Client.call, Prog.run_bind,
        write_run hC hd h2 hk 1 rfl (by decide) (by decide)]
      exact ⟨_, _, rfl⟩
    obtain ⟨c'', s'', h3⟩ := hlast
    exact ⟨c'', s'', es, _, h1.trans h3⟩
  obtain ⟨c', s', es, n, hrun⟩ := hrun
  obtain ⟨acts, ha⟩ := alone _ hrun
  have := h Toy.crypto hC 1 [writer (m + 1 + 1)] hok hS acts
  rw [show (CSys.start Toy.crypto 1 [writer (m + 1 + 1)]) = ⟨⟨[0], []⟩, [⟨(writer (m + 1 + 1)).conn,
    (writer (m + 1 + 1)).client.calls (writer (m + 1 + 1)).calls⟩]⟩ from rfl, ha] at this
  simp at this

/-- The bound of `C21_nonces_unique_partial` is the best possible: the counterexample makes one call
more. -/
example : (writer 5).writes = 5 := by decide

/-- Two goroutines share a session and their calls are interleaved: both draw a value before either
encrypts, and the two nonces differ. -/
example : (((CSys.start Toy.crypto 1 [writer 1, writer 1]).run
    [(0, HandshakeExample.env), (1, HandshakeExample.env), (1, HandshakeExample.env),
     (0, HandshakeExample.env)]).shared.sealed.map fun e => e.2.1) =
    [Wire.nonce12 0 2, Wire.nonce12 0 1] := by
  decide +kernel

end Goe2ee
