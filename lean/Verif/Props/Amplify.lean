import Verif.Proofs.Single
import Verif.Props.Leak
import Verif.Props.UDP

/-!
# C94: how much a datagram can make the server send
-/

set_option autoImplicit false

namespace Goe2ee

/-- **C94**, as one would want it: the server is no amplifier.  If no datagram it receives is longer than
`n` octets, no datagram it sends is. -/
def C94_claim : Prop :=
  ∀ (C : Crypto) (timeout ttl closers n : Nat) (acts : List (Nat × Answer C)), C.Lawful →
    (∀ act ∈ acts, ∀ host datagram, act.2.peer = .ok (.udp host datagram) → datagram.length ≤ n) →
    ∀ t ∈ (Sys.run (inMemory C) timeout (Sys.start ttl closers) acts).threads, t.conn.buffered = true →
      ∀ d ∈ t.conn.sent, d.length ≤ n

namespace AmplifyExample

/-- Somebody sends one octet, a fetch-key request, from an address of their choice. -/
def answer : Answer Toy.crypto :=
  { OnceExample.answer (.ok (.udp (.ok (str "10.0.0.1")) [0x14#8])) with
    fetchKey := .ok (3#8, .ed25519 (List.replicate 32 7)) }

def schedule : List (Nat × Answer Toy.crypto) :=
  List.replicate 3 (1, answer) ++ List.replicate 10 (2, answer)

def final : Sys Toy.crypto := Sys.run (inMemory Toy.crypto) 5000 (Sys.start 0 0) schedule

end AmplifyExample

/-- **C94 is refuted**: one octet, whose source address anybody can forge, is answered with the server's
public key (with an Ed25519 key, 54 octets; with the RSA keys that people use, several hundred). -/
theorem C94_refuted : ¬ C94_claim := by
  intro h
  have h1 := h Toy.crypto 5000 0 0 1 AmplifyExample.schedule Toy.lawful (by
    intro act hact host datagram hp
    have ha : act.2 = AmplifyExample.answer := by
      simp only [AmplifyExample.schedule, List.mem_append, List.mem_replicate] at hact
      rcases hact with ⟨-, rfl⟩ | ⟨-, rfl⟩ <;> rfl
    rw [ha] at hp
    cases hp
    decide)
  have h2 : ∃ t ∈ AmplifyExample.final.threads, t.conn.buffered = true ∧ ∃ d ∈ t.conn.sent, 1 < d.length := by
    decide +kernel
  obtain ⟨t, ht, hb, d, hd, hl⟩ := h2
  have := h1 t ht hb d hd
  omega

section
variable {C : Crypto}

theorem errorTexts_length : ∀ x ∈ errorTexts, (str x.2).length ≤ 52 := by decide +kernel

theorem exec_result (timeout : Nat) (a : Answer C) (o : SOp) (c : Conn) (w : World)
    (r : Ref) (counter : BitVec 64) (host id message : Bytes) (res : HRes)
    (h : .invoked r counter host id message res ∈ (exec C timeout a o (c, w)).2.2.log) :
    .invoked r counter host id message res ∈ w.log ∨ a.handle = res := by
  cases o with
  | invoke r n ho i m =>
    rcases List.mem_append.mp h with h | h
    · exact .inl h
    · rw [List.mem_singleton] at h
      cases h
      exact .inr rfl
  | write bs =>
    simp only [exec, execWrite] at h
    left
    split at h
    · exact h
    · split at h
      · split at h <;> exact h
      · exact h
  | flush =>
    simp only [exec] at h
    left
    split at h <;> exact h
  | check r n =>
    simp only [exec] at h
    left
    split at h
    · exact h
    · dsimp only at h
      split at h
      · rcases List.mem_append.mp h with h | h
        · exact h
        · cases List.mem_singleton.mp h
      · exact h
  | newSession s ho i =>
    rcases List.mem_append.mp h with h | h
    · exact .inl h
    · cases List.mem_singleton.mp h
  | aead r k n p =>
    rcases List.mem_append.mp h with h | h
    · exact .inl h
    · cases List.mem_singleton.mp h
  | closeReturned =>
    rcases List.mem_append.mp h with h | h
    · exact .inl h
    · cases List.mem_singleton.mp h
  | _ => exact .inl h

/-- A result of the application in the log was given by the application. -/
theorem invoked_result {M : Manager C} (timeout : Nat) (acts : List (Nat × Answer C)) (s : Sys C)
    (r : Ref) (counter : BitVec 64) (host id message : Bytes) (res : HRes)
    (h : .invoked r counter host id message res ∈ (s.run M timeout acts).world.log) :
    .invoked r counter host id message res ∈ s.world.log ∨ ∃ act ∈ acts, act.2.handle = res := by
  induction acts generalizing s with
  | nil => exact .inl h
  | cons act acts ih =>
    rcases ih (s.step M timeout act) h with h | ⟨b, hb, he⟩
    rotate_left
    · exact .inr ⟨b, List.mem_cons_of_mem _ hb, he⟩
    unfold Sys.step at h
    cases ht : s.threads[act.1]? with
    | none => rw [ht] at h; exact .inl h
    | some t =>
      rw [ht] at h
      dsimp only at h
      unfold Thread.step at h
      cases hprog : t.prog with
      | ret b => rw [hprog] at h; cases b <;> exact .inl h
      | panic m => rw [hprog] at h; exact .inl h
      | op o k =>
        rw [hprog] at h
        dsimp only at h
        by_cases hen : enabled s.world o = true
        · rw [if_pos hen] at h
          rcases exec_result timeout act.2 o t.conn s.world _ _ _ _ _ _ h with h | h
          · exact .inl h
          · exact .inr ⟨act, List.mem_cons_self .., h⟩
        · rw [if_neg hen] at h
          exact .inl h

/-- **C94**, the bound (`_partial`: not by the length of the datagram received): whatever the schedule and
traffic, a datagram the server sends is one response, and its length is limited by the longest error text,
signature, encoded public key and application reply; in particular no datagram makes it send more than
one. -/
theorem C94_bounded_partial (hC : C.Lawful) {M : Manager C} (hM : M.Passive) (timeout ttl closers : Nat)
    (acts : List (Nat × Answer C)) (signature encoded reply : Nat)
    (hsig : ∀ act ∈ acts, ∀ hash data s, act.2.sign hash data = .ok s → s.length ≤ signature)
    (henc : ∀ act ∈ acts, ∀ alg key raw, act.2.fetchKey = .ok (alg, key) → C.marshalPKIX key = .ok raw →
      raw.length ≤ encoded)
    (hrep : ∀ act ∈ acts, ∀ bs, act.2.handle = .reply bs → bs.length ≤ reply)
    (t : Thread C) (ht : t ∈ (Sys.run M timeout (Sys.start ttl closers) acts).threads)
    (hudp : t.conn.buffered = true) :
    t.conn.sent.length ≤ 1 ∧
    ∀ d ∈ t.conn.sent, d.length ≤ max 65 (max (54 + signature) (max (10 + encoded) (33 + reply))) := by
  have hone := (C48_one_answer hM timeout ttl closers acts t ht hudp).2
  refine ⟨by rcases hone with h | ⟨h, -⟩ <;> rw [h] <;> simp, fun d hd => ?_⟩
  obtain ⟨wr, hwr, rfl⟩ := sent_is_write hM timeout ttl closers acts t ht hudp d hd
  have hdis := (C83_server_discloses hM timeout ttl closers acts).1 t ht wr hwr
  generalize wr.1 = bs at hdis
  cases hdis with
  | hello => simp [Wire.helloResponse]; omega
  | error h =>
    have := errorTexts_length _ h
    simp [Wire.errorResponse, Wire.be32, Wire.be64] at this ⊢
    omega
  | setup h1 h2 h3 =>
    obtain ⟨act, hact, hs⟩ := h2
    have := hsig act hact _ _ _ hs
    have hl := hC.marshalEPub_length
    simp [Wire.setupResponse, Wire.be32, hl]
    omega
  | unsigned h1 =>
    have hl := hC.marshalEPub_length
    simp [Wire.be32, hl]
    omega
  | fetchKey h1 h2 =>
    obtain ⟨act, hact, hf⟩ := h1
    have := henc act hact _ _ _ hf h2
    simp [Wire.fetchKeyResponse, Wire.be64]
    omega
  | process h1 h2 =>
    rcases invoked_result timeout acts _ _ _ _ _ _ _ h1 with h | ⟨act, hact, hh⟩
    · exact absurd h List.not_mem_nil
    have := hrep act hact _ hh
    simp [Wire.processResponse, Wire.be64, hC.seal_length]
    omega

end

/-- The answer to one octet: status, algorithm, length and the encoded key, one datagram. -/
example : (AmplifyExample.final.threads.map fun t => t.conn.sent.map List.length) = [[], [], [54]] := by
  decide +kernel

/-- The bounds are reached: the longest error text, and a reply of four octets. -/
example : (Wire.errorResponse 3 (str "could not find a shared secret matching the given ID")).length = 65 ∧
    (Wire.processResponse 1 (Toy.crypto.aeadSeal OnceExample.key (Wire.nonce12 1 1) (str "pong"))).length =
      33 + 4 := by
  decide +kernel

end Goe2ee
