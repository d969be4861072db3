import Verif.Proofs.LongTermKey
import Verif.Model.Keys
import Verif.Props.Once

/-!
# C164: what the long-term key of the server decides
-/

set_option autoImplicit false

namespace Goe2ee

section
variable {C : Crypto}

/-- **C164**: two servers that differ in their long-term key only, under the same schedule, the same traffic, the same
ephemeral keys and the same application, are in the same state at any time: the same sessions with the same secrets and
replay windows, the same calls of the application, the same messages encrypted with the same keys.  What each of their
goroutines has sent is the same, except for the signatures in setup responses, and the published key. -/
theorem C164_long_term_key (hC : C.Lawful) (timeout ttl closers : Nat) {acts acts' : List (Nat × Answer C)}
    (h : OtherKeys acts acts') (s s' : Sys C) (hs : s = Sys.run (inMemory C) timeout (Sys.start ttl closers) acts)
    (hs' : s' = Sys.run (inMemory C) timeout (Sys.start ttl closers) acts') :
    s'.world = s.world ∧ s'.threads.length = s.threads.length ∧
    ∀ (i : Nat) (t t' : Thread C), s.threads[i]? = some t → s'.threads[i]? = some t' →
      AlikeOctets t.conn.output t'.conn.output ∧ AlikeDatagrams t.conn.sent t'.conn.sent ∧
      t'.conn.input = t.conn.input ∧ t'.conn.closed = t.conn.closed := by
  subst hs hs'
  obtain ⟨h1, h2, h3⟩ := sys_run_alike hC h (sys_start_alike ttl closers) timeout
  refine ⟨h1, h2, fun i t t' ht ht' => ?_⟩
  have hc := (h3 i t t' ht ht').conn
  exact ⟨hc.output, hc.sent, hc.input, hc.closed⟩

/-- The answers of the key manager for a private key. -/
def Answer.withKey (a : Answer C) (privateKey : PrivateKey C) (random : Nat) : Answer C :=
  { a with sign := signServer privateKey random, fetchKey := fetchServerKey privateKey }

/-- **C164**, for keys that can sign and can be published, of any types. -/
theorem C164_private_keys (hC : C.Lawful) (a : Answer C) (hw : a.write.1 = 0 ∨ 2 ^ 20 ≤ a.write.1)
    (key key' : PrivateKey C) (random random' : Nat)
    (hs : ∀ content, ∃ s, signServer key random 7 content = .ok s)
    (hs' : ∀ content, ∃ s, signServer key' random' 7 content = .ok s)
    (hp : ∃ x raw, fetchServerKey key = .ok x ∧ C.marshalPKIX x.2 = .ok raw ∧ raw.length ≤ 65536)
    (hp' : ∃ x raw, fetchServerKey key' = .ok x ∧ C.marshalPKIX x.2 = .ok raw ∧ raw.length ≤ 65536) :
    OtherKey (a.withKey key random) (a.withKey key' random') := by
  have hb : ∀ (key : PrivateKey C) (random : Nat) (content s : Bytes), signServer key random 7 content = .ok s →
      0 < s.length ∧ s.length ≤ 65536 := by
    intro key random content s hsig
    unfold signServer at hsig
    split at hsig
    case isFalse => cases hsig
    dsimp only at hsig
    cases key with
    | rsa k => exact hC.rsa_sig _ _ _ _ hsig
    | ecdsa k => exact hC.ecdsa_sig _ _ _ _ hsig
    | ed25519 k => cases hsig; exact hC.ed_sig _ _
    | otherType => cases hsig
  refine ⟨rfl, rfl, rfl, rfl, rfl, rfl, rfl, ?_, ?_, hw⟩
  · intro content
    obtain ⟨s, h1⟩ := hs content
    obtain ⟨s', h2⟩ := hs' content
    exact ⟨s, s', h1, h2, (hb _ _ _ _ h1).1, (hb _ _ _ _ h1).2, (hb _ _ _ _ h2).1, (hb _ _ _ _ h2).2⟩
  · obtain ⟨⟨al, k⟩, raw, h1, h2, h3⟩ := hp
    obtain ⟨⟨al', k'⟩, raw', h4, h5, h6⟩ := hp'
    exact ⟨al, al', k, k', raw, raw', h1, h4, h2, h5, h3, h6⟩

end

namespace LongTermKeyExample

/-- The schedule of `OnceExample`, and a client that asks for the key. -/
def schedule : List (Nat × Answer Toy.crypto) :=
  OnceExample.schedule ++
    (List.replicate 8 (0, OnceExample.answer (.ok (.tcp (.ok (str "10.0.0.2")) [.data [0x14#8]])))) ++
    (List.replicate 20 (4, OnceExample.answer (.error .eof)))

/-- The same with a long-term key. -/
def acts (key : PrivateKey Toy.crypto) : List (Nat × Answer Toy.crypto) :=
  schedule.map fun act => (act.1, act.2.withKey key 3)

/-- The final state for a long-term key: secrets, calls of the application, what was sent on the connections. -/
def final (key : PrivateKey Toy.crypto) : List Bytes × Nat × List Bytes :=
  let s := Sys.run (inMemory Toy.crypto) 5000 (Sys.start 0 0) (acts key)
  (s.world.heap.map (·.1), (handled s.world.log).length, s.threads.map (·.conn.output))

/-- Two Ed25519 keys: the secrets and the calls are the same; what is sent differs. -/
example : (final (.ed25519 (77 : BitVec 256))).1 = (final (.ed25519 (78 : BitVec 256))).1 ∧
    (final (.ed25519 (77 : BitVec 256))).2.1 = 1 ∧ (final (.ed25519 (78 : BitVec 256))).2.1 = 1 ∧
    (final (.ed25519 (77 : BitVec 256))).2.2[2]? ≠ (final (.ed25519 (78 : BitVec 256))).2.2[2]? ∧
    (final (.ed25519 (77 : BitVec 256))).2.2[4]? ≠ (final (.ed25519 (78 : BitVec 256))).2.2[4]? := by
  decide +kernel

/-- The conditions hold for them. -/
example : OtherKeys (acts (.ed25519 (77 : BitVec 256))) (acts (.ed25519 (78 : BitVec 256))) := by
  have h : ∀ acts : List (Nat × Answer Toy.crypto), (∀ act ∈ acts, act.2.write.1 = 0) →
      OtherKeys (acts.map fun act => (act.1, act.2.withKey (.ed25519 (77 : BitVec 256)) 3))
        (acts.map fun act => (act.1, act.2.withKey (.ed25519 (78 : BitVec 256)) 3)) := by
    intro acts ha
    induction acts with
    | nil => exact .nil
    | cons act acts ih =>
      refine .cons (C164_private_keys Toy.lawful act.2 (.inl (ha act (.head _))) _ _ _ _ (fun _ => ⟨_, rfl⟩)
        (fun _ => ⟨_, rfl⟩) ⟨_, _, rfl, rfl, by decide +kernel⟩ ⟨_, _, rfl, rfl, by decide +kernel⟩)
        (ih fun x hx => ha x (.tail _ hx))
  refine h schedule ?_
  decide +kernel

end LongTermKeyExample

end Goe2ee
