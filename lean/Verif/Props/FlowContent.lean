import Verif.Proofs.FlowContent
import Verif.Props.Flow

/-!
# C124: messages and replies over a connection of bounded capacity
-/

set_option autoImplicit false

namespace Goe2ee

section
variable {C : Crypto}

/-- What happens besides the connection, if all is well: the server is not being closed, it knows the session, whose
secret is `secret`, and accepts the counter; the application at the server replies to a message `m` with `f m`; the
counter of the client has not wrapped around. -/
structure HonestEnv (secret : Bytes) (f : Bytes → Bytes) (env : FlowEnv C) : Prop where
  running : env.server .quitClosed = false
  known : ∀ key, Option.isSome (α := Ref × Nat) (env.server (.mapLoad key)) = true
  secretOf : ∀ r, env.server (.secretOf r) = secret
  fresh : ∀ r counter, env.server (.check r counter) = true
  reply : ∀ r counter host id m, env.server (.invoke r counter host id m) = .reply (f m)
  counter : ∀ r, env.client (.addCounter r) ≠ 0#64
  deadline : env.client .setWriteDeadline = none

variable {secret : Bytes} {f : Bytes → Bytes} {env : FlowEnv C}

theorem HonestEnv.ret (h : HonestEnv secret f env) (o : SOp) : HonestRet secret f o (serverAnswer env o) := by
  cases o <;> first
    | exact h.running | exact h.known _ | exact h.secretOf _ | exact h.fresh _ _ | exact h.reply _ _ _ _ _ | rfl | trivial

theorem HonestEnv.benign (h : HonestEnv secret f env) : env.Benign := ⟨h.deadline, h.counter⟩

theorem setUpT_new {c : Client} (hc : NewClient c) (he : c.expectReply = true) {s : ClientSession}
    (hs : c.session = some s) : SetUpT s.secret s.id c := ⟨he, hc.2.1, hc.2.2.2, s, hs, rfl, rfl⟩

/-- Replies to other messages are not long. -/
theorem envGood_shortened {msgs : List Bytes} (hf : ∀ m ∈ msgs, (f m).length + 16 ≤ 2 ^ 30) (h : HonestEnv secret f env)
    (r : Ref) (counter : BitVec 64) (host id m bs : Bytes)
    (hr : (shortened msgs env).server (.invoke r counter host id m) = .reply bs) : bs.length + 16 ≤ 2 ^ 30 := by
  by_cases hm : m ∈ msgs
  · have h' : (shortened msgs env).server (.invoke r counter host id m) = env.server (.invoke r counter host id m) :=
      if_pos hm
    rw [h', h.reply] at hr
    rw [← HRes.reply.inj hr]
    exact hf m hm
  · have h' : (shortened msgs env).server (.invoke r counter host id m) = HRes.reply [] := if_neg hm
    rw [h'] at hr
    rw [← HRes.reply.inj hr]
    simp

/-- **C124**: at any time, in any schedule, whatever the capacity: the replies that the application has read are those to
its first messages, in order and complete, every `Write` has succeeded, and the connection is open. -/
theorem C124_replies_in_order (hC : C.Lawful) (host : Bytes) (roomUp roomDown : Nat) (c : Client) (hc : NewClient c)
    (he : c.expectReply = true) (s : ClientSession) (hs : c.session = some s) (msgs : List Bytes)
    (hm : ∀ p ∈ msgs, p.length + 16 ≤ 2 ^ 30) (hf : ∀ m ∈ msgs, (f m).length + 16 ≤ 2 ^ 30) (σ : Nat → Nat × FlowEnv C)
    (hσ : ∀ t, HonestEnv s.secret f (σ t).2) (t : Nat) :
    let w := (flowAfter (inMemory C) (.ok host) roomUp roomDown (exchangeAll c msgs) σ t).world
    w.got.map Prod.fst = (msgs.map f).take w.got.length ∧ (∀ r ∈ w.got, r.1 ≠ [] → r.2 = some .eof) ∧
      (∀ r ∈ w.written, r.2 = none) ∧ w.closed = false := by
  obtain ⟨gcm, -, hgcm⟩ := newGCM_ok hC s.secret
  obtain ⟨hcl, hw, hg, st, ms, -, hgot, -⟩ := trace_invT (S := fun _ => True) (host := host) (roomUp := roomUp)
    (roomDown := roomDown) ⟨[], by simp, trivial⟩ hC hgcm (fun n => (hσ n).ret) (fun n => (hσ n).benign)
    (talks_exchangeAll hC hgcm msgs hf (fun p hp => ⟨hm p hp, trivial⟩) c (setUpT_new hc he hs)) t
  simp only [flowAfter_trace]
  refine ⟨?_, hg, hw, hcl⟩
  rw [← hgot, List.take_append_of_le_length (by simp), List.take_of_length_le (by simp)]

/-- **C124**: and if both ends keep running, the application reads the reply to every message. -/
theorem C124_all_replies (hC : C.Lawful) (hopen : ∀ k n x p, C.aeadOpen k n x = some p → p.length ≤ x.length)
    (host : Bytes) (roomUp roomDown : Nat) (hup : 0 < roomUp) (hdown : 0 < roomDown) (c : Client) (hc : NewClient c)
    (he : c.expectReply = true) (s : ClientSession) (hs : c.session = some s) (msgs : List Bytes)
    (hm : ∀ p ∈ msgs, p.length + 16 ≤ 2 ^ 30) (hf : ∀ m ∈ msgs, (f m).length + 16 ≤ 2 ^ 30) (σ : Nat → Nat × FlowEnv C)
    (hfair : FlowFair σ) (hσ : ∀ t, HonestEnv s.secret f (σ t).2) :
    ∃ t, (flowAfter (inMemory C) (.ok host) roomUp roomDown (exchangeAll c msgs) σ t).world.got.map Prod.fst =
      msgs.map f := by
  cases msgs with
  | nil => exact ⟨0, rfl⟩
  | cons m0 ms0 =>
  obtain ⟨gcm, -, hgcm⟩ := newGCM_ok hC s.secret
  have hS : ∃ m : Bytes, m.length + 16 ≤ 2 ^ 30 ∧ m ∈ m0 :: ms0 := ⟨m0, hm m0 List.mem_cons_self, List.mem_cons_self⟩
  generalize m0 :: ms0 = msgs at hm hf hS
  have hsame := fun t => trace_shortened (host := host) (roomUp := roomUp) (roomDown := roomDown)
    (app := atStart (exchangeAll c msgs)) hS hC hgcm (fun n => (hσ n).ret) (fun n => (hσ n).benign)
    ⟨rfl, (fun _ h => by cases h), (fun _ h => by cases h), .idle, msgs,
      talks_exchangeAll hC hgcm msgs hf (fun p hp => ⟨hm p hp, hp⟩) c (setUpT_new hc he hs), rfl, rfl, rfl,
      .inl ⟨rfl, .inl ⟨rfl, rfl⟩⟩⟩ t
  have hP : ∀ t r counter host id m bs, (shortened msgs (σ t).2).server (.invoke r counter host id m) = .reply bs →
      bs.length + 16 ≤ 2 ^ 30 := fun t => envGood_shortened hf (hσ t)
  obtain ⟨t, h⟩ := C123_every_exchange_completes hC hopen (inMemory_passive C) (.ok host) roomUp roomDown c hc he msgs hm
    (fun t => ((σ t).1, shortened msgs (σ t).2)) hfair hup hdown (fun t => (hσ t).benign) hP
  obtain ⟨h1, -, -, h4⟩ := C124_replies_in_order hC host roomUp roomDown c hc he s hs msgs hm hf σ hσ t
  rw [flowAfter_trace, hsame t, ← flowAfter_trace] at h
  rcases h with h | ⟨h, -⟩
  · refine ⟨t, ?_⟩
    rw [h1, h, List.take_of_length_le (by simp)]
  · rw [h4] at h
    cases h

end

/-! ## Examples -/

section
open FlowDemo

/-- An application that replies with the message and an exclamation mark. -/
def FlowDemo.echo (n : Nat) : FlowEnv Toy.crypto :=
  { env n with server := fun o => match o with
      | .invoke _ _ _ _ m => HRes.reply (m ++ str "!")
      | o => server o }

example (n : Nat) : HonestEnv (List.replicate 32 7#8) (· ++ str "!") (FlowDemo.echo n) where
  running := rfl
  known := fun _ => rfl
  secretOf := fun _ => rfl
  fresh := fun _ _ => rfl
  reply := fun _ _ _ _ _ => rfl
  counter := fun _ => by
    show (if n < 107 then 1#64 else if n < 271 then 2#64 else 3#64) ≠ 0#64
    split
    · decide
    · split <;> decide
  deadline := rfl

/-- Over a connection that takes three octets in one direction and one in the other. -/
example : (flowAfter (inMemory Toy.crypto) (.ok []) 3 1 (exchangeAll (conn true) [str "a", str "b"])
      (fun n => (n % 2, FlowDemo.echo n)) 800).world.got =
    [(str "a!", some .eof), (str "b!", some .eof)] := by decide +kernel

end

end Goe2ee
