import Verif.Proofs.Once
import Verif.Spec.Toy

/-!
# C18, C22: the interleaved server

`Sys.run M timeout (Sys.start ttl closers) acts` is the server after an arbitrary schedule `acts`:
at every step the scheduler picks any goroutine, and the environment chooses what its effect returns
(accepted connections and datagrams with arbitrary contents, handler results, keys, time, …).
-/

set_option autoImplicit false

namespace Goe2ee

variable {C : Crypto}

/-- The (session, counter) pairs for which the application handler was called, in order. -/
def handled (log : List Event) : List (Ref × BitVec 64) :=
  log.filterMap fun
    | .invoked r c _ _ _ _ => some (r, c)
    | _ => none

/-- The (session, nonce) pairs with which the server encrypted, in order. -/
def sealedWith (log : List Event) : List (Ref × Bytes) :=
  log.filterMap fun
    | .sealed r _ n _ => some (r, n)
    | _ => none

/-- The (key, nonce) pairs with which the server encrypted, in order. -/
def keyNonces (log : List Event) : List (Bytes × Bytes) :=
  log.filterMap fun
    | .sealed _ k n _ => some (k, n)
    | _ => none

theorem handled_count (log : List Event) (r : Ref) (c : BitVec 64) :
    log.countP (fun e => (match e with
      | .invoked r c _ _ _ _ => some (r, c)
      | _ => none : Option (Ref × BitVec 64)) = some (r, c)) = log.countP (isInvoked r c) := by
  congr 1
  funext e
  cases e <;> simp [isInvoked]

theorem sealed_count (log : List Event) (r : Ref) (n : Bytes) :
    log.countP (fun e => (match e with
      | .sealed r _ n _ => some (r, n)
      | _ => none : Option (Ref × Bytes)) = some (r, n)) = log.countP (isSealed r n) := by
  congr 1
  funext e
  cases e <;> simp [isSealed]

/-- **C18.** Whatever the schedule, the traffic and the session manager, the application handler is
called at most once for each session and counter, and only with a message that decrypts under that
session's key with that counter's nonce. -/
theorem C18_handled_at_most_once {M : Manager C} (hM : M.Passive) (timeout ttl closers : Nat)
    (acts : List (Nat × Answer C)) :
    let w := (Sys.run M timeout (Sys.start ttl closers) acts).world
    (handled w.log).Nodup ∧
    ∀ r c host id message res, .invoked r c host id message res ∈ w.log →
      ∃ secret window key ciphertext, w.heap[r]? = some (secret, window) ∧
        deriveKey C secret kdfInfo aesKeySize = .ok key ∧
        C.aeadOpen key (Wire.nonce12 0 c.toNat) ciphertext = some message := by
  obtain ⟨gs, h⟩ := run_inv hM timeout acts _ _ (start_inv (C := C) ttl closers)
  refine ⟨nodup_filterMap_of_countP _ _ ?_, ?_⟩
  · rintro ⟨r, c⟩
    rw [handled_count]
    have h1 := h.world.calls r c
    have h2 := h.world.uniq r c
    omega
  · intro r c host id message res hm
    obtain ⟨⟨s, win⟩, key, ct, h1, h2, h3⟩ := h.world.auth r c host id message res hm
    exact ⟨s, win, key, ct, h1, h2, h3⟩

/-- **C22.** Whatever the schedule, the traffic and the session manager, the server never encrypts
twice for one session with the same nonce; it always uses the session's own key; and its nonces
carry direction octet 1, so they are never client-to-server nonces. -/
theorem C22_reply_nonces_unique {M : Manager C} (hM : M.Passive) (timeout ttl closers : Nat)
    (acts : List (Nat × Answer C)) :
    let w := (Sys.run M timeout (Sys.start ttl closers) acts).world
    (sealedWith w.log).Nodup ∧
    ∀ r key n pt, .sealed r key n pt ∈ w.log →
      (∃ secret window, w.heap[r]? = some (secret, window) ∧
        deriveKey C secret kdfInfo aesKeySize = .ok key) ∧
      (∃ counter, counter < 2 ^ 64 ∧ n = Wire.nonce12 1 counter) ∧
      ∀ counter, n ≠ Wire.nonce12 0 counter := by
  obtain ⟨gs, h⟩ := run_inv hM timeout acts _ _ (start_inv (C := C) ttl closers)
  refine ⟨nodup_filterMap_of_countP _ _ ?_, ?_⟩
  · rintro ⟨r, n⟩
    rw [sealed_count]
    by_cases hn : ∃ c : BitVec 64, n = Wire.nonce12 1 c.toNat
    · obtain ⟨c, rfl⟩ := hn
      have h1 := h.world.seals r c
      have h2 := h.world.uniq r c
      omega
    · have : (Sys.run M timeout (Sys.start ttl closers) acts).world.log.countP (isSealed r n) = 0 := by
        rw [List.countP_eq_zero]
        intro e he hp
        cases e with
        | sealed r' key n' pt =>
          simp only [isSealed, decide_eq_true_eq] at hp
          obtain ⟨x, c, -, -, hc, hlt⟩ := h.world.sealed r' key n' pt he
          refine hn ⟨BitVec.ofNat 64 c, ?_⟩
          rw [← hp.2, hc, BitVec.toNat_ofNat, Nat.mod_eq_of_lt hlt]
        | _ => simp [isSealed] at hp
      omega
  · intro r key n pt hm
    obtain ⟨⟨s, win⟩, c, h1, h2, rfl, hlt⟩ := h.world.sealed r key n pt hm
    refine ⟨⟨s, win, h1, h2⟩, ⟨c, hlt, rfl⟩, fun c' hc => ?_⟩
    simp [Wire.nonce12] at hc

/-- **C22**, in terms of keys: if no two sessions the server created derive the same key (the
Diffie–Hellman secrets differ and the key derivation does not collide), no two encryptions use the
same key and nonce. -/
theorem C22_key_nonce_unique {M : Manager C} (hM : M.Passive) (timeout ttl closers : Nat)
    (acts : List (Nat × Answer C))
    (hkeys : ∀ (r r' : Nat) secret window secret' window' key,
      (Sys.run M timeout (Sys.start ttl closers) acts).world.heap[r]? = some (secret, window) →
      (Sys.run M timeout (Sys.start ttl closers) acts).world.heap[r']? = some (secret', window') →
      deriveKey C secret kdfInfo aesKeySize = .ok key →
      deriveKey C secret' kdfInfo aesKeySize = .ok key → r = r') :
    (keyNonces (Sys.run M timeout (Sys.start ttl closers) acts).world.log).Nodup := by
  obtain ⟨h1, h2⟩ := C22_reply_nonces_unique hM timeout ttl closers acts
  revert h1 h2 hkeys
  generalize (Sys.run M timeout (Sys.start ttl closers) acts).world = w
  intro hkeys h1 h2
  have key : ∀ log : List Event, (∀ e ∈ log, e ∈ w.log) → (sealedWith log).Nodup →
      (keyNonces log).Nodup := by
    intro log
    induction log with
    | nil => intro _ _; exact List.nodup_nil
    | cons e log ih =>
      intro hsub hnd
      have hsub' : ∀ e ∈ log, e ∈ w.log := fun e he => hsub e (List.mem_cons_of_mem _ he)
      cases e with
      | sealed r k n pt =>
        simp only [sealedWith, keyNonces, List.filterMap_cons, List.nodup_cons] at hnd ⊢
        refine ⟨fun hmem => hnd.1 ?_, ih hsub' hnd.2⟩
        obtain ⟨e', he', hk⟩ := List.mem_filterMap.mp hmem
        cases e' with
        | sealed r' k' n' pt' =>
          simp only [Option.some.injEq, Prod.mk.injEq] at hk
          obtain ⟨rfl, rfl⟩ := hk
          obtain ⟨⟨s, win, hr, hd⟩, -, -⟩ := h2 r k' n' pt (hsub _ (List.mem_cons_self ..))
          obtain ⟨⟨s', win', hr', hd'⟩, -, -⟩ := h2 r' k' n' pt' (hsub' _ he')
          obtain rfl := hkeys r r' s win s' win' k' hr hr' hd hd'
          exact List.mem_filterMap.mpr ⟨_, he', rfl⟩
        | _ => cases hk
      | _ =>
        simp only [sealedWith, keyNonces, List.filterMap_cons] at hnd ⊢
        exact ih hsub' hnd
  exact key w.log (fun _ h => h) h1

/-! ## A concrete schedule -/

namespace OnceExample

/-- What the environment answers: client and server keys 5 and 9, the handler echoes "pong". -/
def answer (peer : Except Err Peer) : Answer Toy.crypto :=
  { genKey := .ok (9 : BitVec 256), sign := fun _ _ => .ok [1, 2, 3], fetchKey := .error .eof,
    handle := .reply (str "pong"), write := (0, none), tick := 1, key := [], choose := 0, peer }

def id : ID := ⟨List.replicate 16 7, rfl⟩

/-- The key both sides derive from the toy Diffie–Hellman secret 5 + 9. -/
def key : Bytes :=
  match deriveKey Toy.crypto (beEnc 32 14) kdfInfo aesKeySize with
  | .ok k => k
  | .error _ => []

/-- A client host sends a setup request; then the same process message twice, once on each of two
connections. -/
def setup : Bytes := (newSetupRequest Toy.crypto id (5 : BitVec 256)).bytes
def message : Bytes :=
  (newProcessRequest id 1 (Toy.crypto.aeadSeal key (Wire.nonce12 0 1) (str "ping"))).bytes

/-- Accept the connection, receive the datagram, serve the setup, then let both goroutines take
turns. -/
def schedule : List (Nat × Answer Toy.crypto) :=
  (List.replicate 4 (0, answer (.ok (.tcp (.ok (str "10.0.0.1")) [.data (setup ++ message)])))) ++
  (List.replicate 3 (1, answer (.ok (.udp (.ok (str "10.0.0.1")) message)))) ++
  (List.replicate 20 (2, answer (.error .eof))) ++
  (List.replicate 40 [(2, answer (.error .eof)), (3, answer (.error .eof))]).flatten

/-- Then a second client sets up a session of its own (the server's key is now 11). -/
def schedule2 : List (Nat × Answer Toy.crypto) :=
  schedule ++
  (List.replicate 8 (0, answer (.ok (.tcp (.ok (str "10.0.0.2")) [.data setup])))) ++
  (List.replicate 20 (4, { answer (.error .eof) with genKey := .ok (11 : BitVec 256) }))

end OnceExample

/-- In this schedule the handler is called once, the copy of the message is refused. -/
example : handled (Sys.run (inMemory Toy.crypto) 5000 (Sys.start 0 0) OnceExample.schedule).world.log
    = [(0, 1)] := by decide +kernel

/-- In this schedule the server encrypts one reply. -/
example : sealedWith
    (Sys.run (inMemory Toy.crypto) 5000 (Sys.start 0 0) OnceExample.schedule).world.log
    = [(0, Wire.nonce12 1 1)] := by decide +kernel

example : (inMemory Toy.crypto).Passive := inMemory_passive _

/-- With two sessions in memory the hypothesis of `C22_key_nonce_unique` holds: their keys differ. -/
example :
    let heap := (Sys.run (inMemory Toy.crypto) 5000 (Sys.start 0 0) OnceExample.schedule2).world.heap
    heap.length = 2 ∧ ∀ (r r' : Nat) secret window secret' window' key,
      heap[r]? = some (secret, window) → heap[r']? = some (secret', window') →
      deriveKey Toy.crypto secret kdfInfo aesKeySize = .ok key →
      deriveKey Toy.crypto secret' kdfInfo aesKeySize = .ok key → r = r' := by
  intro heap
  have hlen : heap.length = 2 := by decide +kernel
  have hnd : (heap.map fun x => (deriveKey Toy.crypto x.1 kdfInfo aesKeySize).toOption).Nodup := by
    decide +kernel
  refine ⟨hlen, ?_⟩
  intro r r' s w s' w' key hr hr' hk hk'
  have h1 := (List.getElem?_eq_some_iff.mp hr).1
  have h2 := (List.getElem?_eq_some_iff.mp hr').1
  refine (List.getElem_inj (h₀ := by simpa using h1) (h₁ := by simpa using h2) hnd).mp ?_
  rw [List.getElem_map, List.getElem_map, (List.getElem?_eq_some_iff.mp hr).2,
    (List.getElem?_eq_some_iff.mp hr').2, hk, hk']

end Goe2ee
