import Verif.Props.Once
import Verif.Props.Client
import Verif.Props.EndToEnd

/-!
# C174: who has asked nothing is told nothing
-/

set_option autoImplicit false

namespace Goe2ee

section
variable {C : Crypto}

/-- A client that has not called `Write`: after a dial, or opened by a pool, which hands over its session
(client_pool.go:84-92), and after any calls of `Read`; `ok` holds of the state each of them starts with. -/
inductive OnlyReads (C : Crypto) (ok : Client → CConn × CShared → Prop) : Client → Prop where
  | dialled {env : CEnv C} {udp : Bool} {host : Except Err Bytes} {options : ClientOptions}
      {s s' : CConn × CShared} {c : Client} :
      runClient env (dial udp host options) s = (.val (.ok c), s') → OnlyReads C ok c
  | pooled (host : Except Err Bytes) (options : ClientOptions) (session : ClientSession) :
      OnlyReads C ok { newClient host options with session := some session }
  | called {env : CEnv C} {c c' : Client} {s s' : CConn × CShared} {n : Nat} {r : Bytes × Option Err} :
      OnlyReads C ok c → ok c s → runClient env (c.read n) s = (.val (r, c'), s') → OnlyReads C ok c'

/-- What the client receives was not forged: responses under the key of its session were made by a client
(`sealed`) or by the server (`log`). -/
def Unforged (C : Crypto) (log : List Event) (sealed : List (Bytes × Bytes × Bytes)) (c : Client)
    (s : CConn × CShared) : Prop :=
  ∀ session key, c.session = some session → deriveKey C session.secret kdfInfo aesKeySize = .ok key →
    ReplyGenuine C log sealed key s.1.net.stream

/-- The server never encrypts with the counter zero. -/
theorem sealed_counter {M : Manager C} (hM : M.Passive) (timeout ttl closers : Nat) (acts : List (Nat × Answer C))
    (r : Ref) (key m : Bytes) (counter : BitVec 64)
    (h : .sealed r key (Wire.nonce12 1 counter.toNat) m ∈
      (Sys.run M timeout (Sys.start ttl closers) acts).world.log) : counter ≠ 0 := by
  rintro rfl
  obtain ⟨gs, hi⟩ := run_inv hM timeout acts _ _ (start_inv (C := C) ttl closers)
  obtain ⟨x, c, hx, -⟩ := hi.world.sealed _ _ _ _ h
  have h1 := hi.world.seals r 0
  have h2 : 0 < (Sys.run M timeout (Sys.start ttl closers) acts).world.log.countP
      (isSealed r (Wire.nonce12 1 (0 : BitVec 64).toNat)) :=
    List.countP_pos_iff.mpr ⟨_, h, by simp [isSealed]⟩
  have h3 := mem_of_countP_pos (Nat.lt_of_lt_of_le h2 (Nat.le_trans (Nat.le_add_right _ _) h1))
  exact (hi.world.win r x hx).pos _ (mem_acceptedOf.mpr h3) rfl

/-- A client that has not called `Write` waits for the counter zero and has nothing to return. -/
theorem onlyReads_inv {M : Manager C} (hM : M.Passive) (timeout ttl closers : Nat) (acts : List (Nat × Answer C))
    (sealed : List (Bytes × Bytes × Bytes)) (hsealed : ∀ e ∈ sealed, ∃ n, e.2.1 = Wire.nonce12 0 n)
    (env : CEnv C) (c c' : Client) (s s' : CConn × CShared) (n : Nat) (bs : Bytes) (err : Option Err)
    (h0 : c.lastSentCounter = 0 ∧ c.buffer = [])
    (hok : Unforged C (Sys.run M timeout (Sys.start ttl closers) acts).world.log sealed c s)
    (h : runClient env (c.read n) s = (.val ((bs, err), c'), s')) :
    (bs = [] ∧ ∃ e, err = some e) ∧ c'.lastSentCounter = 0 ∧ c'.buffer = [] := by
  obtain ⟨h1, -, ⟨h2, h3, h4⟩ | ⟨-, -, h2, -⟩ | ⟨session, message, h2, -, h3, -⟩⟩ :=
    C23_only_authentic_partial env c c' s s' n bs err h
  · exact ⟨⟨h2, h3⟩, h1.trans h0.1, h4.trans h0.2⟩
  · exact absurd h0.2 h2
  · obtain ⟨key, header, ct, rest, hk, hstream, -, hopen⟩ := h3
    rcases hok session key h2 hk header c.lastSentCounter ct rest message hstream hopen with hm | ⟨r, hm⟩
    · obtain ⟨k, hn⟩ := hsealed _ hm
      simp [Wire.nonce12] at hn
    · exact absurd h0.1 (sealed_counter hM timeout ttl closers acts r key message _ hm)

/-- **C174.** A client that has not called `Write` since it was dialled, or was opened by its pool, is told
nothing: every `Read` fails and returns no data, whatever arrives — also genuine replies to the requests of
other connections with the same session. -/
theorem C174_unasked {M : Manager C} (hM : M.Passive) (timeout ttl closers : Nat) (acts : List (Nat × Answer C))
    (sealed : List (Bytes × Bytes × Bytes)) (hsealed : ∀ e ∈ sealed, ∃ n, e.2.1 = Wire.nonce12 0 n)
    (env : CEnv C) (c c' : Client) (s s' : CConn × CShared) (n : Nat) (bs : Bytes) (err : Option Err)
    (hc : OnlyReads C (Unforged C (Sys.run M timeout (Sys.start ttl closers) acts).world.log sealed) c)
    (hok : Unforged C (Sys.run M timeout (Sys.start ttl closers) acts).world.log sealed c s)
    (h : runClient env (c.read n) s = (.val ((bs, err), c'), s')) :
    bs = [] ∧ ∃ e, err = some e := by
  have h0 : c.lastSentCounter = 0 ∧ c.buffer = [] := by
    clear h hok
    induction hc with
    | dialled h =>
      obtain ⟨session, s'', -, rfl⟩ := dial_ok h
      exact ⟨rfl, rfl⟩
    | pooled => exact ⟨rfl, rfl⟩
    | called _ hok h ih =>
      exact (onlyReads_inv hM timeout ttl closers acts sealed hsealed _ _ _ _ _ _ _ _ ih hok h).2
  exact (onlyReads_inv hM timeout ttl closers acts sealed hsealed env c c' s s' n bs err h0 hok h).1

end

/-- The hypotheses can be met: a second connection of the pool receives the reply to the message that the
first one sent, which is genuine.  Its `Read` fails, and so does the next; the first connection's returns
"pon". -/
example :
    let c : Client := { newClient (.ok (str "example.com")) {} with session := some ⟨beEnc 32 14, EndToEndExample.id, 0⟩ }
    let s : CConn × CShared := (EndToEndExample.worker.conn, ⟨[1], EndToEndExample.clientSealed⟩)
    OnlyReads Toy.crypto (Unforged Toy.crypto EndToEndExample.server.log EndToEndExample.clientSealed) c ∧
    Unforged Toy.crypto EndToEndExample.server.log EndToEndExample.clientSealed c s ∧
    (∀ e ∈ EndToEndExample.clientSealed, ∃ n, e.2.1 = Wire.nonce12 0 n) ∧
    (match runClient HandshakeExample.env (c.read 3) s with
      | (.val (([], some _), c'), s') => match runClient HandshakeExample.env (c'.read 3) s' with
        | (.val (([], some _), _), _) => true
        | _ => false
      | _ => false) = true ∧
    (match runClient HandshakeExample.env ({ c with lastSentCounter := 1 }.read 3) s with
      | (.val ((bs, none), _), _) => bs == str "pon"
      | _ => false) = true := by
  refine ⟨.pooled _ _ _, ?_, ?_, by decide +kernel, by decide +kernel⟩
  · intro session key hs hk
    cases hs
    rw [EndToEndExample.derived] at hk
    cases hk
    have : EndToEndExample.worker.conn.net.stream = EndToEndExample.received.map Sum.inl := by decide +kernel
    show ReplyGenuine _ _ _ _ EndToEndExample.worker.conn.net.stream
    rw [this]
    exact EndToEndExample.reply_genuine
  · intro e he
    rw [EndToEndExample.clientSealed, List.mem_singleton] at he
    subst he
    exact ⟨1, rfl⟩

end Goe2ee
