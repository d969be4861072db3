import Verif.Props.Errors

/-!
# C178: `Client.Read` as an `io.Reader`

The documentation of `io.Reader`: "It returns the number of bytes read (0 <= n <= len(p)) and any error
encountered", "The next Read should return 0, EOF", "Implementations of Read are discouraged from returning
a zero byte count with a nil error, except when len(p) == 0".
-/

set_option autoImplicit false

namespace Goe2ee

/-- The result of one `Read` with a buffer of `n` octets is one that `io.Reader` allows. -/
structure ReaderResult (n : Nat) (r : Bytes × Option Err) : Prop where
  /-- not more than the buffer holds -/
  fits : r.1.length ≤ n
  /-- not nothing without a reason -/
  progress : 0 < n → r.1 = [] → r.2 ≠ none
  /-- no data along with a failure (`io.Reader` would allow it) -/
  failure : ∀ e, r.2 = some e → e ≠ .eof → r.1 = []

/-- **C178**: `Read` keeps the contract of `io.Reader`; in particular after the end of file comes the end of file. -/
def C178_claim : Prop :=
  ∀ (C : Crypto) (env env' : CEnv C) (c c' c'' : Client) (s s' s'' : CConn × CShared) (n m : Nat)
    (r r' : Bytes × Option Err), C.Lawful → Used (C := C) c s →
    runClient env (c.read n) s = (.val (r, c'), s') → runClient env' (c'.read m) s' = (.val (r', c''), s'') →
    ReaderResult n r ∧ (r.2 = some .eof → r' = ([], some .eof))

section
variable {C : Crypto}

theorem readBuffer_result (c : Client) (n : Nat) : ReaderResult n (readBuffer c n).1 := by
  unfold readBuffer
  split
  · exact ⟨Nat.zero_le _, fun _ _ => Option.some_ne_none _, fun _ _ _ => rfl⟩
  · rename_i h
    dsimp only
    refine ⟨by simp; omega, fun hn h0 => ?_, fun e he hne => ?_⟩
    · exfalso
      dsimp only at h0
      apply h
      rcases List.take_eq_nil_iff.mp h0 with rfl | h1
      · omega
      · exact ⟨h1, hn⟩
    · dsimp only at he
      split at he
      · cases he; exact absurd rfl hne
      · cases he

/-- **C178**, what holds for every single `Read`: what it returns fits in the buffer, it returns nothing without an
error only if the buffer is empty, and data only without an error or with `io.EOF`.  Missing: the end of file is not
repeated (`C178_refuted`). -/
theorem C178_result_partial (env : CEnv C) (c c' : Client) (s s' : CConn × CShared) (n : Nat) (r : Bytes × Option Err)
    (h : runClient env (c.read n) s = (.val (r, c'), s')) : ReaderResult n r := by
  obtain ⟨s, w⟩ := s
  obtain ⟨s', w'⟩ := s'
  obtain ⟨-, -, -, ho⟩ := read_outcome h
  generalize hx : (r, c') = x at ho
  cases ho with
  | failed e _ => cases hx; exact ⟨Nat.zero_le _, fun _ _ => Option.some_ne_none _, fun _ _ _ => rfl⟩
  | buffered _ =>
    rw [show r = (readBuffer c n).1 from congrArg Prod.fst hx]
    exact readBuffer_result _ _
  | reply session header ct key message net =>
    rw [show r = (readBuffer { c with buffer := message } n).1 from congrArg Prod.fst hx]
    exact readBuffer_result _ _

/-- **C178**, an empty buffer: `Read` with `len(p) == 0` takes no data; what the application has not got yet stays
with the client, and a reply that arrives is kept for the next `Read`. -/
theorem C178_empty_buffer_partial (env : CEnv C) (c c' : Client) (s s' : CConn × CShared) (r : Bytes × Option Err)
    (h : runClient env (c.read 0) s = (.val (r, c'), s')) :
    r.1 = [] ∧ (c.buffer ≠ [] → c'.buffer = c.buffer) ∧ (r.2 = none → c'.buffer ≠ []) := by
  refine ⟨List.length_eq_zero_iff.mp (Nat.le_zero.mp (C178_result_partial env c c' s s' 0 r h).fits), ?_⟩
  obtain ⟨s, w⟩ := s
  obtain ⟨s', w'⟩ := s'
  obtain ⟨-, -, -, ho⟩ := read_outcome h
  generalize hx : (r, c') = x at ho
  cases ho with
  | failed e _ => cases hx; exact ⟨fun _ => rfl, fun h => by cases h⟩
  | buffered hb =>
    rw [readBuffer, if_neg (by simp)] at hx
    cases hx
    exact ⟨fun _ => rfl, fun _ => hb⟩
  | reply session header ct key message net hb =>
    rw [readBuffer, if_neg (by simp)] at hx
    cases hx
    refine ⟨fun h => absurd hb h, fun h h0 => ?_⟩
    dsimp only [List.drop_zero] at h h0
    rw [if_pos h0] at h
    cases h

/-- **C178**, after the end of file: nothing is buffered, and the next `Read` returns `io.EOF` again only along with
the whole of another authentic reply to the latest message, which it has taken from the connection. -/
theorem C178_after_eof (env env' : CEnv C) (c c' c'' : Client) (s s' s'' : CConn × CShared) (n m : Nat) (bs bs' : Bytes)
    (h : runClient env (c.read n) s = (.val ((bs, some .eof), c'), s'))
    (h' : runClient env' (c'.read m) s' = (.val ((bs', some .eof), c''), s'')) :
    ∃ session, c'.session = some session ∧ StartsWithReply C session c'.lastSentCounter s'.1.net.stream bs' := by
  have h1 := (C134_plain_partial env c c' s s' n bs h).1
  rcases (C134_plain_partial env' c' c'' s' s'' m bs' h').2 with ⟨h2, -⟩ | h2
  · exact absurd h1 h2
  · exact h2

end

namespace ReaderExample
open HandshakeExample

/-- The reply is read to its end; the next `Read` does not return `io.EOF`. -/
def eofTwice (c : Client) (s : CConn × CShared) : Bool :=
  match runClient env (c.read 10) s with
  | (.val ((bs, some .eof), c'), s') =>
    decide (bs = str "pong") &&
    match runClient env (c'.read 10) s' with
    | (.val (([], some e), _), _) => decide (e ≠ .eof)
    | _ => false
  | _ => false

/-- `Read` with an empty buffer keeps the reply; so does one with a short buffer. -/
example : ∃ c s, Used (C := Toy.crypto) c s ∧
    (match runClient env (c.read 0) s with
      | (.val (([], none), c'), s') =>
        match runClient env (c'.read 3) s' with
        | (.val ((bs, none), _), _) => decide (bs = str "pon")
        | _ => false
      | _ => false) = true :=
  ClientExample.used_dial (env := env) (udp := false)
    (P := fun c s => match runClient env (c.read 0) s with
      | (.val (([], none), c'), s') =>
        match runClient env (c'.read 3) s' with
        | (.val ((bs, none), _), _) => decide (bs = str "pon")
        | _ => false
      | _ => false)
    (s := ClientExample.net (str "pong")) (calls := [.write (str "ping")]) (by decide +kernel)

end ReaderExample

/-- **C178 is refuted**: after the end of the reply the next `Read` waits for another one, and reports what becomes of
that (here: the server closes the connection). -/
theorem C178_refuted : ¬ C178_claim := by
  intro h
  obtain ⟨c, s, hu, hP⟩ := ClientExample.used_dial (env := HandshakeExample.env) (udp := false)
    (P := ReaderExample.eofTwice) (s := ClientExample.net (str "pong")) (calls := [.write (str "ping")])
    (by decide +kernel)
  unfold ReaderExample.eofTwice at hP
  split at hP
  · rename_i bs c' s' heq
    rw [Bool.and_eq_true] at hP
    replace hP := hP.2
    split at hP
    · rename_i e c'' s'' heq'
      have := (h Toy.crypto _ _ c c' c'' s s' s'' 10 10 _ _ Toy.lawful hu heq heq').2 rfl
      simp only [decide_eq_true_eq] at hP
      exact hP (Option.some.inj (Prod.mk.inj this).2)
    · cases hP
  · cases hP

end Goe2ee
