import Verif.Model.FetcherCache

/-!
# What a caching key fetcher should do, in terms of the calls and answers

Everything is stated on the log of calls, underlying answers, stores and returns.
-/

set_option autoImplicit false

namespace Goe2ee

/-- The goroutine an event belongs to. -/
def KEvent.who : KEvent → Nat
  | .called i _ _ => i
  | .asked i _ _ _ => i
  | .stored i _ _ _ => i
  | .returned i _ _ _ => i

/-- The events of one goroutine, in order. -/
def eventsOf (i : Nat) (log : List KEvent) : List KEvent := log.filter fun e => e.who == i

/-- Some goroutine got `key` from the underlying fetcher at time `ta` and, as its next event, stored
it with time `ts`. -/
def CachedAt (log : List KEvent) (host : Bytes) (key : PublicKey) (ta ts : Nat) : Prop :=
  ta ≤ ts ∧ ∃ (j : Nat) (a b : List KEvent),
    eventsOf j log = a ++ [.asked j host (.ok key) ta, .stored j host key ts] ++ b

/-- What a return at time `t` after the events `log` must be justified by: either an answer the
underlying fetcher gave in this very call, or a stored answer for the same host whose recorded time was
at most `ttl` old at some instant of the call. -/
def Justified (ttl : Int) (log : List KEvent) (i : Nat) (host : Bytes)
    (result : Except Err PublicKey) (t : Nat) : Prop :=
  ∃ (a : List KEvent) (t0 : Nat),
    (∃ e ta, result = .error e ∧ t0 ≤ ta ∧ ta ≤ t ∧
      eventsOf i log = a ++ [.called i host t0, .asked i host (.error e) ta]) ∨
    (∃ key ta ts, result = .ok key ∧ t0 ≤ ta ∧ ta ≤ ts ∧ ts ≤ t ∧
      eventsOf i log = a ++ [.called i host t0, .asked i host (.ok key) ta, .stored i host key ts]) ∨
    (∃ key ta ts tc, result = .ok key ∧ eventsOf i log = a ++ [.called i host t0] ∧
      CachedAt log host key ta ts ∧ t0 ≤ tc ∧ tc ≤ t ∧ (ttl ≤ 0 ∨ (tc : Int) ≤ ts + ttl))

/-- The last key the underlying fetcher gave for a host. -/
def lastAnswer (host : Bytes) : List KEvent → Option PublicKey
  | [] => none
  | e :: rest =>
    match lastAnswer host rest, e with
    | some key, _ => some key
    | none, .asked _ h (.ok key) _ => if h = host then some key else none
    | none, _ => none

/-- When the last call of `Fetch` of goroutine `i` began. -/
def callBegan (i : Nat) (log : List KEvent) : Option Nat :=
  (log.filterMap fun e =>
    match e with
    | .called j _ t => if j = i then some t else none
    | _ => none).getLast?

/-- One goroutine alone, with a stream of environment choices. -/
def kalone (i : Nat) : Interp KSig (KWorld × List KAnswer)
  | o, (w, a :: as) => ((kexec a i o w).1, (kexec a i o w).2, as)
  | o, (w, []) =>
    let r := kexec ⟨0, .error .eof, []⟩ i o w
    (r.1, r.2, [])

end Goe2ee
