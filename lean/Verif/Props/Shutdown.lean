import Verif.Proofs.Shutdown
import Verif.Props.Once

/-!
# Properties of `Server.Close`
-/

set_option autoImplicit false

namespace Goe2ee

/-! ## C51 -/

/-- The claim: under every schedule, no request is handed to the application after `Server.Close`
returned. -/
def C51_claim : Prop :=
  ∀ (C : Crypto) (timeout ttl closers : Nat) (acts : List (Nat × Answer C)),
    NothingAfterClose (Sys.run (inMemory C) timeout (Sys.start ttl closers) acts).world.log

namespace CloseExample
open OnceExample

/-- A UDP client sets up its session and sends a message; the goroutine for the message is started,
but `Server.Close` (goroutine 2) runs first. -/
def udp : List (Nat × Answer Toy.crypto) :=
  List.replicate 4 (1, answer (.ok (.udp (.ok (str "10.0.0.1")) setup))) ++
  List.replicate 40 (3, answer (.error .eof)) ++
  List.replicate 4 (1, answer (.ok (.udp (.ok (str "10.0.0.1")) message))) ++
  List.replicate 6 (2, answer (.error .eof)) ++
  List.replicate 40 (4, answer (.error .eof))

/-- The same over TCP. -/
def tcp : List (Nat × Answer Toy.crypto) :=
  List.replicate 5 (0, answer (.ok (.tcp (.ok (str "10.0.0.1")) [.data (setup ++ message)]))) ++
  List.replicate 20 (3, answer (.error .eof)) ++
  (List.replicate 60 [(2, answer (.error .eof)), (3, answer (.error .eof))]).flatten

end CloseExample

/-- **C51** is false of the code: `Server.Close` does not wait for the goroutines that serve
datagrams. -/
theorem C51_datagram_after_close : ¬ C51_claim := by
  intro h
  have h1 := h Toy.crypto 5000 0 1 CloseExample.udp
    ((Sys.run (inMemory Toy.crypto) 5000 (Sys.start 0 1) CloseExample.udp).world.log.take 1)
    ((Sys.run (inMemory Toy.crypto) 5000 (Sys.start 0 1) CloseExample.udp).world.log.drop 2)
    (by decide +kernel)
  exact absurd h1 (by decide +kernel)

/-- **C51** for TCP: under every schedule in which no datagram arrives, no request is handed to the
application after `Server.Close` returned, for every session manager that only reads and writes its
own table.  Missing: datagrams (`C51_datagram_after_close`). -/
theorem C51_nothing_after_close_partial {C : Crypto} {M : Manager C} (hM : M.Passive)
    (timeout ttl closers : Nat) (acts : List (Nat × Answer C)) (hno : ∀ act ∈ acts, NoDatagram act.2) :
    NothingAfterClose (Sys.run M timeout (Sys.start ttl closers) acts).world.log := by
  have hstart : Holds (roleA C) CloseInv (Sys.start ttl closers)
      (List.replicate (Sys.start (C := C) ttl closers).threads.length .other) := by
    refine ⟨by simp, ?_, ?_, rfl⟩
    · intro i t g ht hg
      rw [(List.mem_replicate.mp (List.mem_of_getElem? hg)).2]
      exact role_start ttl closers t (List.mem_of_getElem? ht)
    · have hrole : ∀ x, x ≠ .other → x ∉ List.replicate
          (Sys.start (C := C) ttl closers).threads.length Role.other :=
        fun x hx hm => hx (List.mem_replicate.mp hm).2
      have hlog : (Sys.start (C := C) ttl closers).world.log = [] := rfl
      refine ⟨?_, hrole _ (by simp), ?_, ?_, ?_⟩
      · rw [List.countP_replicate]
        rfl
      · rw [hlog]
        rintro (hx | hx | hx)
        · exact absurd hx (hrole _ (by simp))
        · exact absurd hx (hrole _ (by simp))
        · cases hx
      · exact fun _ => hrole _ (by simp)
      · rw [hlog]
        intro before after heq
        cases before <;> cases heq
  obtain ⟨gs, h⟩ := (close_keeps hM timeout).run acts hno _ _ hstart
  exact h.world.order

/-- Over TCP, `Server.Close` waits for the request being served. -/
example : (∀ act ∈ CloseExample.tcp, NoDatagram act.2) ∧
    (Sys.run (inMemory Toy.crypto) 5000 (Sys.start 0 1) CloseExample.tcp).world.log.map
      (fun e => (e.isInvoked, e == .closeReturned)) =
      [(false, false), (false, false), (true, false), (false, false), (false, true)] := by
  refine ⟨?_, by decide +kernel⟩
  intro act hm p hp
  simp only [CloseExample.tcp, List.mem_append, List.mem_replicate, List.mem_flatten] at hm
  rcases hm with (⟨-, rfl⟩ | ⟨-, rfl⟩) | ⟨l, ⟨-, rfl⟩, hm⟩
  · cases hp
    trivial
  · cases hp
  · simp only [List.mem_cons, List.not_mem_nil, or_false] at hm
    rcases hm with rfl | rfl <;> cases hp

end Goe2ee
