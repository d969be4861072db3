import Verif.Proofs.Veil
import Verif.Props.Once

/-!
# C166: what the replies of the application decide
-/

set_option autoImplicit false

namespace Goe2ee

section
variable {C : Crypto}

/-- **C166**: two servers whose applications, for the same calls, give replies of the same length (or both fail, or both
panic), under the same schedule and the same traffic, are in the same state at any time, except for the replies themselves:
the same sessions with the same secrets and replay windows, the same requests accepted, the same calls with the same
messages, the same keys and nonces.  What each of their goroutines has sent has the same length, and is the same except for
the encrypted replies. -/
theorem C166_replies (hC : C.Lawful) (timeout ttl closers : Nat) {acts acts' : List (Nat × Answer C)}
    (h : OtherReplies acts acts') (s s' : Sys C) (hs : s = Sys.run (inMemory C) timeout (Sys.start ttl closers) acts)
    (hs' : s' = Sys.run (inMemory C) timeout (Sys.start ttl closers) acts') :
    s'.world = { s.world with log := s'.world.log } ∧
    s'.world.log.map Event.veil = s.world.log.map Event.veil ∧
    s'.threads.length = s.threads.length ∧
    ∀ (i : Nat) (t t' : Thread C), s.threads[i]? = some t → s'.threads[i]? = some t' →
      VeiledOctets C t.conn.output t'.conn.output ∧ t.conn.output.length = t'.conn.output.length ∧
      VeiledDatagrams C t.conn.sent t'.conn.sent ∧ t.conn.sent.map List.length = t'.conn.sent.map List.length ∧
      t'.conn.input = t.conn.input ∧ t'.conn.closed = t.conn.closed := by
  subst hs hs'
  obtain ⟨h1, h2, h3⟩ := sys_run_veiled hC h (sys_start_veiled ttl closers) timeout
  refine ⟨h1.1, h1.2, h2, fun i t t' ht ht' => ?_⟩
  have hc := (h3 i t t' ht ht').conn
  refine ⟨hc.output, hc.output.length hC, hc.sent, ?_, hc.input, hc.closed⟩
  apply List.ext_getElem (by simp [hc.sent.1])
  intro n hn hn'
  rw [List.length_map] at hn hn'
  rw [List.getElem_map, List.getElem_map]
  refine (hc.sent.2 (t.conn.sent[n], t'.conn.sent[n]) ?_).length hC
  rw [List.mem_iff_getElem]
  exact ⟨n, by rw [List.length_zip]; omega, by simp [List.getElem_zip]⟩

end

namespace VeilExample

/-- The schedule of `OnceExample` with another application. -/
def acts (res : HRes) : List (Nat × Answer Toy.crypto) :=
  OnceExample.schedule.map fun act => (act.1, { act.2 with handle := res })

/-- The final state: secrets, the veiled log, what was sent on the connections. -/
def final (res : HRes) : List Bytes × List Event × List Bytes :=
  let s := Sys.run (inMemory Toy.crypto) 5000 (Sys.start 0 0) (acts res)
  (s.world.heap.map (·.1), s.world.log, s.threads.map (·.conn.output))

/-- The conditions hold for two replies of four octets. -/
example : OtherReplies (acts (.reply (str "pong"))) (acts (.reply (str "nope"))) := by
  have h : ∀ acts : List (Nat × Answer Toy.crypto),
      OtherReplies (acts.map fun act => (act.1, { act.2 with handle := .reply (str "pong") }))
        (acts.map fun act => (act.1, { act.2 with handle := .reply (str "nope") })) := by
    intro acts
    induction acts with
    | nil => exact .nil
    | cons act acts ih => exact .cons ⟨.reply _ _ (by decide +kernel) (by decide +kernel), rfl⟩ ih
  exact h _

/-- The octets and the calls differ, the lengths and the rest do not; a longer reply shows. -/
example : (final (.reply (str "pong"))).1 = (final (.reply (str "nope"))).1 ∧
    (final (.reply (str "pong"))).2.1.map Event.veil = (final (.reply (str "nope"))).2.1.map Event.veil ∧
    (final (.reply (str "pong"))).2.2[2]? ≠ (final (.reply (str "nope"))).2.2[2]? ∧
    (final (.reply (str "pong"))).2.2.map List.length = (final (.reply (str "nope"))).2.2.map List.length ∧
    (final (.reply (str "pong"))).2.2.map List.length ≠ (final (.reply (str "longer"))).2.2.map List.length := by
  decide +kernel

end VeilExample

end Goe2ee
