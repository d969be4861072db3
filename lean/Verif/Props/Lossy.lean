import Verif.Proofs.Lossy
import Verif.Props.Conversation

/-!
# C135, C136: conversations over UDP

Datagrams get lost, and no datagram is longer than 65507 octets (65535 minus the headers of IPv4 and UDP).
-/

set_option autoImplicit false

namespace Goe2ee

section
variable {C : Crypto}

/-- The application replies, within the limits of the protocol, and in time. -/
def Prompt (timeout : Nat) (ans : Nat → Answer C) : Prop :=
  (∀ p, (ans p).write = (0, none) ∧ ∃ written, (ans p).handle = .reply written ∧ written.length + 16 ≤ 2 ^ 30) ∧
  (0 < timeout → ∀ i j, (ans i).tick + (ans j).tick ≤ timeout)

theorem servesUDP {timeout : Nat} {host : Bytes} {r : Ref} {session : ClientSession} {v : BitVec 64} {s : Seq} {t : Nat}
    {window : ReplayWindow} (hs : Reachable C s.world)
    (ht : s.world.table (sessionKey C host session.id) = some (r, t))
    (hh : s.world.heap[r]? = some (session.secret, window))
    (hacc : ∀ c ∈ acceptedOf r s.world.log, c ≤ v.toNat) (hpdl : timeout = 0 → s.world.packetBy = none) :
    ServesUDP C timeout host r session v s := by
  refine ⟨⟨t, ht⟩, ⟨window, _, hh, hs.windows.1 r _ hh, ?_⟩, hpdl⟩
  rcases Nat.eq_zero_or_pos (largest (acceptedOf r s.world.log)) with h | h
  · omega
  · exact hacc _ (largest_mem (by omega))

/-! ## C135 -/

/-- **C135**, over UDP, from any reachable state of the server and any client that shares a session with it (as in C24),
whatever datagrams the network loses: a message whose request and reply arrive is handed to the application and its reply
is read completely, whatever was lost before; a message whose request or reply is lost makes `Read` return an error that
wraps `os.ErrDeadlineExceeded`; and the application is called exactly for the messages whose request arrived, in order. -/
theorem C135_loss (hC : C.Lawful) (env : CEnv C) (timeout : Nat) (ans : Nat → Answer C) (host : Bytes) (e : Ends)
    (hs : Reachable C e.server.world) (session : ClientSession) (r : Ref) (t : Nat) (window : ReplayWindow)
    (v : BitVec 64) (rounds : List LossyRound)
    -- the client
    (hwd : env.writeDeadline = none) (hrd : env.readDeadline = none) (hwr : env.write = (0, none))
    (hsession : e.client.session = some session) (hbuf : e.client.buffer = [])
    (hexpect : e.client.expectReply = true)
    (hcounter : e.shared.counters[session.sendCounter]? = some v)
    (hnet : ∃ connRead readBuffer, e.conn.net = .udp connRead readBuffer [])
    (hv : v.toNat + rounds.length < 2 ^ 64)
    (hm : ∀ round ∈ rounds, round.message.length + 16 ≤ 2 ^ 30)
    -- the server
    (ht : e.server.world.table (sessionKey C host session.id) = some (r, t))
    (hh : e.server.world.heap[r]? = some (session.secret, window))
    (hacc : ∀ c ∈ acceptedOf r e.server.world.log, c ≤ v.toNat)
    (hpdl : timeout = 0 → e.server.world.packetBy = none)
    (hans : Prompt timeout ans)
    (hsizes : ∀ round ∈ rounds, ∀ p written, (ans p).handle = .reply written →
      written ≠ [] ∧ written.length ≤ round.sizes.sum) :
    ∃ out calls e', lossyConverse env timeout ans host rounds e = some (out, e') ∧
      handledFor r e'.server.world.log = handledFor r e.server.world.log ++ calls ∧
      Outcomes rounds out calls := by
  refine lossyConverse_linked (session := session) hC hwd hrd hwr hans.2 rounds v e
    ⟨hsession, hbuf, hexpect, hcounter, hnet⟩ (servesUDP hs ht hh hacc hpdl) hm (fun round hr p => ?_) hv
  obtain ⟨h1, written, h2, h3⟩ := hans.1 p
  exact ⟨h1, written, h2, (hsizes round hr p written h2).1, h3, (hsizes round hr p written h2).2⟩

/-! ## C136 -/

/-- **C136**: the reply of the application to a message that arrived in a datagram is sent, or the client is told that it
was not, whatever the application replies within the limits of the protocol. -/
def C136_claim : Prop :=
  ∀ (C : Crypto) (timeout : Nat) (ans : Nat → Answer C) (host : Bytes) (s : Seq) (session : ClientSession) (r : Ref)
    (t : Nat) (window : ReplayWindow) (v : BitVec 64) (key message : Bytes), C.Lawful → Reachable C s.world →
    s.world.table (sessionKey C host session.id) = some (r, t) →
    s.world.heap[r]? = some (session.secret, window) → (∀ c ∈ acceptedOf r s.world.log, c ≤ v.toNat) →
    (timeout = 0 → s.world.packetBy = none) → Prompt timeout ans → v.toNat + 1 < 2 ^ 64 →
    deriveKey C session.secret kdfInfo aesKeySize = .ok key → message.length + 50 ≤ 65507 →
    ∃ datagram, (answerWithin 65507 timeout ans host (Wire.processRequest true session.id.val (v + 1).toNat
      (C.aeadSeal key (Wire.nonce12 0 (v + 1).toNat) message)) s).1 = [datagram]

/-- **C136**, what holds: the reply is sent if and only if it has at most 65474 octets (33 less than a datagram); otherwise
nothing is sent, although the application was called. -/
theorem C136_within_partial (hC : C.Lawful) (timeout : Nat) (ans : Nat → Answer C) (host : Bytes) (s : Seq)
    (hs : Reachable C s.world) (session : ClientSession) (r : Ref) (t : Nat) (window : ReplayWindow) (v : BitVec 64)
    (key message : Bytes)
    (ht : s.world.table (sessionKey C host session.id) = some (r, t))
    (hh : s.world.heap[r]? = some (session.secret, window)) (hacc : ∀ c ∈ acceptedOf r s.world.log, c ≤ v.toNat)
    (hpdl : timeout = 0 → s.world.packetBy = none) (hans : Prompt timeout ans) (hv : v.toNat + 1 < 2 ^ 64)
    (hk : deriveKey C session.secret kdfInfo aesKeySize = .ok key) (hm : message.length + 50 ≤ 65507) :
    ∃ p written s', (ans p).handle = .reply written ∧
      answerWithin 65507 timeout ans host (Wire.processRequest true session.id.val (v + 1).toNat
        (C.aeadSeal key (Wire.nonce12 0 (v + 1).toNat) message)) s =
      (if written.length ≤ 65474 then
        [Wire.processResponse (v + 1).toNat (C.aeadSeal key (Wire.nonce12 1 (v + 1).toNat) written)] else [], s') ∧
      handledFor r s'.world.log = handledFor r s.world.log ++ [(message, .reply written)] := by
  obtain ⟨p, written, s', h1, h2, h3⟩ := answerWithin_reply hC 65507 message (servesUDP hs ht hh hacc hpdl) hk (by omega)
    (fun p => ⟨(hans.1 p).1, (hans.1 p).2.imp fun _ h => h.1⟩) hans.2 hv
  refine ⟨p, written, s', h1, ?_, h3⟩
  rw [h2]
  by_cases h : written.length ≤ 65474
  · rw [if_pos h, if_pos (by omega)]
  · rw [if_neg h, if_neg (by omega)]

end

namespace LossyExample
open HandshakeExample

/-- The server of the examples: it signs with an Ed25519 key; its application replies `written`. -/
def ans (written : Bytes) : Nat → Answer Toy.crypto := fun _ => { OnceExample.answer (.error .eof) with
    sign := fun hash content => signServer (C := Toy.crypto) (.ed25519 (77 : BitVec 256)) 3 hash content
    handle := .reply written }

/-- A dial over UDP, and then five messages of which two are lost in one way or the other: the results of the reads, and
what the application was called with. -/
def talk : Option (List (Bytes × Bool) × List (Bytes × HRes)) :=
  let s := serveOne 5000 (ans (str "pong")) (str "10.0.0.1")
    (SessionExample.start SessionExample.world (Wire.setupRequest (uuidOf ⟨List.replicate 16 1, rfl⟩).val
      (Toy.crypto.marshalEPub (5 : BitVec 256))))
  match runClient env (dial true (.ok (str "example.com")) {}) (start (.udp false [] [.ok s.conn.output])) with
  | (.val (.ok c), cs) =>
    (lossyConverse env 5000 (ans (str "pong")) (str "10.0.0.1")
      [⟨str "one", .delivered, [9]⟩, ⟨str "two", .requestLost, [9]⟩, ⟨str "three", .delivered, [2, 2]⟩,
        ⟨str "four", .replyLost, [9]⟩, ⟨str "five", .delivered, [9]⟩]
      { client := c, conn := cs.1, shared := cs.2, server := s }).map fun q =>
        (q.1.map fun g => (g.1, g.2 == some .eof), handledFor 1 q.2.server.world.log)
  | _ => none

/-- The first, third and fifth reply are read; the application does not see the second message. -/
example : talk = some ([(str "pong", true), ([], false), (str "pong", true), ([], false), (str "pong", true)],
    [(str "one", .reply (str "pong")), (str "three", .reply (str "pong")), (str "four", .reply (str "pong")),
      (str "five", .reply (str "pong"))]) := by decide +kernel

end LossyExample

/-- **C136** is false: a reply of 65475 octets is dropped, and the client is not told. -/
theorem C136_refuted : ¬ C136_claim := by
  intro h
  obtain ⟨key, hk, -⟩ := newGCM_ok Toy.lawful (beEnc 32 14)
  have hlen : (List.replicate 65475 (0 : Byte)).length = 65475 := List.length_replicate
  have hans : Prompt 5000 (LossyExample.ans (List.replicate 65475 (0 : Byte))) :=
    ⟨fun p => ⟨rfl, _, rfl, by rw [hlen]; decide⟩, fun _ i j => show 1 + 1 ≤ 5000 by decide⟩
  have ht : (SessionExample.start SessionExample.world []).world.table
      (sessionKey Toy.crypto (str "10.0.0.1") OnceExample.id) = some (0, 2) := by decide +kernel
  have hh : (SessionExample.start SessionExample.world []).world.heap[0]? = some (beEnc 32 14, .fresh) := by
    decide +kernel
  have hacc : ∀ c ∈ acceptedOf 0 (SessionExample.start SessionExample.world []).world.log, c ≤ (0 : BitVec 64).toNat := by
    decide +kernel
  let session : ClientSession := { id := OnceExample.id, secret := beEnc 32 14, sendCounter := 0 }
  obtain ⟨datagram, hd⟩ := h Toy.crypto 5000 (LossyExample.ans (List.replicate 65475 (0 : Byte))) (str "10.0.0.1")
    (SessionExample.start SessionExample.world []) session 0 2 .fresh 0 key (str "ping") Toy.lawful
    SessionExample.reachable ht hh hacc (by simp) hans (by decide) hk (by decide +kernel)
  obtain ⟨p, written, s', h1, h2, -⟩ := C136_within_partial Toy.lawful 5000
    (LossyExample.ans (List.replicate 65475 (0 : Byte))) (str "10.0.0.1") (SessionExample.start SessionExample.world [])
    SessionExample.reachable session 0 2 .fresh 0 key (str "ping") ht hh hacc (by simp) hans (by decide) hk
    (by decide +kernel)
  have hw : written = List.replicate 65475 (0 : Byte) := by
    simp only [LossyExample.ans] at h1
    exact (HRes.reply.inj h1).symm
  rw [h2, if_neg (by rw [hw, hlen]; decide)] at hd
  cases hd

end Goe2ee
