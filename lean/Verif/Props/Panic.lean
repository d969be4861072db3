import Verif.Proofs.Panic
import Verif.Props.Handler
import Verif.Props.Lossy

/-!
# C142: a panic of the application handler stays with its request
-/

set_option autoImplicit false

namespace Goe2ee

section
variable {C : Crypto}

/-- **C142**, the connection, under every schedule: when a call of the handler panics, the goroutine that made it writes
nothing any more and ends.  Over TCP it closes its connection; over UDP it has written nothing before, and sends no
datagram. -/
theorem C142_silence {M : Manager C} (hM : M.Passive) (timeout ttl closers : Nat) (acts more : List (Nat × Answer C))
    (i : Nat) (a : Answer C) (s : Sys C) (hs : s = Sys.run M timeout (Sys.start ttl closers) acts)
    (r : Ref) (counter : BitVec 64) (host id message : Bytes) (m : String)
    (hcall : (s.step M timeout (i, a)).world.log =
      s.world.log ++ [.invoked r counter host id message (.panic m)]) :
    ∃ t t', s.threads[i]? = some t ∧
      (Sys.run M timeout (s.step M timeout (i, a)) more).threads[i]? = some t' ∧
      t'.conn.writes = t.conn.writes ∧ t'.conn.output = t.conn.output ∧ t'.conn.sent = t.conn.sent ∧
      (t.conn.buffered = true → t.conn.writes = [] ∧ t.conn.sent = []) ∧
      (t.conn.buffered = false → 2 ≤ (more.filter fun act => act.1 = i).length → t'.conn.closed = true) ∧
      (3 ≤ (more.filter fun act => act.1 = i).length → t'.prog = .ret false ∧ t'.loop = .ret false) := by
  subst hs
  obtain ⟨t, t₁, h1, h2, h3, h4⟩ := panic_step (kind_run hM timeout acts _ (kind_start ttl closers)) hcall
  obtain ⟨t', h5, h6⟩ := h3.run (M := M) timeout i more _ 0 t₁ h2
  obtain ⟨h7, h8, h9, h10, h11⟩ := h6.conn
  rw [Nat.zero_add] at h10 h11
  exact ⟨t, t', h1, h5, h7, h8, h9, h4, h10, h11⟩

/-- **C142**, the others, under every schedule: what the goroutine does after the panic changes no session, starts no
goroutine, calls nobody, and leaves the other goroutines as they are. -/
theorem C142_others {M : Manager C} (hM : M.Passive) (timeout ttl closers : Nat) (acts more : List (Nat × Answer C))
    (i : Nat) (a : Answer C) (s : Sys C) (hs : s = Sys.run M timeout (Sys.start ttl closers) acts)
    (r : Ref) (counter : BitVec 64) (host id message : Bytes) (m : String)
    (hcall : (s.step M timeout (i, a)).world.log =
      s.world.log ++ [.invoked r counter host id message (.panic m)])
    (s' : Sys C) (hs' : s' = Sys.run M timeout (s.step M timeout (i, a)) more) (a' : Answer C) :
    (s'.step M timeout (i, a')).world.heap = s'.world.heap ∧ (s'.step M timeout (i, a')).world.table = s'.world.table ∧
      (s'.step M timeout (i, a')).world.log = s'.world.log ∧ (s'.step M timeout (i, a')).world.quit = s'.world.quit ∧
      (s'.step M timeout (i, a')).threads.length = s'.threads.length ∧
      ∀ j, j ≠ i → (s'.step M timeout (i, a')).threads[j]? = s'.threads[j]? := by
  subst hs
  obtain ⟨t, t₁, -, h2, h3, -⟩ := panic_step (kind_run hM timeout acts _ (kind_start ttl closers)) hcall
  obtain ⟨t', h5, h6⟩ := h3.run (M := M) timeout i more _ 0 t₁ h2
  rw [← hs'] at h5
  have hsp : s'.world.spawned = [] := by
    have hstep : ∀ (s : Sys C) act, s.world.spawned = [] → (s.step M timeout act).world.spawned = [] := by
      intro s act h
      unfold Sys.step
      split
      · exact h
      · rfl
    have hrun : ∀ (acts : List (Nat × Answer C)) (s : Sys C), s.world.spawned = [] →
        (Sys.run M timeout s acts).world.spawned = [] := by
      intro acts
      induction acts with
      | nil => exact fun s h => h
      | cons act acts ih => exact fun s h => ih _ (hstep s act h)
    rw [hs']
    exact hrun _ _ (hstep _ _ (hrun _ _ rfl))
  obtain ⟨-, h7, h8, h9, h10, h11⟩ := h6.step timeout a' s'.world
  rw [hsp] at h11
  unfold Sys.step
  simp only [h5, h11]
  refine ⟨h7, h8, h9, h10, by simp, fun j hj => ?_⟩
  rw [List.map_nil, List.append_nil, List.getElem?_set_ne (fun h => hj h.symm)]

/-- **C142**, the request: if serving a request on a TCP connection ends in a panic, not one octet was written in response
to it. -/
theorem C142_no_response {M : Manager C} (hM : M.Passive) (timeout : Nat) (ans : Nat → Answer C) (host : Except Err Bytes)
    (s s' : Seq) (m : String) (h : (connPass M host).run (seqI C timeout ans) s = (.panic m, s')) :
    s'.conn.writes = s.conn.writes ∧ s'.conn.output = s.conn.output :=
  panic_pass hM timeout ans host s s' m h

/-- **C142**, the connection over TCP with nothing else running: however the goroutine of a connection ends, by a return or by
a panic, the connection is closed then. -/
theorem C142_closed (M : Manager C) (timeout : Nat) (ans : Nat → Answer C) (host : Except Err Bytes) (fuel : Nat) (s s' : Seq)
    (ended : Ended) (h : serveConn C M timeout ans host fuel s = (ended, s')) (hend : ended ≠ .running) :
    s'.conn.closed = true := by
  induction fuel generalizing s with
  | zero => cases h; exact absurd rfl hend
  | succ fuel ih =>
    rw [serveConn] at h
    split at h
    · exact ih _ h
    · cases h; rfl
    · cases h; rfl

/-- **C142**, the client, over UDP (where there is no connection to close): from any reachable state of the server and any
client that shares a session with it.  The handler may panic, return errors and write nothing as it likes: every message of
a conversation is handed to it once and in order; the `Read` after a message for which it panicked fails when the read
deadline passes, and after every other message the client reads what `seenFor` says. -/
theorem C142_conversation (hC : C.Lawful) (env : CEnv C) (timeout : Nat)
    (ans : Nat → Answer C) (host : Bytes) (e : Ends) (hs : Reachable C e.server.world)
    (session : ClientSession) (r : Ref) (t : Nat) (window : ReplayWindow) (v : BitVec 64)
    (rounds : List (Bytes × List Nat))
    -- the client
    (hwd : env.writeDeadline = none) (hrd : env.readDeadline = none) (hwr : env.write = (0, none))
    (hsession : e.client.session = some session) (hbuf : e.client.buffer = [])
    (hexpect : e.client.expectReply = true)
    (hcounter : e.shared.counters[session.sendCounter]? = some v)
    (hv : v.toNat + rounds.length < 2 ^ 64)
    (hm : ∀ round ∈ rounds, round.1.length + 16 ≤ 2 ^ 30 ∧ ∃ n ns, round.2 = n :: ns ∧ 0 < n)
    -- the server
    (ht : e.server.world.table (sessionKey C host session.id) = some (r, t))
    (hh : e.server.world.heap[r]? = some (session.secret, window))
    (hacc : ∀ c ∈ acceptedOf r e.server.world.log, c ≤ v.toNat)
    (hpdl : timeout = 0 → e.server.world.packetBy = none)
    (hans : ∀ round ∈ rounds, ∀ p, (ans p).write = (0, none) ∧ Bearable round.2 (ans p).handle)
    (htime : 0 < timeout → ∀ i j, (ans i).tick + (ans j).tick ≤ timeout) :
    ∃ (outcomes : List HRes) (seen : List (Bytes × Option Err)) (e' : Ends),
      patientConverse env timeout ans host rounds e = some (seen, e') ∧ SeenAll outcomes seen ∧
      outcomes.length = rounds.length ∧ (∀ res ∈ outcomes, ∃ p, (ans p).handle = res) ∧
      handledFor r e'.server.world.log = handledFor r e.server.world.log ++ (rounds.map (·.1)).zip outcomes :=
  patientConverse_called (session := session) hC hwd hrd hwr htime rounds v e ⟨hsession, hbuf, hexpect, hcounter⟩
    (servesUDP hs ht hh hacc hpdl) hm hans hv

end

namespace PanicExample
open OnceExample

def boom : Answer Toy.crypto := { answer (.error .eof) with handle := .panic "boom" }

/-- A handshake over TCP, a message on the same connection whose handler panics, and then one in a datagram for which it
does not. -/
def schedule (more : Nat) : List (Nat × Answer Toy.crypto) :=
  (List.replicate 4 (0, answer (.ok (.tcp (.ok (str "10.0.0.1")) [.data (setup ++ message)])))) ++
  (List.replicate 3 (1, answer (.ok (.udp (.ok (str "10.0.0.1"))
    (newProcessRequest id 2 (Toy.crypto.aeadSeal key (Wire.nonce12 0 2) (str "ping"))).bytes)))) ++
  (List.replicate more (2, boom))

def handledIn (s : Sys Toy.crypto) : List (Bytes × HRes) := handledFor 0 s.world.log

/-- The call that panics is the effect after 28 others of this goroutine; then the connection is closed, and the handshake
was the only request on it that was answered. -/
example : handledIn (Sys.run (inMemory Toy.crypto) 5000 (Sys.start 0 0) (schedule 28)) = [] ∧
    handledIn (Sys.run (inMemory Toy.crypto) 5000 (Sys.start 0 0) (schedule 29)) = [(str "ping", .panic "boom")] ∧
    ((Sys.run (inMemory Toy.crypto) 5000 (Sys.start 0 0) (schedule 31)).threads[2]?.map fun t =>
      (t.conn.writes.length, t.conn.closed)) = some (1, true) := by decide +kernel

/-- The session is still there: the datagram is answered. -/
example : ((Sys.run (inMemory Toy.crypto) 5000 (Sys.start 0 0)
      (schedule 31 ++ List.replicate 40 (3, answer (.error .eof)))).threads[3]?.map fun t => t.conn.sent.length) =
    some 1 := by decide +kernel

/-- The connection with nothing else running: it ends with the panic, and is closed. -/
example : ((serveConn Toy.crypto (inMemory Toy.crypto) 5000 (fun _ => boom) (.ok (str "10.0.0.1")) 3
    (SessionExample.start SessionExample.world (setup ++ message))).1,
    (serveConn Toy.crypto (inMemory Toy.crypto) 5000 (fun _ => boom) (.ok (str "10.0.0.1")) 3
    (SessionExample.start SessionExample.world (setup ++ message))).2.conn.closed) = (.panicked "boom", true) := by
  decide +kernel

open HandshakeExample in
/-- A handshake over UDP, then three messages: the handler panics for the second. -/
def talk : Option (List (Bytes × Option Err) × List (Bytes × HRes)) :=
  let ans : Nat → Answer Toy.crypto := fun p => { OnceExample.answer (.error .eof) with
      handle := if p < 15 ∨ 22 < p then .reply (str "pong") else .panic "boom"
      sign := fun hash content => signServer (C := Toy.crypto) (.ed25519 (77 : BitVec 256)) 3 hash content }
  let s := serveOne 5000 ans (str "10.0.0.1")
    (SessionExample.start SessionExample.world (Wire.setupRequest (uuidOf ⟨List.replicate 16 1, rfl⟩).val
      (Toy.crypto.marshalEPub (5 : BitVec 256))))
  match runClient env (dial true (.ok (str "example.com")) {}) (start (.udp false [] [.ok s.conn.output])) with
  | (.val (.ok c), cs) =>
    (patientConverse env 5000 ans (str "10.0.0.1") [(str "one", [9]), (str "two", [9]), (str "three", [9, 9])]
      { client := c, conn := cs.1, shared := cs.2, server := s }).map fun q =>
        (q.1, handledFor 1 q.2.server.world.log)
  | _ => none

example : talk = some
    ([(str "pong", some .eof), ([], some (.wrap "failed to parse response" (.wrap "failed to read flags" .timeout))),
      (str "pong", some .eof)],
     [(str "one", .reply (str "pong")), (str "two", .panic "boom"), (str "three", .reply (str "pong"))]) := by
  decide +kernel

end PanicExample

end Goe2ee
