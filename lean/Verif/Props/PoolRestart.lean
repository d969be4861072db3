import Verif.Props.Pool
import Verif.Props.LostSession

/-!
# C159: a pool and a server that was restarted

The sessions of a server are in its memory: a server that was restarted knows none of those that were set up before.  In the
model of the pool sessions are numbered in the order of the handshakes.
-/

set_option autoImplicit false

namespace Goe2ee

/-- The session (its number) of a client. -/
def sessionNumber (w : PWorld) (c : Nat) : Option Nat := (w.clients[c]?).bind (·.session)

/-- **C159**: a pool can be used again after the server was restarted.  Whatever happened until then, it is possible that
`Get` returns a client with a session that was set up afterwards. -/
def C159_claim : Prop :=
  ∀ (cfg : PoolCfg) (n : Nat) (acts : List (Nat × PEnv)), 0 < cfg.maxOpen → 0 < n →
    ∃ more, ∃ c ∈ (careful cfg n (acts ++ more)).world.lent, ∃ k,
      sessionNumber (careful cfg n (acts ++ more)).world c = some k ∧ (careful cfg n acts).world.handshakes ≤ k

/-- **C159**, what is true instead: once a handshake succeeded, no schedule and no behaviour of the network makes `Get`
return a client with a newer session. -/
theorem C159_never (cfg : PoolCfg) (n : Nat) (acts more : List (Nat × PEnv)) (h0 : 0 ≤ cfg.maxOpen)
    (hs : 0 < (careful cfg n acts).world.handshakes) (c k : Nat) (hc : c ∈ (careful cfg n (acts ++ more)).world.lent)
    (hk : sessionNumber (careful cfg n (acts ++ more)).world c = some k) :
    k < (careful cfg n acts).world.handshakes := by
  have h := (C45_one_session cfg n (acts ++ more) h0).2 c hc
  unfold sessionNumber at hk
  cases hw : (careful cfg n (acts ++ more)).world.clients[c]? with
  | none => rw [hw] at hk; cases hk
  | some p =>
    rw [hw] at h hk
    have h1 : p.session = some 0 := Option.some.inj h
    have h2 : p.session = some k := hk
    rw [h1] at h2
    cases h2
    exact hs

/-- **C159 is refuted**: after one `Get` every client that the pool will ever return has the session of that `Get`. -/
theorem C159_refuted : ¬ C159_claim := by
  intro h
  obtain ⟨more, c, hc, k, hk, hle⟩ := h ⟨1, 1⟩ 1 (go 0 13) (by decide) (by decide)
  exact absurd (C159_never ⟨1, 1⟩ 1 (go 0 13) more (by decide) (by decide +kernel) c k hc hk) (by omega)

section
variable {C : Crypto}

/-- **C159**, what this means for messages: whichever client the pool returns, at any time before it is closed, if the server
does not know the session of the pool's first handshake, then every message that is written is refused, and the server
does not know the session afterwards either.  `session` maps the number of a session to what it is. -/
theorem C159_refused (hC : C.Lawful) (cfg : PoolCfg) (n : Nat) (acts : List (Nat × PEnv)) (h0 : 0 ≤ cfg.maxOpen) (c : Nat)
    (hc : c ∈ (careful cfg n acts).world.lent) (session : Nat → ClientSession)
    (env : CEnv C) (timeout : Nat) (ans : Nat → Answer C) (host : Bytes) (e : Ends) (v : BitVec 64) (rounds : List Round)
    -- the client
    (hsession : e.client.session = (sessionNumber (careful cfg n acts).world c).map session)
    (hwd : env.writeDeadline = none) (hrd : env.readDeadline = none) (hwr : env.write = (0, none))
    (hbuf : e.client.buffer = [])
    (hcounter : e.shared.counters[(session 0).sendCounter]? = some v) (hv : v.toNat + rounds.length < 2 ^ 64)
    (hf : ∀ round ∈ rounds, round.faithful ∧ round.message.length + 16 ≤ 2 ^ 30 ∧ round.sizes ≠ [])
    -- the server, after the restart
    (ht : e.server.world.table (sessionKey C host (session 0).id) = none)
    (hopen : e.server.world.quit = false) (hdl : timeout = 0 → e.server.conn.deadline = none)
    (hpdl : timeout = 0 → e.server.world.packetBy = none)
    (hans : ∀ p, (ans p).write = (0, none))
    (htime : 0 < timeout → ∀ i j, (ans i).tick + (ans j).tick ≤ timeout) :
    ∃ e', converse env false timeout ans host rounds e = some (rounds.map fun _ => ([], some refusedError), e') ∧
      e'.server.world.log = e.server.world.log ∧ e'.server.world.table = e.server.world.table := by
  have h := (C45_one_session cfg n acts h0).2 c hc
  have h1 : sessionNumber (careful cfg n acts).world c = some 0 := by
    unfold sessionNumber
    cases hw : (careful cfg n acts).world.clients[c]? with
    | none => rw [hw] at h; cases h
    | some p =>
      rw [hw] at h
      exact Option.some.inj h
  rw [h1] at hsession
  obtain ⟨e', h2, h3, -, h4, -⟩ := C99_dead hC env false timeout ans host e (session 0) v rounds hwd hrd hwr hsession hbuf
    hcounter hv hf ht (fun _ => hopen) (fun _ => hdl) hpdl hans htime
  exact ⟨e', h2, h3, h4⟩

/-- **C159** as far as it holds: a connection that breaks while the server keeps the session does no harm.  Whichever client
the pool returns, at any time before it is closed, if the server stores the session of the pool's first handshake, the
message is handled and the reply is read. -/
theorem C159_stored_partial (hC : C.Lawful) (cfg : PoolCfg) (n : Nat) (acts : List (Nat × PEnv)) (h0 : 0 ≤ cfg.maxOpen)
    (c : Nat) (hc : c ∈ (careful cfg n acts).world.lent) (session : Nat → ClientSession)
    (env : CEnv C) (timeout : Nat) (ans : Nat → Answer C) (host : Bytes) (e : Ends) (hs : Reachable C e.server.world)
    (r : Ref) (t : Nat) (window : ReplayWindow) (v : BitVec 64) (round : Round)
    (hsession : e.client.session = (sessionNumber (careful cfg n acts).world c).map session)
    (hwd : env.writeDeadline = none) (hrd : env.readDeadline = none) (hwr : env.write = (0, none))
    (hbuf : e.client.buffer = []) (hexpect : e.client.expectReply = true)
    (hcounter : e.shared.counters[(session 0).sendCounter]? = some v) (hv : v.toNat + 1 < 2 ^ 64)
    (hf : round.faithful) (hm : round.message.length + 16 ≤ 2 ^ 30)
    (ht : e.server.world.table (sessionKey C host (session 0).id) = some (r, t))
    (hh : e.server.world.heap[r]? = some ((session 0).secret, window))
    (hacc : ∀ c ∈ acceptedOf r e.server.world.log, c ≤ v.toNat)
    (hopen : e.server.world.quit = false) (hdl : timeout = 0 → e.server.conn.deadline = none)
    (hpdl : timeout = 0 → e.server.world.packetBy = none)
    (hans : Healthy timeout ans [round]) :
    ∃ written e', converse env false timeout ans host [round] e = some ([(written, some .eof)], e') ∧
      handledFor r e'.server.world.log = handledFor r e.server.world.log ++ [(round.message, .reply written)] := by
  have h := (C45_one_session cfg n acts h0).2 c hc
  have h1 : sessionNumber (careful cfg n acts).world c = some 0 := by
    unfold sessionNumber
    cases hw : (careful cfg n acts).world.clients[c]? with
    | none => rw [hw] at h; cases h
    | some p =>
      rw [hw] at h
      exact Option.some.inj h
  rw [h1] at hsession
  exact C99_stored_partial hC env false timeout ans host e hs (session 0) r t window v round hwd hrd hwr hsession hbuf hexpect
    hcounter hv hf hm ht hh hacc hopen hdl hpdl hans

end

/-! ## Examples -/

/-- One client was lent; its connection breaks and is closed by the pool (it keeps no idle clients); the next `Get` dials
again, without a handshake. -/
example :
    let w := (careful ⟨0, 2⟩ 1 (go 0 13 ++ go 0 8 { cmd := .close 0 } ++ go 0 13)).world
    w.lent = [0, 1] ∧ sessionNumber w 1 = some 0 ∧ w.handshakes = 1 := by decide +kernel

/-- Closing the pool helps: the next `Get` sets up a session. -/
example :
    let w := (PoolSys.run ⟨0, 2⟩ (poolStart [.user false, .closer])
      (go 0 13 ++ go 0 8 { cmd := .close 0 } ++ go 1 20 ++ go 0 13)).world
    w.lent = [0, 1] ∧ sessionNumber w 1 = some 1 ∧ w.handshakes = 2 := by decide +kernel

end Goe2ee
