import Verif.Props.CutWrite

/-!
# C106: connections that share a session and do not keep pace

The clients of a pool share one session and one counter (client.go:404); the server has one replay window
of 64 counters per session (secret/secret.go:16).
-/

set_option autoImplicit false

namespace Goe2ee

section
variable {C : Crypto}

/-- The server serves requests one after the other, each on a connection of its own or as a datagram. -/
def serveEach (timeout : Nat) (ans : Nat → Answer C) (host : Bytes) : List (List Ev) → Seq → Seq
  | [], s => s
  | evs :: rest, s => serveEach timeout ans host rest
      (serveOne timeout ans host { s with conn := .ofPeer (.tcp (.ok host) evs) })

/-- Each of these inputs delivers what the transport took in the corresponding call of its `Write`, and
nothing else. -/
def DeliversEach : List (List Ev) → List (Bytes × Nat × Option Err) → Prop
  | [], [] => True
  | evs :: inputs, w :: writes => Delivers evs (w.1.take w.2.1) [] ∧ DeliversEach inputs writes
  | _, _ => False

/-- The messages handed to the application for a session. -/
def messagesFor (r : Ref) (log : List Event) : List Bytes := (handledFor r log).map (·.1)

end

/-- **C106**: a message is not lost because other messages of the session overtake it.  A client writes a
message; then a client with the same session (another one of the pool, or the same) writes any number of
messages; all of that reaches the server, the message written first last.  Then all messages have been
handed to the application. -/
def C106_claim : Prop :=
  ∀ (C : Crypto) (timeout : Nat) (ans : Nat → Answer C) (host : Bytes) (env : CEnv C) (a a' b b' : Client)
    (conn conn₁ conn₂ conn₃ : CConn) (w w' w'' : CShared) (p : Bytes) (ps : List Bytes) (n : Nat)
    (session : ClientSession) (v : BitVec 64) (server : Seq) (r : Ref) (t : Nat) (window : ReplayWindow)
    (early : List (List Ev)) (late : List Ev),
    C.Lawful → Reachable C server.world →
    -- the session
    a.session = some session → b.session = some session → w.counters[session.sendCounter]? = some v →
    v.toNat + 1 + ps.length < 2 ^ 64 →
    server.world.table (sessionKey C host session.id) = some (r, t) →
    server.world.heap[r]? = some (session.secret, window) →
    (∀ c ∈ acceptedOf r server.world.log, c ≤ v.toNat) →
    -- the calls
    p.length + 16 ≤ 2 ^ 30 → (∀ p ∈ ps, p.length + 16 ≤ 2 ^ 30) → env.writeDeadline = none →
    env.write.1 = 0 →
    runClient env (a.write p) (conn, w) = (.val ((n, none), a'), (conn₁, w')) →
    runClient env (b.calls (ps.map .write)) (conn₂, w') = (.val b', (conn₃, w'')) →
    -- the network
    DeliversEach early (conn₃.writes.drop conn₂.writes.length) →
    DeliversEach [late] (conn₁.writes.drop conn.writes.length) →
    messagesFor r (serveEach timeout ans host (early ++ [late]) server).world.log =
      messagesFor r server.world.log ++ ps ++ [p]

section
variable {C : Crypto}

/-- The requests that `Write` sends for these messages, if the counter is `v`. -/
def writeRequests (C : Crypto) (c : Client) (session : ClientSession) (key : Bytes) :
    BitVec 64 → List Bytes → List Bytes
  | _, [] => []
  | v, p :: ps => writeRequest C c session key (v + 1) p :: writeRequests C c session key (v + 1) ps

theorem writeRequests_congr {c c' : Client} (h : c.expectReply = c'.expectReply) (session : ClientSession)
    (key : Bytes) : ∀ (ps : List Bytes) (v : BitVec 64),
      writeRequests C c session key v ps = writeRequests C c' session key v ps
  | [], _ => rfl
  | p :: ps, v => by
    rw [writeRequests, writeRequests, writeRequests_congr h session key ps, writeRequest, writeRequest, h]

theorem toNat_succ {v : BitVec 64} {n : Nat} (h : v.toNat + 1 + n < 2 ^ 64) : (v + 1).toNat = v.toNat + 1 := by
  rw [BitVec.toNat_add, show (1 : BitVec 64).toNat = 1 from rfl, Nat.mod_eq_of_lt (by omega)]

theorem succ_ne_zero {v : BitVec 64} {n : Nat} (h : v.toNat + 1 + n < 2 ^ 64) : v + 1 ≠ 0 := by
  intro h0
  have := toNat_succ h
  rw [h0] at this
  simp at this

/-- A sequence of calls of `Write`. -/
theorem writes_run (hC : C.Lawful) {env : CEnv C} (hd : env.writeDeadline = none) {session : ClientSession}
    {key : Bytes} (hk : deriveKey C session.secret kdfInfo aesKeySize = .ok key) :
    ∀ (ps : List Bytes) (c : Client) (conn : CConn) (w : CShared) (v : BitVec 64), c.session = some session →
      w.counters[session.sendCounter]? = some v → v.toNat + ps.length < 2 ^ 64 →
      (∀ p ∈ ps, p.length + 16 ≤ 2 ^ 30) →
      ∃ c' conn' w', runClient env (c.calls (ps.map .write)) (conn, w) = (.val c', (conn', w')) ∧
        conn'.writes = conn.writes ++ (writeRequests C c session key v ps).map fun q =>
          (q, q.length - env.write.1, env.write.2)
  | [], c, conn, w, v, _, _, _, _ => ⟨c, conn, w, rfl, by simp [writeRequests]⟩
  | p :: ps, c, conn, w, v, hs, hv, hmax, hp => by
    have hmax' : v.toNat + 1 + ps.length < 2 ^ 64 := by rw [List.length_cons] at hmax; omega
    have hlt : session.sendCounter < w.counters.length := (List.getElem?_eq_some_iff.mp hv).1
    have hv1 := toNat_succ hmax'
    have hrun := write_run (s := conn) (w := w) hC hd hs hk (v + 1)
      (by rw [List.getD_eq_getElem?_getD, hv]; rfl) (succ_ne_zero hmax')
      (p := p) (by have := hp p (by simp); omega)
    obtain ⟨c', conn', w', h1, h2⟩ := writes_run hC hd hk ps { c with lastSentCounter := v + 1 }
      { conn with net := conn.net.written, writes := conn.writes ++ [(writeRequest C c session key (v + 1) p,
          (writeRequest C c session key (v + 1) p).length - env.write.1, env.write.2)] }
      { counters := w.counters.set session.sendCounter (v + 1),
        sealed := w.sealed ++ [(key, Wire.nonce12 0 (v + 1).toNat, p)] } (v + 1) hs
      (List.getElem?_set_self hlt) (by rw [hv1]; exact hmax') (fun q hq => hp q (by simp [hq]))
    refine ⟨c', conn', w', ?_, ?_⟩
    · rw [List.map_cons, Client.calls, Client.call, runClient, Prog.bind_assoc, Prog.run_bind, hrun]
      exact h1
    · rw [h2]
      rw [writeRequests_congr (c := { c with lastSentCounter := v + 1 }) (c' := c) rfl]
      simp [writeRequests, List.append_assoc]

/-- A request that is served adds its message to those handed to the application. -/
theorem messagesFor_append (r : Ref) (log : List Event) (counter : BitVec 64) (host id message key : Bytes)
    (result : HRes) (expectReply : Bool) :
    messagesFor r (log ++ [.accepted r counter, .invoked r counter host id message result] ++
      replyEvents r key counter expectReply result) = messagesFor r log ++ [message] := by
  unfold messagesFor handledFor
  rw [List.filterMap_append, List.filterMap_append]
  rw [List.map_append, List.map_append]
  have h : ((replyEvents r key counter expectReply result).filterMap (fun e : Event => match e with
      | .invoked r' _ _ _ message res => if r' = r then some (message, res) else none
      | _ => none)).map (·.1) = ([] : List Bytes) := by
    unfold replyEvents
    split
    · split <;> rfl
    · rfl
  refine (congrArg _ h).trans ?_
  simp

/-- The counters that these messages get, latest first, before what was accepted. -/
def counted : Nat → Nat → List Nat → List Nat
  | _, 0, acc => acc
  | v, k + 1, acc => counted (v + 1) k ((v + 1) :: acc)

theorem mem_counted : ∀ (k v : Nat) (acc : List Nat) (c : Nat), c ∈ counted v k acc ↔
    c ∈ acc ∨ (v < c ∧ c ≤ v + k)
  | 0, v, acc, c => ⟨.inl, fun h => h.elim id fun h => absurd h (by omega)⟩
  | k + 1, v, acc, c => by
    rw [counted, mem_counted k, List.mem_cons]
    constructor
    · rintro ((h | h) | h)
      · right; omega
      · exact .inl h
      · right; omega
    · rintro (h | h)
      · exact .inl (.inr h)
      · by_cases hc : c = v + 1
        · exact .inl (.inl hc)
        · right; omega

theorem largest_le {l : List Nat} {n : Nat} (h : ∀ c ∈ l, c ≤ n) : largest l ≤ n := by
  by_cases h0 : largest l = 0
  · omega
  · exact h _ (largest_mem h0)

/-- The server serves requests with increasing counters. -/
theorem serve_requests (hC : C.Lawful) (timeout : Nat) (ans : Nat → Answer C) (host : Bytes) {env : CEnv C}
    (hw : env.write.1 = 0) {session : ClientSession} {key : Bytes}
    (hk : deriveKey C session.secret kdfInfo aesKeySize = .ok key) (c : Client) (r : Ref) :
    ∀ (ps : List Bytes) (v : BitVec 64) (early : List (List Ev)) (s : Seq) (t : Nat) (window : ReplayWindow)
      (acc : List Nat), v.toNat + ps.length < 2 ^ 64 → (∀ p ∈ ps, p.length + 16 ≤ 2 ^ 30) →
      DeliversEach early ((writeRequests C c session key v ps).map fun q =>
        (q, q.length - env.write.1, env.write.2)) →
      s.world.table (sessionKey C host session.id) = some (r, t) →
      s.world.heap[r]? = some (session.secret, window) → Represents window acc → (∀ x ∈ acc, x ≤ v.toNat) →
      ∃ t' window', (serveEach timeout ans host early s).world.table (sessionKey C host session.id) = some (r, t') ∧
        (serveEach timeout ans host early s).world.heap[r]? = some (session.secret, window') ∧
        Represents window' (counted v.toNat ps.length acc) ∧
        messagesFor r (serveEach timeout ans host early s).world.log = messagesFor r s.world.log ++ ps
  | [], v, early, s, t, window, acc, _, _, hin, ht, hh, hwin, _ => by
    cases early with
    | nil => exact ⟨t, window, ht, hh, hwin, by simp [serveEach]⟩
    | cons _ _ => exact hin.elim
  | p :: ps, v, early, s, t, window, acc, hmax, hp, hin, ht, hh, hwin, hacc => by
    cases early with
    | nil => exact hin.elim
    | cons evs early =>
    obtain ⟨h1, h2⟩ := hin
    have hmax' : v.toNat + 1 + ps.length < 2 ^ 64 := by rw [List.length_cons] at hmax; omega
    have hv1 := toNat_succ hmax'
    dsimp only at h1
    rw [hw, Nat.sub_zero, List.take_length] at h1
    have hl : (C.aeadSeal key (Wire.nonce12 0 (v + 1).toNat) p).length ≤ 2 ^ 30 := by
      rw [hC.seal_length]; exact hp p (by simp)
    have hf : Fresh acc (v + 1).toNat :=
      fresh_above (fun x hx => by have := hacc x hx; omega) (by omega)
    obtain ⟨result, hlog, -⟩ := delivered hC timeout ans host { s with conn := .ofPeer (.tcp (.ok host) evs) }
      c.expectReply session.id (v + 1) _ [] hl h1 r t session.secret key p window acc ht hh hwin hf hk
      (hC.open_seal _ _ _)
    obtain ⟨t', window', ht', hh', hwin'⟩ := delivered_session hC timeout ans host
      { s with conn := .ofPeer (.tcp (.ok host) evs) } c.expectReply session.id (v + 1) _ [] hl h1 r t session.secret
      key p window acc ht hh hwin hf hk (hC.open_seal _ _ _)
    obtain ⟨t'', window'', g1, g2, g3, g4⟩ := serve_requests hC timeout ans host hw hk c r ps (v + 1) early
      (serveOne timeout ans host { s with conn := .ofPeer (.tcp (.ok host) evs) }) t' window' _ (by omega)
      (fun q hq => hp q (by simp [hq])) h2 ht' hh' hwin' (fun x hx => by
        rcases List.mem_cons.mp hx with rfl | hx
        · omega
        · have := hacc x hx; omega)
    refine ⟨t'', window'', g1, g2, ?_, ?_⟩
    · rw [hv1] at g3; exact g3
    · rw [serveEach, g4, hlog, messagesFor_append, List.append_assoc]
      rfl

theorem serveEach_append (timeout : Nat) (ans : Nat → Answer C) (host : Bytes) :
    ∀ (xs ys : List (List Ev)) (s : Seq), serveEach timeout ans host (xs ++ ys) s =
      serveEach timeout ans host ys (serveEach timeout ans host xs s)
  | [], _, _ => rfl
  | x :: xs, ys, s => by rw [List.cons_append, serveEach, serveEach, serveEach_append timeout ans host xs]

/-- A request with a counter that is not fresh changes nothing that concerns the application. -/
theorem replay_log (hC : C.Lawful) (timeout : Nat) (ans : Nat → Answer C) (host : Bytes)
    (s : Seq) (expectReply : Bool) (id : ID) (counter : BitVec 64) (ciphertext : Bytes)
    (rest : List (Byte ⊕ Err)) (hl : ciphertext.length ≤ 2 ^ 30)
    (h : Delivers s.conn.input (Wire.processRequest expectReply id.val counter.toNat ciphertext) rest)
    (r : Ref) (t : Nat) (secret : Bytes) (window : ReplayWindow) (acc : List Nat)
    (ht : s.world.table (sessionKey C host id) = some (r, t))
    (hh : s.world.heap[r]? = some (secret, window)) (hwin : Represents window acc)
    (hold : ¬ Fresh acc counter.toNat) :
    (serveOne timeout ans host s).world.log = s.world.log ∧ RefusedWith s (serveOne timeout ans host s) 5 := by
  obtain ⟨evs, h1⟩ := serveOne_process hC timeout ans host s expectReply id counter ciphertext rest hl h
  have hspec := checkAndUpdate_spec window acc hwin counter
  have hc : (window.checkAndUpdate counter).1 = false := by
    rcases hb : (window.checkAndUpdate counter).1 with _ | _
    · rfl
    · exact absurd (hspec.1.mp hb) hold
  obtain ⟨now, pos, h2⟩ := run_process_replay timeout ans host (parsedProcess expectReply id counter ciphertext)
    { s with conn := { s.conn with input := evs } } r t secret window ht hh hc
  rw [h1, h2]
  refine ⟨?_, failWith_refuses codeReplayDetected _ timeout ans s _ rfl⟩
  exact (run_failWith_world _ _ timeout ans _).log

/-- **C106**, exactly: the message that was overtaken is handed to the application if and only if fewer than
64 messages have overtaken it; otherwise it is refused with error 5.  The others are all handed to the
application. -/
theorem C106_overtaken (hC : C.Lawful) (timeout : Nat) (ans : Nat → Answer C) (host : Bytes) (env : CEnv C)
    (a a' b b' : Client) (conn conn₁ conn₂ conn₃ : CConn) (w w' w'' : CShared) (p : Bytes) (ps : List Bytes)
    (n : Nat) (session : ClientSession) (v : BitVec 64) (server : Seq) (r : Ref) (t : Nat)
    (window : ReplayWindow) (early : List (List Ev)) (late : List Ev) (hr : Reachable C server.world)
    (ha : a.session = some session) (hb : b.session = some session)
    (hv : w.counters[session.sendCounter]? = some v) (hmax : v.toNat + 1 + ps.length < 2 ^ 64)
    (ht : server.world.table (sessionKey C host session.id) = some (r, t))
    (hh : server.world.heap[r]? = some (session.secret, window))
    (hacc : ∀ c ∈ acceptedOf r server.world.log, c ≤ v.toNat)
    (hp : p.length + 16 ≤ 2 ^ 30) (hps : ∀ p ∈ ps, p.length + 16 ≤ 2 ^ 30)
    (hd : env.writeDeadline = none) (hw : env.write.1 = 0)
    (h₁ : runClient env (a.write p) (conn, w) = (.val ((n, none), a'), (conn₁, w')))
    (h₂ : runClient env (b.calls (ps.map .write)) (conn₂, w') = (.val b', (conn₃, w'')))
    (hearly : DeliversEach early (conn₃.writes.drop conn₂.writes.length))
    (hlate : DeliversEach [late] (conn₁.writes.drop conn.writes.length)) :
    let before := serveEach timeout ans host early server
    let after := serveEach timeout ans host (early ++ [late]) server
    messagesFor r after.world.log = messagesFor r server.world.log ++ ps ++ (if ps.length < 64 then [p] else []) ∧
    (64 ≤ ps.length → RefusedWith { before with conn := .ofPeer (.tcp (.ok host) late) } after 5) := by
  obtain ⟨key, hk, -⟩ := newGCM_ok hC session.secret
  have hlt : session.sendCounter < w.counters.length := (List.getElem?_eq_some_iff.mp hv).1
  have hv1 := toNat_succ hmax
  rw [runClient, write_run hC hd ha hk (v + 1) (by rw [List.getD_eq_getElem?_getD, hv]; rfl) (succ_ne_zero hmax)
    (by omega)] at h₁
  simp only [Prod.mk.injEq, Res.val.injEq] at h₁
  obtain ⟨-, rfl, rfl⟩ := h₁
  obtain ⟨c', conn', w₃, g1, g2⟩ := writes_run hC hd hk ps b conn₂
    { counters := w.counters.set session.sendCounter (v + 1),
      sealed := w.sealed ++ [(key, Wire.nonce12 0 (v + 1).toNat, p)] } (v + 1) hb
    (List.getElem?_set_self hlt) (by omega) hps
  rw [g1] at h₂
  simp only [Prod.mk.injEq, Res.val.injEq] at h₂
  obtain ⟨-, rfl, -⟩ := h₂
  rw [g2, List.drop_left] at hearly
  rw [List.drop_left] at hlate
  obtain ⟨hlate, -⟩ := hlate
  dsimp only at hlate
  rw [hw, Nat.sub_zero, List.take_length] at hlate
  obtain ⟨t', window', k1, k2, k3, k4⟩ := serve_requests hC timeout ans host hw hk b r ps (v + 1) early server t
    window _ (by omega) hps hearly ht hh (hr.windows.1 r _ hh) (fun x hx => by have := hacc x hx; omega)
  have hl : (C.aeadSeal key (Wire.nonce12 0 (v + 1).toNat) p).length ≤ 2 ^ 30 := by
    rw [hC.seal_length]; exact hp
  have hfresh : Fresh (counted (v + 1).toNat ps.length (acceptedOf r server.world.log)) (v + 1).toNat ↔
      ps.length < 64 := by
    constructor
    · rintro ⟨-, -, h⟩
      rcases Nat.lt_or_ge ps.length 64 with hge | hge
      · exact hge
      have := le_largest (l := counted (v + 1).toNat ps.length (acceptedOf r server.world.log))
        (c := (v + 1).toNat + ps.length) ((mem_counted _ _ _ _).mpr (.inr (by omega)))
      omega
    · intro hlt
      refine ⟨by omega, fun h => ?_, ?_⟩
      · rcases (mem_counted _ _ _ _).mp h with h | h
        · have := hacc _ h; omega
        · omega
      · refine Nat.lt_of_le_of_lt (largest_le (n := (v + 1).toNat + ps.length) fun c hc => ?_) (by omega)
        rcases (mem_counted _ _ _ _).mp hc with h | h
        · have := hacc _ h; omega
        · omega
  intro before after
  have hafter : after = serveOne timeout ans host { before with conn := .ofPeer (.tcp (.ok host) late) } := by
    simp only [after, serveEach_append]; rfl
  by_cases hlt : ps.length < 64
  · refine ⟨?_, fun h => absurd hlt (by omega)⟩
    obtain ⟨result, hlog, -⟩ := delivered hC timeout ans host { before with conn := .ofPeer (.tcp (.ok host) late) }
      a.expectReply session.id (v + 1) _ [] hl hlate r t' session.secret key p window' _ k1 k2 k3
      (hfresh.mpr hlt) hk (hC.open_seal _ _ _)
    rw [hafter, hlog, messagesFor_append, if_pos hlt]
    exact congrArg (· ++ [p]) k4
  · obtain ⟨hlog, hrefused⟩ := replay_log hC timeout ans host { before with conn := .ofPeer (.tcp (.ok host) late) }
      a.expectReply session.id (v + 1) _ [] hl hlate r t' session.secret window' _ k1 k2 k3
      (fun h => hlt (hfresh.mp h))
    refine ⟨?_, fun _ => by rw [hafter]; exact hrefused⟩
    rw [hafter, hlog, if_neg hlt, List.append_nil]
    exact k4

/-- **C106**, what holds: fewer than 64 messages that overtake another do no harm. -/
theorem C106_overtaken_partial (hC : C.Lawful) (timeout : Nat) (ans : Nat → Answer C) (host : Bytes)
    (env : CEnv C) (a a' b b' : Client) (conn conn₁ conn₂ conn₃ : CConn) (w w' w'' : CShared) (p : Bytes)
    (ps : List Bytes) (n : Nat) (session : ClientSession) (v : BitVec 64) (server : Seq) (r : Ref) (t : Nat)
    (window : ReplayWindow) (early : List (List Ev)) (late : List Ev) (hr : Reachable C server.world)
    (ha : a.session = some session) (hb : b.session = some session)
    (hv : w.counters[session.sendCounter]? = some v) (hmax : v.toNat + 1 + ps.length < 2 ^ 64)
    (ht : server.world.table (sessionKey C host session.id) = some (r, t))
    (hh : server.world.heap[r]? = some (session.secret, window))
    (hacc : ∀ c ∈ acceptedOf r server.world.log, c ≤ v.toNat)
    (hp : p.length + 16 ≤ 2 ^ 30) (hps : ∀ p ∈ ps, p.length + 16 ≤ 2 ^ 30)
    (hd : env.writeDeadline = none) (hw : env.write.1 = 0)
    (h₁ : runClient env (a.write p) (conn, w) = (.val ((n, none), a'), (conn₁, w')))
    (h₂ : runClient env (b.calls (ps.map .write)) (conn₂, w') = (.val b', (conn₃, w'')))
    (hearly : DeliversEach early (conn₃.writes.drop conn₂.writes.length))
    (hlate : DeliversEach [late] (conn₁.writes.drop conn.writes.length)) (hfew : ps.length < 64) :
    messagesFor r (serveEach timeout ans host (early ++ [late]) server).world.log =
      messagesFor r server.world.log ++ ps ++ [p] := by
  have h := (C106_overtaken hC timeout ans host env a a' b b' conn conn₁ conn₂ conn₃ w w' w'' p ps n session v server
    r t window early late hr ha hb hv hmax ht hh hacc hp hps hd hw h₁ h₂ hearly hlate).1
  rw [if_pos hfew] at h
  exact h

end

namespace PoolLagExample
open HandshakeExample

/-- The client writes "ping"; then, on a connection of its own, a client with the same session writes these
messages. -/
def overtake (ps : List Bytes) (c : Client) (s : CConn × CShared) : Option (List Bytes × List Bytes) :=
  match runClient env (c.write (str "ping")) s with
  | (.val ((_, none), _), (conn₁, w')) =>
    match runClient env (c.calls (ps.map .write)) (⟨.tcp [], [], true⟩, w') with
    | (.val _, (conn₃, _)) =>
      some ((conn₁.writes.drop s.1.writes.length).map (·.1), conn₃.writes.map (·.1))
    | _ => none
  | _ => none

/-- The messages handed to the application, if the other messages arrive first. -/
def outcome (ps : List Bytes) (c : Client) (s : CConn × CShared) : Option (List Bytes) :=
  (overtake ps c s).map fun sent =>
    messagesFor 0 (serveEach 5000 SessionExample.env (str "10.0.0.1") ((sent.2 ++ sent.1).map fun q => [.data q])
      (SessionExample.start CutWriteExample.world [])).world.log

end PoolLagExample

/-- Two messages overtake "ping". -/
example : ClientExample.afterDial HandshakeExample.env (fun c s => CutWriteExample.linked c s &&
    PoolLagExample.outcome [str "a", str "b"] c s == some [str "a", str "b", str "ping"])
    (HandshakeExample.start (.tcp [.data (HandshakeExample.answer 4)])) [] = true := by decide +kernel

theorem deliversEach_data : ∀ (ws : List (Bytes × Nat × Option Err)),
    DeliversEach (ws.map fun w => [.data (w.1.take w.2.1)]) ws
  | [] => trivial
  | w :: ws => ⟨by simp [Delivers, flatten], deliversEach_data ws⟩

/-- **C106 is refuted**: 64 messages overtake another. -/
theorem C106_refuted : ¬ C106_claim := by
  intro h
  obtain ⟨c, s, -, hl⟩ := ClientExample.used_dial (env := HandshakeExample.env) (udp := false)
    (P := fun c s => CutWriteExample.linked c s)
    (s := HandshakeExample.start (.tcp [.data (HandshakeExample.answer 4)])) (calls := []) (by decide +kernel)
  rw [CutWriteExample.linked] at hl
  split at hl
  · rename_i session hs
    simp only [Bool.and_eq_true, beq_iff_eq] at hl
    obtain ⟨⟨hsec, hcnt⟩, hid⟩ := hl
    have hid : session.id = uuidOf ⟨List.replicate 16 1, rfl⟩ := Subtype.ext hid
    obtain ⟨conn, w⟩ := s
    obtain ⟨key, hk, -⟩ := newGCM_ok Toy.lawful session.secret
    have hrun := write_run (s := conn) (w := w) (p := str "ping") (env := HandshakeExample.env) Toy.lawful rfl hs hk 1
      (by rw [List.getD_eq_getElem?_getD]; rw [hcnt]; rfl) (by decide) (by decide +kernel)
    have hlt : session.sendCounter < w.counters.length := (List.getElem?_eq_some_iff.mp hcnt).1
    obtain ⟨c', conn', w₃, g1, g2⟩ := writes_run Toy.lawful (env := HandshakeExample.env) rfl hk
      (List.replicate 64 (str "pong")) c conn
      { counters := w.counters.set session.sendCounter 1,
        sealed := w.sealed ++ [(key, Wire.nonce12 0 (1 : BitVec 64).toNat, str "ping")] } 1 hs
      (List.getElem?_set_self hlt) (by decide) (fun q hq => by rw [List.eq_of_mem_replicate hq]; decide +kernel)
    have hreach : Reachable Toy.crypto (SessionExample.start CutWriteExample.world []).world := by
      rw [SessionExample.start_world]; exact CutWriteExample.reachable
    have htable : (SessionExample.start CutWriteExample.world []).world.table
        (sessionKey Toy.crypto (str "10.0.0.1") session.id) = some (0, 2) := by
      rw [hid, SessionExample.start_world]; decide +kernel
    have hheap : (SessionExample.start CutWriteExample.world []).world.heap[0]? = some (session.secret, .fresh) := by
      rw [hsec, SessionExample.start_world]; decide +kernel
    have hacc : ∀ c ∈ acceptedOf 0 (SessionExample.start CutWriteExample.world []).world.log,
        c ≤ (0 : BitVec 64).toNat := by
      rw [SessionExample.start_world]; decide +kernel
    have hps : ∀ q ∈ List.replicate 64 (str "pong"), q.length + 16 ≤ 2 ^ 30 :=
      fun q hq => by rw [List.eq_of_mem_replicate hq]; decide +kernel
    have hearly := deliversEach_data (conn'.writes.drop conn.writes.length)
    have hclaim := h Toy.crypto 5000 SessionExample.env (str "10.0.0.1") _ c _ c c' conn _ conn conn' w _ w₃
      (str "ping") (List.replicate 64 (str "pong")) _ session 0 (SessionExample.start CutWriteExample.world []) 0 2
      .fresh _ [.data (writeRequest Toy.crypto c session key 1 (str "ping"))] Toy.lawful hreach hs hs hcnt (by decide)
      htable hheap hacc (by decide +kernel) hps rfl rfl hrun g1 hearly
      (by rw [List.drop_left]; exact ⟨by simp [Delivers, flatten, HandshakeExample.env], trivial⟩)
    have hexact := (C106_overtaken Toy.lawful 5000 SessionExample.env (str "10.0.0.1") HandshakeExample.env c _ c c' conn _
      conn conn' w _ w₃ (str "ping") (List.replicate 64 (str "pong")) _ session 0
      (SessionExample.start CutWriteExample.world []) 0 2
      .fresh _ [.data (writeRequest Toy.crypto c session key 1 (str "ping"))] hreach hs hs hcnt (by decide)
      htable hheap hacc (by decide +kernel) hps rfl rfl hrun g1 hearly
      (by rw [List.drop_left]; exact ⟨by simp [Delivers, flatten, HandshakeExample.env], trivial⟩)).1
    rw [hclaim, if_neg (by decide)] at hexact
    have := congrArg List.length hexact
    simp at this
  · cases hl

end Goe2ee
