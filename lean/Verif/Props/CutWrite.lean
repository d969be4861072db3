import Verif.Props.Conversation
import Verif.Props.Client
import Verif.Props.Draft

/-!
# C98: a `Write` that failed, and the next one
-/

set_option autoImplicit false

namespace Goe2ee

/-- The octets that the connection took in these calls of its `Write`. -/
def taken (writes : List (Bytes × Nat × Option Err)) : Bytes :=
  (writes.map fun w => w.1.take w.2.1).flatten

section
variable {C : Crypto}

/-- **C98**: a `Write` that failed has no influence on the next.  A client and a server share a session; a
`Write` fails, the next succeeds; the server receives what the connection took, and calls the handler with
the second message within two passes of its loop. -/
def C98_claim : Prop :=
  ∀ (C : Crypto) (timeout : Nat) (ans : Nat → Answer C) (host : Bytes) (env₁ env₂ : CEnv C)
    (c c₁ c₂ : Client) (s s₁ s₂ : CConn × CShared) (p₁ p₂ : Bytes) (n₁ n₂ : Nat) (e : Err)
    (session : ClientSession) (v : BitVec 64) (server : Seq) (r : Ref) (t : Nat) (window : ReplayWindow),
    C.Lawful → Used (C := C) c s → Reachable C server.world →
    -- the session
    c.session = some session → s.2.counters[session.sendCounter]? = some v → v.toNat + 2 < 2 ^ 64 →
    server.world.table (sessionKey C host session.id) = some (r, t) →
    server.world.heap[r]? = some (session.secret, window) →
    (∀ c ∈ acceptedOf r server.world.log, c ≤ v.toNat) →
    -- the calls
    p₁.length + 16 ≤ 2 ^ 30 → p₂.length + 16 ≤ 2 ^ 30 →
    env₁.writeDeadline = none → env₂.writeDeadline = none → env₂.write.1 = 0 →
    runClient env₁ (c.write p₁) s = (.val ((n₁, some e), c₁), s₁) →
    runClient env₂ (c₁.write p₂) s₁ = (.val ((n₂, none), c₂), s₂) →
    Delivers server.conn.input (taken (s₂.1.writes.drop s.1.writes.length)) [] →
    let once := serveOne timeout ans host server
    let twice := serveOne timeout ans host once
    ∃ counter result, .invoked r counter host session.id.val p₂ result ∈ once.world.log ∨
      .invoked r counter host session.id.val p₂ result ∈ twice.world.log

/-- A process request is taken from the connection completely. -/
theorem serveOne_rest (hC : C.Lawful) (timeout : Nat) (ans : Nat → Answer C) (host : Bytes)
    (s : Seq) (expectReply : Bool) (id : ID) (counter : BitVec 64) (ciphertext : Bytes)
    (rest : List (Byte ⊕ Err)) (hl : ciphertext.length ≤ 2 ^ 30)
    (h : Delivers s.conn.input (Wire.processRequest expectReply id.val counter.toNat ciphertext) rest) :
    flatten (serveOne timeout ans host s).conn.input = rest := by
  obtain ⟨evs, h1, h2⟩ := run_serveRequest hC timeout ans (inMemory C) (.ok host)
    (.process expectReply id counter ciphertext) hl s rest h
  rw [serveOne, h2, run_input (((handler_afterParse (inMemory_passive C) _ _).bind (f := goOn)
    fun err => by cases err <;> trivial).mono isHandler_keepsInput)]
  exact h1

/-- The session after a message was served. -/
theorem delivered_session (hC : C.Lawful) (timeout : Nat) (ans : Nat → Answer C) (host : Bytes)
    (s : Seq) (expectReply : Bool) (id : ID) (counter : BitVec 64) (ciphertext : Bytes)
    (rest : List (Byte ⊕ Err)) (hl : ciphertext.length ≤ 2 ^ 30)
    (h : Delivers s.conn.input (Wire.processRequest expectReply id.val counter.toNat ciphertext) rest)
    (r : Ref) (t : Nat) (secret key message : Bytes) (window : ReplayWindow) (acc : List Nat)
    (ht : s.world.table (sessionKey C host id) = some (r, t))
    (hh : s.world.heap[r]? = some (secret, window)) (hwin : Represents window acc)
    (hfresh : Fresh acc counter.toNat)
    (hk : deriveKey C secret kdfInfo aesKeySize = .ok key)
    (hopen : C.aeadOpen key (Wire.nonce12 0 counter.toNat) ciphertext = some message) :
    ∃ t' window', (serveOne timeout ans host s).world.table (sessionKey C host id) = some (r, t') ∧
      (serveOne timeout ans host s).world.heap[r]? = some (secret, window') ∧
      Represents window' (counter.toNat :: acc) := by
  obtain ⟨evs, h1⟩ := serveOne_process hC timeout ans host s expectReply id counter ciphertext rest hl h
  have hspec := checkAndUpdate_spec window acc hwin counter
  have hc := hspec.1.mpr hfresh
  obtain ⟨now, -, h2⟩ := run_process_known hC timeout ans host
    (parsedProcess expectReply id counter ciphertext)
    { s with conn := { s.conn with input := evs } } r t secret key window ht hh hc hk
  rw [show (parsedProcess expectReply id counter ciphertext).message = ciphertext from rfl,
    show (parsedProcess expectReply id counter ciphertext).counter = counter from rfl, hopen] at h2
  obtain ⟨⟨e1, e2, -⟩, -⟩ := run_runHandler timeout ans r host (parsedProcess expectReply id counter ciphertext)
    key message ⟨{ s.conn with input := evs },
      s.world.acceptedBy (sessionKey C host id) r now secret window counter, s.pos + 5⟩
  rw [h1, h2]
  refine ⟨now, (window.checkAndUpdate counter).2, (congrFun e2 _).trans ?_,
    (congrArg (fun l : List (Bytes × ReplayWindow) => l[r]?) e1).trans ?_, hspec.2.1 hc⟩
  · simp [World.logged, World.acceptedBy]
  · exact List.getElem?_set_self (List.getElem?_eq_some_iff.mp hh).1

/-- A counter larger than all accepted ones is fresh. -/
theorem fresh_above {acc : List Nat} {c : Nat} (h : ∀ x ∈ acc, x < c) (h0 : c ≠ 0) : Fresh acc c := by
  refine ⟨h0, fun hm => absurd (h c hm) (Nat.lt_irrefl _), ?_⟩
  rcases Nat.eq_zero_or_pos (largest acc) with hl | hl
  · omega
  · have := h _ (largest_mem (by omega)); omega

/-- Two calls of `Write`: the requests, and what the connection took. -/
theorem two_writes (hC : C.Lawful) {env₁ env₂ : CEnv C} {c c₁ c₂ : Client} {s s₁ s₂ : CConn × CShared}
    {p₁ p₂ : Bytes} {n₁ n₂ : Nat} {e : Err} {session : ClientSession} {v : BitVec 64} {key : Bytes}
    (hs : c.session = some session) (hv : s.2.counters[session.sendCounter]? = some v)
    (hmax : v.toNat + 2 < 2 ^ 64) (hk : deriveKey C session.secret kdfInfo aesKeySize = .ok key)
    (hp₁ : p₁.length + 16 ≤ 2 ^ 30) (hp₂ : p₂.length + 16 ≤ 2 ^ 30)
    (hd₁ : env₁.writeDeadline = none) (hd₂ : env₂.writeDeadline = none) (hw₂ : env₂.write.1 = 0)
    (h₁ : runClient env₁ (c.write p₁) s = (.val ((n₁, some e), c₁), s₁))
    (h₂ : runClient env₂ (c₁.write p₂) s₁ = (.val ((n₂, none), c₂), s₂)) :
    n₁ = (writeRequest C c session key (v + 1) p₁).length - env₁.write.1 ∧
    taken (s₂.1.writes.drop s.1.writes.length) = (writeRequest C c session key (v + 1) p₁).take n₁ ++
      writeRequest C c session key (v + 1 + 1) p₂ := by
  obtain ⟨conn, w⟩ := s
  have hv1 : (v + 1).toNat = v.toNat + 1 := by
    rw [BitVec.toNat_add, show (1 : BitVec 64).toNat = 1 from rfl, Nat.mod_eq_of_lt (by omega)]
  have hv2 : (v + 1 + 1).toNat = v.toNat + 2 := by
    rw [BitVec.toNat_add, hv1, show (1 : BitVec 64).toNat = 1 from rfl, Nat.mod_eq_of_lt (by omega)]
  have hlt : session.sendCounter < w.counters.length := (List.getElem?_eq_some_iff.mp hv).1
  rw [runClient, write_run hC hd₁ hs hk (v + 1) (by rw [List.getD_eq_getElem?_getD, hv]; rfl)
    (fun h => by rw [h] at hv1; simp at hv1) (by omega)] at h₁
  simp only [Prod.mk.injEq, Res.val.injEq] at h₁
  obtain ⟨⟨⟨rfl, -⟩, rfl⟩, rfl⟩ := h₁
  rw [runClient, write_run (c := { c with lastSentCounter := v + 1 }) hC hd₂ hs hk (v + 1 + 1)
    (by rw [List.getD_eq_getElem?_getD, List.getElem?_set_self hlt]; rfl)
    (fun h => by rw [h] at hv2; simp at hv2) (by omega)] at h₂
  simp only [Prod.mk.injEq, Res.val.injEq] at h₂
  obtain ⟨-, rfl⟩ := h₂
  refine ⟨rfl, ?_⟩
  dsimp only
  rw [List.append_assoc, List.drop_left, hw₂, Nat.sub_zero]
  simp [taken, writeRequest]

/-- **C98**, what holds: if the connection took nothing of the first request, or all of it, the handler is
called with the second message. -/
theorem C98_whole_partial (hC : C.Lawful) (timeout : Nat) (ans : Nat → Answer C) (host : Bytes)
    (env₁ env₂ : CEnv C) (c c₁ c₂ : Client) (s s₁ s₂ : CConn × CShared) (p₁ p₂ : Bytes) (n₁ n₂ : Nat) (e : Err)
    (session : ClientSession) (v : BitVec 64) (server : Seq) (r : Ref) (t : Nat) (window : ReplayWindow)
    (hr : Reachable C server.world)
    (hs : c.session = some session) (hv : s.2.counters[session.sendCounter]? = some v)
    (hmax : v.toNat + 2 < 2 ^ 64)
    (ht : server.world.table (sessionKey C host session.id) = some (r, t))
    (hh : server.world.heap[r]? = some (session.secret, window))
    (hacc : ∀ c ∈ acceptedOf r server.world.log, c ≤ v.toNat)
    (hp₁ : p₁.length + 16 ≤ 2 ^ 30) (hp₂ : p₂.length + 16 ≤ 2 ^ 30)
    (hd₁ : env₁.writeDeadline = none) (hd₂ : env₂.writeDeadline = none) (hw₂ : env₂.write.1 = 0)
    (h₁ : runClient env₁ (c.write p₁) s = (.val ((n₁, some e), c₁), s₁))
    (h₂ : runClient env₂ (c₁.write p₂) s₁ = (.val ((n₂, none), c₂), s₂))
    (hin : Delivers server.conn.input (taken (s₂.1.writes.drop s.1.writes.length)) [])
    (hcut : n₁ = 0 ∨ env₁.write.1 = 0) :
    let once := serveOne timeout ans host server
    let twice := serveOne timeout ans host once
    ∃ counter result, .invoked r counter host session.id.val p₂ result ∈ once.world.log ∨
      .invoked r counter host session.id.val p₂ result ∈ twice.world.log := by
  obtain ⟨key, hk, -⟩ := newGCM_ok hC session.secret
  obtain ⟨hn, htaken⟩ := two_writes hC hs hv hmax hk hp₁ hp₂ hd₁ hd₂ hw₂ h₁ h₂
  have hv1 : (v + 1).toNat = v.toNat + 1 := by
    rw [BitVec.toNat_add, show (1 : BitVec 64).toNat = 1 from rfl, Nat.mod_eq_of_lt (by omega)]
  have hv2 : (v + 1 + 1).toNat = v.toNat + 2 := by
    rw [BitVec.toNat_add, hv1, show (1 : BitVec 64).toNat = 1 from rfl, Nat.mod_eq_of_lt (by omega)]
  have hseal : ∀ (p n : Bytes), p.length + 16 ≤ 2 ^ 30 → (C.aeadSeal key n p).length ≤ 2 ^ 30 := by
    intro p n hp; rw [hC.seal_length]; exact hp
  have hwin := hr.windows.1 r _ hh
  rw [htaken] at hin
  dsimp only
  by_cases h0 : n₁ = 0
  · rw [h0, List.take_zero, List.nil_append] at hin
    obtain ⟨result, hlog, -⟩ := delivered hC timeout ans host server c.expectReply session.id (v + 1 + 1) _ []
      (hseal _ _ hp₂) hin r t session.secret key p₂ window _ ht hh hwin
      (fresh_above (fun x hx => by have := hacc x hx; omega) (by omega)) hk (hC.open_seal _ _ _)
    exact ⟨v + 1 + 1, result, .inl (by rw [hlog]; simp)⟩
  · have hall := hcut.resolve_left h0
    rw [hn, hall, Nat.sub_zero, List.take_length, Delivers, List.map_append, List.append_assoc] at hin
    have hf1 : Fresh (acceptedOf r server.world.log) (v + 1).toNat :=
      fresh_above (fun x hx => by have := hacc x hx; omega) (by omega)
    obtain ⟨t', window', ht', hh', hwin'⟩ := delivered_session hC timeout ans host server c.expectReply session.id
      (v + 1) _ _ (hseal _ _ hp₁) hin r t session.secret key p₁ window _ ht hh hwin hf1 hk (hC.open_seal _ _ _)
    have hrest := serveOne_rest hC timeout ans host server c.expectReply session.id (v + 1) _ _ (hseal _ _ hp₁) hin
    obtain ⟨result, hlog, -⟩ := delivered hC timeout ans host (serveOne timeout ans host server) c.expectReply
      session.id (v + 1 + 1) _ [] (hseal _ _ hp₂) hrest r t' session.secret key p₂ window' _ ht' hh' hwin'
      (fresh_above (fun x hx => by
        rcases List.mem_cons.mp hx with rfl | hx
        · omega
        · have := hacc x hx; omega) (by omega)) hk (hC.open_seal _ _ _)
    exact ⟨v + 1 + 1, result, .inr (by rw [hlog]; simp)⟩

/-- **C98**, why it is false: if the connection took the head of the first request and only a part of its
ciphertext, the server completes it with the first octets of the second request.  It refuses the result (unless
that happens to decrypt), has not called the handler, and goes on reading in the middle of the second request. -/
theorem C98_swallowed (hC : C.Lawful) (timeout : Nat) (ans : Nat → Answer C) (host : Bytes)
    (env₁ env₂ : CEnv C) (c c₁ c₂ : Client) (s s₁ s₂ : CConn × CShared) (p₁ p₂ key : Bytes) (n₁ n₂ : Nat) (e : Err)
    (session : ClientSession) (v : BitVec 64) (server : Seq) (r : Ref) (t : Nat) (window : ReplayWindow)
    (hr : Reachable C server.world)
    (hs : c.session = some session) (hv : s.2.counters[session.sendCounter]? = some v)
    (hmax : v.toNat + 2 < 2 ^ 64) (hk : deriveKey C session.secret kdfInfo aesKeySize = .ok key)
    (ht : server.world.table (sessionKey C host session.id) = some (r, t))
    (hh : server.world.heap[r]? = some (session.secret, window))
    (hacc : ∀ c ∈ acceptedOf r server.world.log, c ≤ v.toNat)
    (hp₁ : p₁.length + 16 ≤ 2 ^ 30) (hp₂ : p₂.length + 16 ≤ 2 ^ 30)
    (hd₁ : env₁.writeDeadline = none) (hd₂ : env₂.writeDeadline = none) (hw₂ : env₂.write.1 = 0)
    (h₁ : runClient env₁ (c.write p₁) s = (.val ((n₁, some e), c₁), s₁))
    (h₂ : runClient env₂ (c₁.write p₂) s₁ = (.val ((n₂, none), c₂), s₂))
    (hin : Delivers server.conn.input (taken (s₂.1.writes.drop s.1.writes.length)) [])
    (missing : Nat) (hm : p₁.length + 50 = n₁ + missing) (hm0 : 0 < missing) (hm1 : missing ≤ p₁.length + 16)
    (hm2 : missing ≤ p₂.length + 50) :
    let second := Wire.processRequest c.expectReply session.id.val (v.toNat + 2)
      (C.aeadSeal key (Wire.nonce12 0 (v.toNat + 2)) p₂)
    let once := serveOne timeout ans host server
    C.aeadOpen key (Wire.nonce12 0 (v.toNat + 1)) ((C.aeadSeal key (Wire.nonce12 0 (v.toNat + 1)) p₁).take
      (p₁.length + 16 - missing) ++ second.take missing) = none →
    RefusedWith server once 2 ∧ handledFor r once.world.log = handledFor r server.world.log ∧
      flatten once.conn.input = (second.drop missing).map Sum.inl := by
  obtain ⟨-, htaken⟩ := two_writes hC hs hv hmax hk hp₁ hp₂ hd₁ hd₂ hw₂ h₁ h₂
  have hv1 : (v + 1).toNat = v.toNat + 1 := by
    rw [BitVec.toNat_add, show (1 : BitVec 64).toNat = 1 from rfl, Nat.mod_eq_of_lt (by omega)]
  have hv2 : (v + 1 + 1).toNat = v.toNat + 2 := by
    rw [BitVec.toNat_add, hv1, show (1 : BitVec 64).toNat = 1 from rfl, Nat.mod_eq_of_lt (by omega)]
  rw [htaken, writeRequest, writeRequest, hv1, hv2] at hin
  intro second once
  have hsec : second.length = p₂.length + 50 := by
    have := session.id.property
    have h8 : ∀ n, (Wire.be64 n).length = 8 := fun n => rfl
    simp only [second, Wire.processRequest, List.length_append, List.length_cons, List.length_nil, this,
      h8, hC.seal_length]
    omega
  revert hin
  change Delivers _ (_ ++ second) _ → _
  clear_value second
  intro hin hopen
  have hl₁ := hC.seal_length key (Wire.nonce12 0 (v.toNat + 1)) p₁
  generalize C.aeadSeal key (Wire.nonce12 0 (v.toNat + 1)) p₁ = ct at hl₁ hopen hin
  have hlen : (ct.take (p₁.length + 16 - missing) ++ second.take missing).length = ct.length := by
    rw [List.length_append, List.length_take, List.length_take]; omega
  have hcut : (Wire.processRequest c.expectReply session.id.val (v.toNat + 1) ct).take n₁ ++ second =
      Wire.processRequest c.expectReply session.id.val (v.toNat + 1)
        (ct.take (p₁.length + 16 - missing) ++ second.take missing) ++ second.drop missing := by
    rw [Wire.processRequest, Wire.processRequest, hlen, List.take_append]
    have h34 : ([0x13#8, if c.expectReply then 0x80#8 else 0x00#8] ++ session.id.val ++
        Wire.be64 (v.toNat + 1) ++ Wire.be64 ct.length).length = 34 := by
      have := session.id.property
      have h8 : ∀ n, (Wire.be64 n).length = 8 := fun n => rfl
      simp only [List.length_append, List.length_cons, List.length_nil, this, h8]
    rw [List.take_of_length_le (by omega), h34, show n₁ - 34 = p₁.length + 16 - missing by omega]
    simp only [List.append_assoc, List.take_append_drop]
  rw [hcut, Delivers, List.map_append, List.append_assoc, List.append_nil] at hin
  have hl : (ct.take (p₁.length + 16 - missing) ++ second.take missing).length ≤ 2 ^ 30 := by omega
  rw [← hv1] at hin hopen
  have hf : Fresh (acceptedOf r server.world.log) (v + 1).toNat :=
    fresh_above (fun x hx => by have := hacc x hx; omega) (by omega)
  obtain ⟨window', now, -, -, -, hlog⟩ := forged hC timeout ans host server c.expectReply session.id (v + 1) _ _ hl
    hin r t session.secret key window _ ht hh (hr.windows.1 r _ hh) hk hopen
  refine ⟨((C79_process_partial hC timeout ans host server hr c.expectReply session.id (v + 1) _ _ hl hin).2 r t _
    window ht hh).2 key hk hf hopen, ?_, serveOne_rest hC timeout ans host server c.expectReply session.id (v + 1) _ _
      hl hin⟩
  rw [show once.world.log = _ from hlog, if_pos hf, handledFor, handledFor, List.filterMap_append]
  simp

end

namespace CutWriteExample
open HandshakeExample

/-- The server after the handshake with the client of `HandshakeExample`. -/
def world : World :=
  (Sys.run (inMemory Toy.crypto) 5000 (Sys.start 0 0)
    (List.replicate 4 (0, OnceExample.answer (.ok (.tcp (.ok (str "10.0.0.1"))
      [.data (Wire.setupRequest (uuidOf ⟨List.replicate 16 1, rfl⟩).val
        (Toy.crypto.marshalEPub (5 : BitVec 256)))]))) ++
     List.replicate 20 (2, OnceExample.answer (.error .eof)))).world

theorem reachable : Reachable Toy.crypto world := ⟨_, _, _, _, rfl⟩

/-- The environment of a `Write` for which the connection takes all but `missing` octets before the deadline. -/
def late (missing : Nat) : CEnv Toy.crypto := { env with write := (missing, some .timeout) }

/-- The server that receives what the connection took. -/
def receives (s s₂ : CConn × CShared) : Seq :=
  SessionExample.start world (taken (s₂.1.writes.drop s.1.writes.length))

def once (s : Seq) : Seq := serveOne 5000 SessionExample.env (str "10.0.0.1") s

/-- The client writes "ping", for which the connection takes all but `missing` octets, then "and again": the
messages handed to the handler in two passes of the server's loop. -/
def outcome (missing : Nat) (c : Client) (s : CConn × CShared) : Option (List Bytes × List Bytes) :=
  match runClient (late missing) (c.write (str "ping")) s with
  | (.val ((_, some _), c₁), s₁) =>
    match runClient env (c₁.write (str "and again")) s₁ with
    | (.val ((_, none), _), s₂) =>
      some ((handledFor 0 (once (receives s s₂)).world.log).map (·.1),
        (handledFor 0 (once (once (receives s s₂))).world.log).map (·.1))
    | _ => none
  | _ => none

/-- Client and server share the session, the client has sent nothing. -/
def linked (c : Client) (s : CConn × CShared) : Bool :=
  match c.session with
  | some session => (session.secret == beEnc 32 14) && (s.2.counters[session.sendCounter]? == some 0) &&
    (session.id.val == (uuidOf ⟨List.replicate 16 1, rfl⟩).val)
  | none => false

end CutWriteExample

/-- If one octet or more is missing, the second message is lost; otherwise it is handled. -/
example : ClientExample.afterDial HandshakeExample.env (fun c s => CutWriteExample.linked c s &&
    ([0, 1, 20, 21, 53, 54, 99].map fun missing => CutWriteExample.outcome missing c s) ==
      [some ([str "ping"], [str "ping", str "and again"]), some ([], []), some ([], []), some ([], []),
       some ([], []), some ([str "and again"], [str "and again"]), some ([str "and again"], [str "and again"])])
    (HandshakeExample.start (.tcp [.data (HandshakeExample.answer 4)])) [] = true := by decide +kernel

theorem not_handled {r : Ref} {counter : BitVec 64} {host id message : Bytes} {result : HRes} {log : List Event}
    (h : (handledFor r log).map (·.1) = []) : .invoked r counter host id message result ∉ log := by
  intro hm
  have : (message, result) ∈ handledFor r log := List.mem_filterMap.mpr ⟨_, hm, by simp⟩
  rw [List.map_eq_nil_iff.mp h] at this
  cases this

/-- **C98 is refuted**: the last octet of the first request was not taken before the deadline; the server
takes the first octet of the second request for it. -/
theorem C98_refuted : ¬ C98_claim := by
  intro h
  obtain ⟨c, s, hu, hP⟩ := ClientExample.used_dial (env := HandshakeExample.env) (udp := false)
    (P := fun c s => CutWriteExample.linked c s && (CutWriteExample.outcome 1 c s == some ([], [])))
    (s := HandshakeExample.start (.tcp [.data (HandshakeExample.answer 4)])) (calls := []) (by decide +kernel)
  simp only [Bool.and_eq_true, beq_iff_eq] at hP
  obtain ⟨hl, ho⟩ := hP
  rw [CutWriteExample.linked] at hl
  rw [CutWriteExample.outcome] at ho
  split at hl
  · rename_i session hs
    simp only [Bool.and_eq_true, beq_iff_eq] at hl
    obtain ⟨⟨hsec, hcnt⟩, hid⟩ := hl
    have hid : session.id = uuidOf ⟨List.replicate 16 1, rfl⟩ := Subtype.ext hid
    split at ho
    · rename_i n₁ e c₁ s₁ h1
      split at ho
      · rename_i n₂ c₂ s₂ h2
        obtain ⟨o1, o2⟩ := Prod.mk.inj (Option.some.inj ho)
        obtain ⟨counter, result, hm⟩ := h Toy.crypto 5000 SessionExample.env (str "10.0.0.1") _ _ c c₁ c₂ s s₁ s₂
          (str "ping") (str "and again") n₁ n₂ e session 0 (CutWriteExample.receives s s₂) 0 2 .fresh Toy.lawful hu
          CutWriteExample.reachable hs hcnt (by decide)
          (by rw [hid, CutWriteExample.receives, SessionExample.start_world]; decide +kernel)
          (by rw [hsec, CutWriteExample.receives, SessionExample.start_world]; decide +kernel)
          (by rw [CutWriteExample.receives, SessionExample.start_world]; decide +kernel)
          (by decide +kernel) (by decide +kernel) rfl rfl rfl h1 h2
          (by simp [Delivers, CutWriteExample.receives, SessionExample.start, flatten])
        unfold CutWriteExample.once at o1 o2
        rcases hm with hm | hm
        · exact not_handled o1 hm
        · exact not_handled o2 hm
      · cases ho
    · cases ho
  · cases hl

end Goe2ee
