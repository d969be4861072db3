import Verif.Props.Silence
import Verif.Model.ProtocolFetcher
import Verif.Proofs.Safe

/-!
# C161: datagrams that get lost

As in C75, but over UDP.  `ReadFrom` returns the datagrams of the queue; the event `timeout` stands for nothing more to come,
so that a read without a deadline waits for ever.
-/

set_option autoImplicit false

namespace Goe2ee

section
variable {C : Crypto}

/-- A socket at which these datagrams arrive, and then none. -/
def arriving (datagrams : List Bytes) : Transport := .udp false [] (datagrams.map .ok ++ [.error .timeout])

/-- A UDP client before it connects. -/
def beforeDial (datagrams : List Bytes) (shared : CShared) (now : Nat) : Timed :=
  ⟨⟨arriving datagrams, [], false⟩, shared, now, none, none⟩

/-- With timeouts, `DialUDP` and `Fetch` of the key fetcher that asks the server return, even if datagrams are lost. -/
def C161_claim : Prop :=
  ∀ (C : Crypto) (env : CEnv C) (host : Except Err Bytes) (options : ClientOptions) (datagrams : List Bytes)
    (shared : CShared) (now : Nat), C.Lawful → 0 < options.readTimeout → 0 < options.writeTimeout →
    (waitRun options.readTimeout options.writeTimeout env (dial true host options)
      (beforeDial datagrams shared now)).isSome = true ∧
    (waitRun options.readTimeout options.writeTimeout env (protocolFetch (C := C) (str "udp"))
      (beforeDial datagrams shared now)).isSome = true

/-- The first octet of a response that does not arrive is waited for. -/
theorem waitRun_lost {α : Type} {rt wt : Int} {env : CEnv C} {s : Timed}
    {f : Except Err ResponseCommon → CProg C α} (hnet : s.conn.net = arriving []) (hby : s.readBy = none) :
    waitRun rt wt env ((onClientConn parseResponseCommon).bind f) s = none := by
  obtain ⟨⟨net, writes, isOpen⟩, shared, now, readBy, writeBy⟩ := s
  subst hnet hby
  rfl

/-- **C161**, `DialUDP`: if the setup request or the response to it is lost, it waits for ever, whatever timeouts the options
set. -/
theorem C161_dial_waits (env : CEnv C) (host : Bytes) (options : ClientOptions) (shared : CShared)
    (now : Nat) (key : PublicKey) (random : ID) (priv : C.EPriv)
    (hc : env.connect = none) (hf : env.fetch host = .ok key)
    (hr : env.random = .ok random) (hg : env.genKey = .ok priv) (hw : env.write = (0, none)) :
    waitRun options.readTimeout options.writeTimeout env (dial true (.ok host) options) (beforeDial [] shared now) = none := by
  refine (waitRun_op (o := .connect) (r := none)
    (s' := ⟨⟨arriving [], [], true⟩, shared, now, none, none⟩) (by simp only [texec, cexec, hc]; rfl) rfl).trans ?_
  refine (waitRun_op (o := .fetch host) (r := .ok key)
    (s' := ⟨⟨arriving [], [], true⟩, shared, now, none, none⟩) (by simp only [texec, cexec, hf]) rfl).trans ?_
  refine (waitRun_op (o := .random) (r := .ok random)
    (s' := ⟨⟨arriving [], [], true⟩, shared, now, none, none⟩) (by simp only [texec, cexec, hr]) rfl).trans ?_
  refine (waitRun_op (o := .genKey) (r := .ok priv)
    (s' := ⟨⟨arriving [], [], true⟩, shared, now, none, none⟩) (by simp only [texec, cexec, hg]) rfl).trans ?_
  let request := (newSetupRequest C (uuidOf random) (C.epub priv)).bytes
  refine (waitRun_op (o := .write request) (r := (request.length, none))
    (s' := ⟨⟨arriving [], [(request, request.length, none)], true⟩, shared, now, none, none⟩)
    (by simp only [texec, passed, Bool.false_eq_true, ↓reduceIte, cexec, hw, Nat.sub_zero]; rfl) rfl).trans ?_
  dsimp only
  rw [if_neg (by simp [request]), Prog.bind_assoc]
  exact waitRun_lost rfl rfl

/-- **C161**, the key fetcher that asks the server: the same over UDP, and over TCP if the server accepts the connection and
sends nothing.  It has no timeouts at all. -/
theorem C161_fetch_waits (rt wt : Int) (env : CEnv C) (shared : CShared) (now : Nat)
    (hc : env.connect = none) (hw : env.write = (0, none)) :
    waitRun rt wt env (protocolFetch (C := C) (str "udp")) (beforeDial [] shared now) = none ∧
    waitRun rt wt env (protocolFetch (C := C) (str "tcp")) ⟨⟨silentAfter [], [], false⟩, shared, now, none, none⟩ = none := by
  have hgo : ∀ (network : Bytes) (net : Transport), network = str "tcp" ∨ network = str "udp" → net.written = net →
      (∀ {α : Type} {s : Timed} {f : Except Err ResponseCommon → CProg C α}, s.conn.net = net → s.readBy = none →
        waitRun rt wt env ((onClientConn parseResponseCommon).bind f) s = none) →
      waitRun rt wt env (protocolFetch (C := C) network) ⟨⟨net, [], false⟩, shared, now, none, none⟩ = none := by
    intro network net hn hwr hwait
    rw [protocolFetch, if_pos hn]
    refine (waitRun_op (o := .connect) (r := none)
      (s' := ⟨⟨net, [], true⟩, shared, now, none, none⟩) (by simp only [texec, cexec, hc]; rfl) rfl).trans ?_
    refine (waitRun_op (o := .write fetchKeyRequest.bytes) (r := (fetchKeyRequest.bytes.length, none))
      (s' := ⟨⟨net, [(fetchKeyRequest.bytes, fetchKeyRequest.bytes.length, none)], true⟩, shared, now, none, none⟩)
      (by simp only [texec, passed, Bool.false_eq_true, ↓reduceIte, cexec, hw, Nat.sub_zero, hwr]; rfl) rfl).trans ?_
    dsimp only
    rw [Prog.bind_assoc]
    exact hwait rfl rfl
  exact ⟨hgo _ _ (.inr rfl) rfl waitRun_lost, hgo _ _ (.inl rfl) rfl waitRun_silent⟩

/-- **C161 is refuted**: neither sets a deadline or repeats its request. -/
theorem C161_refuted : ¬ C161_claim := by
  intro h
  have h1 := (h Toy.crypto HandshakeExample.env (.ok (str "example.com")) {} [] ⟨[], []⟩ 17 Toy.lawful
    (by decide) (by decide)).1
  rw [C161_dial_waits HandshakeExample.env (str "example.com") {} ⟨[], []⟩ 17 _ _ _ rfl rfl rfl rfl rfl] at h1
  cases h1

/-! ### If one datagram arrives -/

/-- The next read does not wait. -/
def InReach : Transport → Prop
  | .udp true _ _ => True
  | .udp false _ (.ok _ :: _) => True
  | _ => False

theorem reach_read {net : Transport} (h : InReach net) (k : Nat) :
    InReach (readNet net k).2 ∧ ((readNet net k).1.2 = none ∨ (readNet net k).1.2 = some .eof) := by
  match net, h with
  | .udp true b q, _ =>
    simp only [readNet, readDatagram]
    split <;> exact ⟨trivial, by simp⟩
  | .udp false b (.ok d :: q), _ =>
    simp only [readNet, readDatagram]
    split <;> exact ⟨trivial, by simp⟩

theorem reach_full : ∀ (fuel r : Nat) (acc : Bytes) {net : Transport}, InReach net →
    InReach (readFullLoop readNet fuel r acc net).2 ∧ (readFullLoop readNet fuel r acc net).1 ≠ .error .timeout
  | fuel, 0, acc, net, h => by cases fuel <;> exact ⟨h, fun h => by cases h⟩
  | 0, r + 1, acc, net, h => ⟨h, fun h => by cases h⟩
  | fuel + 1, r + 1, acc, net, h => by
    obtain ⟨h1, h2⟩ := reach_read h (r + 1)
    rcases hr : readNet net (r + 1) with ⟨⟨bs, err⟩, net'⟩
    rw [hr] at h1 h2
    simp only [readFullLoop, hr]
    split
    · exact ⟨h1, fun h => by cases h⟩
    · rcases h2 with h2 | h2 <;> cases h2
      · exact reach_full fuel _ _ h1
      · refine ⟨h1, ?_⟩
        dsimp only
        split <;> exact fun h => by cases h

theorem reach_copy : ∀ (fuel r : Nat) (acc : Bytes) {net : Transport}, InReach net →
    InReach (copyLoop readNet fuel r acc net).2 ∧ (copyLoop readNet fuel r acc net).1.2 ≠ some .timeout
  | fuel, 0, acc, net, h => by cases fuel <;> exact ⟨h, fun h => by cases h⟩
  | 0, r + 1, acc, net, h => ⟨h, fun h => by cases h⟩
  | fuel + 1, r + 1, acc, net, h => by
    obtain ⟨h1, h2⟩ := reach_read h (r + 1)
    rcases hr : readNet net (r + 1) with ⟨⟨bs, err⟩, net'⟩
    rw [hr] at h1 h2
    simp only [copyLoop, hr]
    rcases h2 with h2 | h2 <;> cases h2
    · exact reach_copy fuel _ _ h1
    · exact ⟨h1, fun h => by cases h⟩

/-- The effect neither reads nor writes. -/
def COp.offline : COp → Prop
  | .read _ => False
  | .write _ => False
  | _ => True

/-- The effect does not write. -/
def COp.listens : COp → Prop
  | .write _ => False
  | _ => True

/-- One effect that does not write: what can be read stays so, and it does not wait. -/
theorem reach_effect (rt wt : Int) (env : CEnv C) (o : COp) (ho : o.listens) (s : Timed) (h : InReach s.conn.net) :
    InReach (texec rt wt env o s).2.conn.net ∧
      (opTimedOut o (texec rt wt env o s).1 && s.readBy.isNone) = false := by
  cases o with
  | write bs => exact ho.elim
  | setReadDeadline => refine ⟨?_, rfl⟩; simp only [texec]; split <;> exact h
  | setWriteDeadline => refine ⟨?_, rfl⟩; simp only [texec]; split <;> exact h
  | close =>
    refine ⟨?_, rfl⟩
    simp only [texec, cexec]
    split <;> exact h
  | read o =>
    cases hby : s.readBy with
    | some d =>
      refine ⟨?_, by simp⟩
      simp only [texec]
      split
      · exact h
      · cases o with
        | alloc n => exact h
        | readFull n => exact (reach_full n n [] h).1
        | copyLimit n => exact (reach_copy n.toNat n.toNat [] h).1
    | none =>
      simp only [texec, hby, passed, Bool.false_eq_true, ↓reduceIte, cexec]
      cases o with
      | alloc n => exact ⟨h, rfl⟩
      | readFull n =>
        obtain ⟨h1, h2⟩ := reach_full n n [] h
        refine ⟨h1, ?_⟩
        show (readTimedOut (.readFull n) (readFullLoop readNet n n [] s.conn.net).1 && _) = false
        generalize (readFullLoop readNet n n [] s.conn.net).1 = r at h2
        match r, h2 with
        | .ok _, _ => rfl
        | .error .timeout, h2 => exact absurd rfl h2
        | .error .eof, _ => rfl
        | .error .unexpectedEOF, _ => rfl
        | .error (.other _), _ => rfl
        | .error e, h2 => cases e <;> first | rfl | exact absurd rfl h2
      | copyLimit n =>
        obtain ⟨h1, h2⟩ := reach_copy n.toNat n.toNat [] h
        refine ⟨h1, ?_⟩
        show (readTimedOut (.copyLimit n) (copyLoop readNet n.toNat n.toNat [] s.conn.net).1 && _) = false
        generalize (copyLoop readNet n.toNat n.toNat [] s.conn.net).1 = r at h2
        obtain ⟨bs, e⟩ := r
        cases e with
        | none => rfl
        | some e => cases e <;> first | rfl | exact absurd rfl h2
  | _ => exact ⟨h, rfl⟩

theorem reach_run {α : Type} (rt wt : Int) (env : CEnv C) {p : CProg C α} (hp : Uses (S := CSig C) COp.listens p) {s : Timed}
    (h : InReach s.conn.net) : (waitRun rt wt env p s).isSome = true := by
  induction p generalizing s with
  | ret a => rfl
  | panic m => rfl
  | op o k ih =>
    obtain ⟨h1, h2⟩ := reach_effect rt wt env o hp.1 s h
    rw [waitRun]
    rw [if_neg (by rw [h2]; simp)]
    exact ih _ (hp.2 _) h1

/-- A program that reads only after it has written, once. -/
def OneExchange {α : Type} : CProg C α → Prop
  | .ret _ => True
  | .panic _ => True
  | .op (.write _) k => ∀ r, Uses (S := CSig C) COp.listens (k r)
  | .op o k => o.offline ∧ ∀ r, OneExchange (k r)

theorem offline_listens {o : COp} (h : o.offline) : o.listens := by cases o <;> first | trivial | exact h

theorem OneExchange.of_offline {α : Type} {p : CProg C α} (hp : Uses (S := CSig C) COp.offline p) : OneExchange p := by
  induction p with
  | ret a => trivial
  | panic m => trivial
  | op o k ih => cases o <;> first | exact hp.1.elim | exact ⟨trivial, fun r => ih r (hp.2 r)⟩

theorem OneExchange.bind {α β : Type} {p : CProg C α} {f : α → CProg C β} (hp : OneExchange p)
    (hf : ∀ a, Uses (S := CSig C) COp.offline (f a)) : OneExchange (p.bind f) := by
  induction p with
  | ret a => exact .of_offline (hf a)
  | panic m => trivial
  | op o k ih =>
    cases o <;> first
      | exact hp.1.elim
      | exact ⟨trivial, fun r => ih r (hp.2 r)⟩
      | exact fun r => Uses.bind (hp r) fun a => (hf a).mono fun _ => offline_listens

/-- Such a program returns if a datagram arrives. -/
theorem exchange_run {α : Type} (rt wt : Int) (env : CEnv C) {p : CProg C α} (hp : OneExchange p) {s : Timed}
    {buffer d : Bytes} {queue : List (Except Err Bytes)} (h : s.conn.net = .udp false buffer (.ok d :: queue)) :
    (waitRun rt wt env p s).isSome = true := by
  induction p generalizing s with
  | ret a => rfl
  | panic m => rfl
  | op o k ih =>
    cases o with
    | read o => exact hp.1.elim
    | write bs =>
      have hnet : InReach (texec rt wt env (.write bs) s).2.conn.net := by
        simp only [texec, cexec]
        split
        · rw [h]; trivial
        · show InReach s.conn.net.written
          rw [h]; trivial
      exact reach_run rt wt env (hp _) hnet
    | setReadDeadline => exact ih _ (hp.2 _) (by simp only [texec]; split <;> exact h)
    | setWriteDeadline => exact ih _ (hp.2 _) (by simp only [texec]; split <;> exact h)
    | close => exact ih _ (hp.2 _) (by simp only [texec, cexec]; split <;> exact h)
    | _ => exact ih _ (hp.2 _) h

theorem listens_onClientConn {α : Type} (p : RProg α) : Uses (S := CSig C) COp.listens (onClientConn p) := by
  unfold onClientConn
  induction p with
  | ret a => trivial
  | panic m => trivial
  | op o k ih => exact ⟨trivial, fun r => ih r⟩

theorem listens_ofClientRes {α : Type} (r : Res α) : Uses (S := CSig C) COp.listens (ofClientRes r) := by
  cases r <;> trivial

theorem oneExchange_handshake (host : Except Err Bytes) : OneExchange (handshake (C := C) host) := by
  unfold handshake
  cases host with
  | error e => trivial
  | ok host =>
  refine ⟨trivial, fun (fetched : Except Err PublicKey) => ?_⟩
  cases fetched with
  | error e => trivial
  | ok key =>
  refine ⟨trivial, fun (random : Except Err ID) => ?_⟩
  dsimp only
  cases uuid random with
  | error e => trivial
  | ok id =>
  refine ⟨trivial, fun (generated : Except Err C.EPriv) => ?_⟩
  cases generated with
  | error e => trivial
  | ok priv =>
  intro r
  obtain ⟨n, e⟩ := (r : Nat × Option Err)
  cases e with
  | some e => trivial
  | none =>
  dsimp only
  split
  · trivial
  refine Uses.bind (listens_onClientConn _) fun parsed => ?_
  cases parsed with
  | error e => trivial
  | ok common =>
  dsimp only
  split
  · refine Uses.bind (listens_onClientConn _) fun parsed => ?_
    cases parsed <;> trivial
  refine Uses.bind (listens_onClientConn _) fun parsed => ?_
  cases parsed with
  | error e => trivial
  | ok response =>
  refine Uses.bind (listens_ofClientRes _) fun hash => Uses.bind (listens_ofClientRes _) fun verified => ?_
  rcases verified with _ | (_ | _)
  · trivial
  · trivial
  dsimp only
  split
  · trivial
  repeat' first
    | trivial
    | split
    | refine ⟨trivial, fun _ => ?_⟩

theorem oneExchange_dial (host : Except Err Bytes) (options : ClientOptions) :
    OneExchange (dial (C := C) true host options) := by
  refine ⟨trivial, fun (r : Option Err) => ?_⟩
  cases r with
  | some e => trivial
  | none =>
  refine (oneExchange_handshake _).bind fun result => ?_
  cases result with
  | ok session => trivial
  | error e =>
    refine Uses.bind ⟨trivial, fun (r : Option Err) => ?_⟩ fun _ => trivial
    cases r <;> trivial

theorem oneExchange_fetch (network : Bytes) : OneExchange (protocolFetch (C := C) network) := by
  unfold protocolFetch
  split
  · refine ⟨trivial, fun (r : Option Err) => ?_⟩
    cases r with
    | some e => trivial
    | none =>
    refine OneExchange.bind ?_ fun result => ⟨trivial, fun _ => trivial⟩
    intro r
    obtain ⟨n, e⟩ := (r : Nat × Option Err)
    cases e with
    | some e => trivial
    | none =>
    refine Uses.bind (listens_onClientConn _) fun parsed => ?_
    cases parsed with
    | error e => trivial
    | ok common =>
    dsimp only
    split
    · refine Uses.bind (listens_onClientConn _) fun parsed => ?_
      cases parsed <;> trivial
    refine Uses.bind (listens_onClientConn _) fun parsed => ?_
    cases parsed with
    | error e => trivial
    | ok response =>
    dsimp only
    split <;> trivial
  · trivial

/-- **C161, what holds**: if a single datagram arrives, whatever it contains (cut short, or sent by somebody else), both
return, whatever the timeouts: the connection reads at most one datagram between two writes, and then reports its end. -/
theorem C161_any_datagram_partial (env : CEnv C) (host : Except Err Bytes) (options : ClientOptions) (rt wt : Int)
    (d : Bytes) (datagrams : List Bytes) (shared : CShared) (now : Nat) :
    (waitRun rt wt env (dial true host options) (beforeDial (d :: datagrams) shared now)).isSome = true ∧
    (waitRun rt wt env (protocolFetch (C := C) (str "udp")) (beforeDial (d :: datagrams) shared now)).isSome = true :=
  ⟨exchange_run rt wt env (oneExchange_dial host options) rfl, exchange_run rt wt env (oneExchange_fetch _) rfl⟩

/-- An empty datagram arrives: the client of the handshake's example gets an error. -/
example : (waitRun 5 5 HandshakeExample.env (dial true (.ok (str "example.com")) {}) (beforeDial [[]] ⟨[], []⟩ 17)).map
    (fun r => match r.1 with | .val (.error _) => true | _ => false) = some true := by decide +kernel

/-- None arrives: it waits for ever; and so does the fetcher. -/
example : (waitRun 5 5 HandshakeExample.env (dial true (.ok (str "example.com")) {})
    (beforeDial [] ⟨[], []⟩ 17)).isNone = true := by decide +kernel

example : (waitRun 5 5 HandshakeExample.env (protocolFetch (str "udp")) (beforeDial [] ⟨[], []⟩ 17)).isNone = true := by
  decide +kernel

/-- The fetcher receives the refusal of a server that hands out no keys. -/
example : (waitRun 5 5 HandshakeExample.env (protocolFetch (str "udp"))
    (beforeDial [[0, 0, 0, 0, 2, 0, 0, 0, 0, 0, 0, 0, 0]] ⟨[], []⟩ 17)).map
    (fun r => match r.1 with | .val (.error (.remote _ code message)) => (code, message) | _ => (0, [])) =
    some (2, []) := by decide +kernel

end

end Goe2ee
