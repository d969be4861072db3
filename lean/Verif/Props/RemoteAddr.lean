import Verif.Model.ClientUDP
import Verif.Proofs.Local
import Verif.Props.Handshake

/-!
# C154: a client knows the address of its server
-/

set_option autoImplicit false

namespace Goe2ee

section
variable {C : Crypto}

/-- A connected socket receives datagrams of its peer only. -/
def OnlyFrom (peer : Bytes) (queue : List (Except Err Datagram)) : Prop := ∀ d, .ok d ∈ queue → d.source = peer

/-! ## The connection type and the model of the other theorems -/

/-- The part of the connection that the model of `Verif.Model.ClientExec` keeps. -/
def UDPSocket.toConn (u : UDPSocket) : CConn :=
  { net := .udp u.conn.connRead u.conn.readBuffer (u.queue.map fun d => d.map (·.payload)), writes := u.writes,
    isOpen := u.isOpen }

theorem readUDP_toConn (u : UDPSocket) (k : Nat) (hk : 0 < k) :
    (readNet u.toConn.net k).1 = (readUDP u k).1 ∧
    { u.toConn with net := (readNet u.toConn.net k).2 } = (readUDP u k).2.toConn := by
  obtain ⟨⟨connRead, addr, rb, wb, buffered⟩, queue, writes, isOpen⟩ := u
  have hk' : k ≠ 0 := by omega
  cases connRead with
  | true =>
    simp only [UDPSocket.toConn, readNet, readUDP, UDPConn.read, readDatagram, bufferRead]
    by_cases h : rb = [] <;> simp [h, hk']
  | false =>
    rcases queue with _ | ⟨_ | d, queue⟩
    · simp [UDPSocket.toConn, readNet, readUDP, UDPConn.read, UDPConn.receive]
    · simp [UDPSocket.toConn, readNet, readUDP, UDPConn.read, UDPConn.receive, Except.map]
    · simp only [UDPSocket.toConn, readNet, readUDP, UDPConn.read, UDPConn.receive, Except.map, List.map_cons,
        readDatagram, bufferRead]
      by_cases h : d.payload = [] <;> simp [h, hk']

/-- Readers that agree read after read agree. -/
theorem readInterp_agree {σ τ : Type} {rd : ReadFn σ} {rd' : ReadFn τ} {f : σ → τ}
    (h : ∀ s k, 0 < k → rd' (f s) k = ((rd s k).1, f (rd s k).2)) (o : ROp) (s : σ) :
    readInterp rd' o (f s) = ((readInterp rd o s).1, f (readInterp rd o s).2) := by
  have hfull : ∀ fuel r acc s, readFullLoop rd' fuel r acc (f s) =
      ((readFullLoop rd fuel r acc s).1, f (readFullLoop rd fuel r acc s).2) := by
    intro fuel
    induction fuel with
    | zero => intro r acc s; cases r <;> rfl
    | succ fuel ih =>
      intro r acc s
      cases r with
      | zero => rfl
      | succ r =>
        have hr := h s (r + 1) (by omega)
        simp only [readFullLoop]
        rw [hr]
        generalize rd s (r + 1) = x
        obtain ⟨⟨bs, err⟩, s'⟩ := x
        dsimp only
        split
        · rfl
        · cases err with
          | none => exact ih _ _ _
          | some e => rfl
  have hcopy : ∀ fuel r acc s, copyLoop rd' fuel r acc (f s) =
      ((copyLoop rd fuel r acc s).1, f (copyLoop rd fuel r acc s).2) := by
    intro fuel
    induction fuel with
    | zero => intro r acc s; cases r <;> rfl
    | succ fuel ih =>
      intro r acc s
      cases r with
      | zero => rfl
      | succ r =>
        have hr := h s (r + 1) (by omega)
        simp only [copyLoop]
        rw [hr]
        generalize rd s (r + 1) = x
        obtain ⟨⟨bs, err⟩, s'⟩ := x
        dsimp only
        cases err with
        | none => exact ih _ _ _
        | some e => cases e <;> rfl
  cases o with
  | alloc n => rfl
  | readFull n => exact hfull _ _ _ _
  | copyLimit n => exact hcopy _ _ _ _

theorem uexec_toConn (env : CEnv C) (o : COp) (u : UDPSocket) (w : CShared) (hu : u.conn.writeBuffered = false)
    (hw : u.conn.writeBuffer = []) :
    cexec env o (u.toConn, w) = ((uexec env o (u, w)).1, ((uexec env o (u, w)).2.1.toConn, (uexec env o (u, w)).2.2)) ∧
    (uexec env o (u, w)).2.1.conn.writeBuffered = false ∧ (uexec env o (u, w)).2.1.conn.writeBuffer = [] := by
  have hread : ∀ u : UDPSocket, ∀ k, (readUDP u k).2.conn.writeBuffered = u.conn.writeBuffered ∧
      (readUDP u k).2.conn.writeBuffer = u.conn.writeBuffer := by
    intro u k
    obtain ⟨⟨connRead, addr, rb, wb, buffered⟩, queue, writes, isOpen⟩ := u
    cases connRead with
    | true => exact ⟨rfl, rfl⟩
    | false => rcases queue with _ | ⟨_ | d, queue⟩ <;> exact ⟨rfl, rfl⟩
  cases o with
  | read o =>
    refine ⟨?_, ?_⟩
    · have h := readInterp_agree (rd := readUDP) (rd' := fun (c : CConn) k => ((readNet c.net k).1, { c with net := (readNet c.net k).2 }))
        (f := UDPSocket.toConn) (fun s k hk => Prod.ext (readUDP_toConn s k hk).1 (readUDP_toConn s k hk).2) o u
      have h' := readInterp_agree (rd := fun (c : CConn) k => ((readNet c.net k).1, { c with net := (readNet c.net k).2 }))
        (rd' := readNet) (f := CConn.net) (fun s k hk => rfl) o u.toConn
      have h'' := readInterp_keeps (rd := fun (c : CConn) k => ((readNet c.net k).1, { c with net := (readNet c.net k).2 }))
        (P := fun c => c.writes = u.writes ∧ c.isOpen = u.isOpen) (fun s k h => h) o u.toConn ⟨rfl, rfl⟩
      rw [h] at h' h''
      show ((readInterp readNet o u.toConn.net).1, ({ u.toConn with net := (readInterp readNet o u.toConn.net).2 }, w)) = _
      rw [h']
      refine Prod.ext rfl (Prod.ext ?_ rfl)
      obtain ⟨h1, h2⟩ := h''
      show ({ net := (readInterp readUDP o u).2.toConn.net, writes := u.writes, isOpen := u.isOpen } : CConn) = _
      rw [← h1, ← h2]
      rfl
    · exact readInterp_keeps (rd := readUDP) (P := fun u => u.conn.writeBuffered = false ∧ u.conn.writeBuffer = [])
        (fun s k h => ⟨(hread s k).1.trans h.1, (hread s k).2.trans h.2⟩) o u ⟨hu, hw⟩
  | write bs =>
    obtain ⟨⟨connRead, addr, rb, wb, buffered⟩, queue, writes, isOpen⟩ := u
    cases hu
    cases hw
    exact ⟨rfl, rfl, rfl⟩
  | close =>
    obtain ⟨⟨connRead, addr, rb, wb, buffered⟩, queue, writes, isOpen⟩ := u
    cases hu
    cases hw
    exact ⟨rfl, rfl, rfl⟩
  | _ => exact ⟨rfl, hu, hw⟩

/-- **C154**, the connection type: whatever a client does, over `UDPConn` it has the results, sends the datagrams and uses
the shared state as in the model of which the other theorems about clients over UDP speak. -/
theorem C154_same {α : Type} (env : CEnv C) (p : CProg C α) (queue : List (Except Err Datagram)) (w : CShared) :
    let r := runUDP env p (.fresh queue, w)
    runClient env p ({ net := .udp false [] (queue.map fun d => d.map (·.payload)), writes := [], isOpen := false }, w) =
      (r.1, (r.2.1.toConn, r.2.2)) := by
  suffices h : ∀ (u : UDPSocket) (w : CShared), u.conn.writeBuffered = false → u.conn.writeBuffer = [] →
      runClient env p (u.toConn, w) = ((runUDP env p (u, w)).1, ((runUDP env p (u, w)).2.1.toConn, (runUDP env p (u, w)).2.2)) from
    h (.fresh queue) w rfl rfl
  intro u w hu hw
  induction p generalizing u w with
  | ret a => rfl
  | panic m => rfl
  | op o k ih =>
    obtain ⟨h1, h2, h3⟩ := uexec_toConn env o u w hu hw
    show (k (cexec env o (u.toConn, w)).1).run (cexec env) (cexec env o (u.toConn, w)).2 = _
    rw [h1]
    exact ih _ _ _ h2 h3

/-! ## The address -/

/-- The address is the peer's, if known; nothing else can arrive. -/
def AddrOf (peer : Bytes) (u : UDPSocket) : Prop :=
  (u.remoteAddr = none ∨ u.remoteAddr = some peer) ∧ OnlyFrom peer u.queue

/-- The address is known. -/
def Heard (peer : Bytes) (u : UDPSocket) : Prop := u.remoteAddr = some peer ∧ OnlyFrom peer u.queue

theorem readUDP_cases (peer : Bytes) (u : UDPSocket) (k : Nat) (h : AddrOf peer u) :
    AddrOf peer (readUDP u k).2 ∧ (u.remoteAddr = some peer → (readUDP u k).2.remoteAddr = some peer) ∧
    (u.conn.connRead = false → (readUDP u k).1.1 ≠ [] → (readUDP u k).2.remoteAddr = some peer) := by
  obtain ⟨⟨connRead, addr, rb, wb, buffered⟩, queue, writes, isOpen⟩ := u
  cases connRead with
  | true => exact ⟨h, id, fun hf => by cases hf⟩
  | false =>
    rcases queue with _ | ⟨e | d, queue⟩
    · exact ⟨h, id, fun _ h => absurd rfl h⟩
    · exact ⟨⟨h.1, fun d hd => h.2 d (List.mem_cons_of_mem _ hd)⟩, id, fun _ h => absurd rfl h⟩
    · have hs : d.source = peer := h.2 d List.mem_cons_self
      have hq : OnlyFrom peer queue := fun d hd => h.2 d (List.mem_cons_of_mem _ hd)
      have ha : (readUDP ⟨⟨false, addr, rb, wb, buffered⟩, .ok d :: queue, writes, isOpen⟩ k).2.remoteAddr = some peer := by
        show some d.source = _
        rw [hs]
      exact ⟨⟨.inr ha, hq⟩, fun _ => ha, fun _ _ => ha⟩

theorem uexec_addr (peer : Bytes) (env : CEnv C) (o : COp) (s : UDPSocket × CShared) :
    (AddrOf peer s.1 → AddrOf peer (uexec env o s).2.1) ∧ (Heard peer s.1 → Heard peer (uexec env o s).2.1) := by
  obtain ⟨u, w⟩ := s
  have hclose : ∀ (c : UDPConn) a, (c.close a).2.2.addr = c.addr := by
    intro c a
    rw [UDPConn.close]
    split
    · rfl
    · split
      · rfl
      · split <;> rfl
  cases o with
  | read o =>
    refine ⟨fun h => readInterp_keeps (fun u k h => (readUDP_cases peer u k h).1) o u h, fun h => ?_⟩
    refine readInterp_keeps (P := Heard peer) (fun u k h => ?_) o u h
    exact ⟨(readUDP_cases peer u k ⟨.inr h.1, h.2⟩).2.1 h.1, (readUDP_cases peer u k ⟨.inr h.1, h.2⟩).1.2⟩
  | write bs =>
    have hw : ∀ a, (u.conn.write true a bs).2.2.addr = u.conn.addr := by
      intro a
      rw [UDPConn.write]
      split <;> rfl
    unfold AddrOf Heard UDPSocket.remoteAddr
    simp only [uexec, hw]
    exact ⟨id, id⟩
  | close =>
    unfold AddrOf Heard UDPSocket.remoteAddr
    simp only [uexec, hclose]
    exact ⟨id, id⟩
  | _ => exact ⟨id, id⟩

theorem runUDP_keeps {α : Type} {P : UDPSocket → Prop} {env : CEnv C}
    (hP : ∀ o s, P s.1 → P (uexec env o s).2.1) (p : CProg C α) (s : UDPSocket × CShared) (h : P s.1) :
    P (runUDP env p s).2.1 := by
  induction p generalizing s with
  | ret a => exact h
  | panic m => exact h
  | op o k ih => exact ih _ _ (hP o s h)

/-- **C154**, from then on: whatever the client does, the address stays the server's, once known. -/
theorem C154_stays {α : Type} (env : CEnv C) (p : CProg C α) (peer : Bytes) (u : UDPSocket) (w : CShared)
    (hu : u.remoteAddr = some peer) (hq : OnlyFrom peer u.queue) :
    (runUDP env p (u, w)).2.1.remoteAddr = some peer ∧ OnlyFrom peer (runUDP env p (u, w)).2.1.queue :=
  runUDP_keeps (P := Heard peer) (fun o s => (uexec_addr peer env o s).2) p (u, w) ⟨hu, hq⟩

theorem octet_heard (peer : Bytes) (u : UDPSocket) (h : AddrOf peer u) (hr : u.conn.connRead = false)
    (hb : (readInterp readUDP (.copyLimit 1) u).1.1 ≠ []) : Heard peer (readInterp readUDP (.copyLimit 1) u).2 := by
  obtain ⟨h1, -, h3⟩ := readUDP_cases peer u 1 h
  have hs : (copyLimit readUDP 1 u).1.1 = (readUDP u 1).1.1 ∧ (copyLimit readUDP 1 u).2 = (readUDP u 1).2 := by
    show (copyLoop readUDP 1 1 [] u).1.1 = _ ∧ (copyLoop readUDP 1 1 [] u).2 = _
    simp only [copyLoop]
    generalize readUDP u (0 + 1) = x
    obtain ⟨⟨bs, err⟩, s'⟩ := x
    cases err with
    | none =>
      rcases bs with _ | ⟨b, bs⟩
      · exact ⟨rfl, rfl⟩
      · have : 0 + 1 - (b :: bs).length = 0 := by simp
        dsimp only
        rw [this]
        exact ⟨rfl, rfl⟩
    | some e => cases e <;> exact ⟨rfl, rfl⟩
  show Heard peer (copyLimit readUDP 1 u).2
  have hb' : (copyLimit readUDP 1 u).1.1 ≠ [] := hb
  rw [hs.1] at hb'
  rw [hs.2]
  exact ⟨h3 hr hb', h1.2⟩

theorem common_heard (peer : Bytes) (env : CEnv C) (u : UDPSocket) (w : CShared) (h : AddrOf peer u)
    (hr : u.conn.connRead = false) (common : ResponseCommon)
    (hok : (runUDP env (onClientConn parseResponseCommon) (u, w)).1 = .val (.ok common)) :
    Heard peer (runUDP env (onClientConn parseResponseCommon) (u, w)).2.1 := by
  have ho := octet_heard peer u h hr
  unfold parseResponseCommon readOctet onClientConn at hok ⊢
  simp only [Prog.lift, Prog.bind, runUDP, Prog.run, uexec] at hok ⊢
  revert ho hok
  generalize readInterp readUDP (.copyLimit 1) u = x
  obtain ⟨⟨bs, err⟩, s'⟩ := x
  intro ho hok
  by_cases hb : bs = []
  · subst hb
    cases err with
    | none => cases hok
    | some e =>
      exfalso
      revert hok
      dsimp only
      split
      · intro hok; cases hok
      · intro hok; cases hok
  · exact runUDP_keeps (P := Heard peer) (fun o s => (uexec_addr peer env o s).2) _ (s', w) (ho hb)

theorem handshake_heard (peer : Bytes) (env : CEnv C) (host : Except Err Bytes) (u : UDPSocket) (w : CShared)
    (h : AddrOf peer u) (hb : u.conn.writeBuffered = false) (session : ClientSession)
    (hok : (runUDP env (handshake host) (u, w)).1 = .val (.ok session)) :
    Heard peer (runUDP env (handshake host) (u, w)).2.1 := by
  unfold handshake at hok ⊢
  cases host with
  | error e => cases hok
  | ok host =>
  simp only [runUDP, Prog.run, uexec] at hok ⊢
  cases hf : env.fetch host with
  | error e => rw [hf] at hok; cases hok
  | ok key =>
  simp only [hf, Prog.run, uexec] at hok ⊢
  cases hu : uuid env.random with
  | error e => rw [hu] at hok; cases hok
  | ok id =>
  simp only [hu, Prog.run, uexec] at hok ⊢
  cases hg : env.genKey with
  | error e => rw [hg] at hok; cases hok
  | ok priv =>
  simp only [hg, Prog.run, uexec] at hok ⊢
  have hw : ∀ a bs, u.conn.write true a bs = (a, [⟨bs, none⟩], { u.conn with connRead := false }) := by
    intro a bs
    rw [UDPConn.write, if_neg (by rw [hb]; exact Bool.false_ne_true), if_pos rfl]
  simp only [hw] at hok ⊢
  cases he : env.write.2 with
  | some e => rw [he] at hok; cases hok
  | none =>
  simp only [he] at hok ⊢
  by_cases hn : (newSetupRequest C id (C.epub priv)).bytes.length - env.write.1 ≠ (newSetupRequest C id (C.epub priv)).bytes.length
  · rw [if_pos hn] at hok; cases hok
  rw [if_neg hn, Prog.run_bind] at hok ⊢
  have hheard := common_heard peer env
    { u with conn := { u.conn with connRead := false },
             writes := u.writes ++ [((newSetupRequest C id (C.epub priv)).bytes,
               (newSetupRequest C id (C.epub priv)).bytes.length - env.write.1, none)] } w h rfl
  dsimp only [runUDP] at hheard
  revert hheard hok
  generalize Prog.run (uexec env) (onClientConn parseResponseCommon) _ = x
  obtain ⟨_ | m, s'⟩ := x
  · rename_i a
    intro hok hheard
    cases a with
    | error e => cases hok
    | ok common => exact runUDP_keeps (P := Heard peer) (fun o s => (uexec_addr peer env o s).2) _ s' (hheard common rfl)
  · intro hok
    cases hok

/-- **C154**: after a successful `DialUDP`, `RemoteAddr` is the address of the server. -/
theorem C154_dialled (env : CEnv C) (host : Except Err Bytes) (options : ClientOptions) (peer : Bytes)
    (queue : List (Except Err Datagram)) (hq : OnlyFrom peer queue) (w : CShared) (c : Client)
    (hok : (runUDP env (dialUDP host options) (.fresh queue, w)).1 = .val (.ok c)) :
    (runUDP env (dialUDP host options) (.fresh queue, w)).2.1.remoteAddr = some peer ∧
    OnlyFrom peer (runUDP env (dialUDP host options) (.fresh queue, w)).2.1.queue := by
  unfold dialUDP at hok ⊢
  simp only [runUDP, Prog.run, uexec] at hok ⊢
  cases hc : env.connect with
  | some e => rw [hc] at hok; cases hok
  | none =>
  simp only [hc] at hok ⊢
  unfold handshakeOrClose at hok ⊢
  rw [Prog.run_bind] at hok ⊢
  have hh := handshake_heard peer env (newClient host options).host
    { UDPSocket.fresh queue with isOpen := (UDPSocket.fresh queue).isOpen || (none : Option Err).isNone } w
    ⟨.inl rfl, hq⟩ rfl
  dsimp only [runUDP] at hh
  revert hh hok
  generalize Prog.run (uexec env) (handshake (newClient host options).host) _ = x
  obtain ⟨_ | m, s'⟩ := x
  · rename_i a
    intro hok hh
    cases a with
    | error e =>
      simp only [Client.close, Prog.bind, Prog.run] at hok
      revert hok
      split <;> (intro hok; cases hok)
    | ok session => exact hh session rfl
  · intro hok
    cases hok

end

namespace RemoteAddrExample

open HandshakeExample

/-- `DialUDP` and then calls on the client, with these datagrams: was the dial successful, and the address. -/
def after (queue : Bytes → List (Except Err Datagram)) (calls : List CCall) : Bool × Option Bytes :=
  let key : PrivateKey Toy.crypto := .ed25519 (77 : BitVec 256)
  let r := runUDP env ((dialUDP (.ok (str "example.com")) {}).bind fun r =>
      (match r with
        | .error _ => .ret false
        | .ok c => (c.calls calls).bind fun _ => .ret true : CProg Toy.crypto Bool))
    (.fresh (queue (served key).1), ⟨[], []⟩)
  (match r.1 with
    | .val b => b
    | .panic _ => false, r.2.1.remoteAddr)

/-- A dial that succeeds; one followed by a message, a lost reply and a stray datagram of the server; a dial without an
answer. -/
example :
    after (fun reply => [.ok ⟨reply, str "10.0.0.9:7000"⟩]) [] = (true, some (str "10.0.0.9:7000")) ∧
    after (fun reply => [.ok ⟨reply, str "10.0.0.9:7000"⟩, .error .timeout, .ok ⟨[1], str "10.0.0.9:7000"⟩])
      [.write (str "hi"), .read 8, .read 8] = (true, some (str "10.0.0.9:7000")) ∧
    after (fun _ => [.error .timeout]) [] = (false, none) := by decide +kernel

end RemoteAddrExample

end Goe2ee
