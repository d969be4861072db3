import Verif.Proofs.FlowFail
import Verif.Proofs.ClientCalls
import Verif.Spec.Toy

/-!
# C122, C123: `Write` when the connection takes only so many octets
-/

set_option autoImplicit false

namespace Goe2ee

section
variable {C : Crypto}

/-! ## The statements -/

/-- A client after its handshake, without timeouts. -/
def NewClient (c : Client) : Prop :=
  c.session.isSome = true ∧ ¬ c.readTimeout > 0 ∧ ¬ c.writeTimeout > 0 ∧ c.buffer = []

/-- **C122**: every `Write` returns, whether or not the application reads the answers. -/
def C122_claim : Prop :=
  ∀ (C : Crypto), C.Lawful → ∀ (host : Except Err Bytes) (roomUp roomDown : Nat) (c : Client) (msgs : List Bytes)
    (σ : Nat → Nat × FlowEnv C), 0 < roomUp → 0 < roomDown → NewClient c → (∀ p ∈ msgs, p.length + 16 ≤ 2 ^ 30) →
    FlowFair σ →
    ∃ t, (flowAfter (inMemory C) host roomUp roomDown (writeAll c msgs) σ t).world.written.length = msgs.length

/-! ## A deadlock -/

namespace FlowDemo

/-- A server with one session, whose application answers every message with `ok`. -/
def server : (o : SOp) → o.Ret Toy.crypto
  | .read o => match o with
    | .alloc _ => ()
    | .readFull _ => .error .eof
    | .copyLimit _ => ([], none)
  | .write _ => ((0, none) : Nat × Option Err)
  | .setDeadlines => ()
  | .genKey => .error (.other "")
  | .sign _ _ => .error (.other "")
  | .fetchKey => .error (.other "")
  | .now => (0 : Nat)
  | .mapLoad _ => (some (0, 0) : Option (Ref × Nat))
  | .mapStore _ _ => ()
  | .mapDelete _ => ()
  | .pickKey => ([] : Bytes)
  | .newSession _ _ _ => (0 : Nat)
  | .secretOf _ => (List.replicate 32 7#8 : Bytes)
  | .check _ _ => true
  | .invoke _ _ _ _ _ => HRes.reply (str "ok")
  | .aead _ _ _ _ => ([] : Bytes)
  | .quitClosed => false
  | .closeQuit => true
  | .accept => .error (.other "")
  | .receive => .error (.other "")
  | .wgAdd => ()
  | .wgDone => ()
  | .wgWait => ()
  | .spawn _ => ()
  | .closeConn => ()
  | .flush => ()
  | .closeReturned => ()
  | .choose => (0 : Nat)

/-- A client whose counter is at `n`. -/
def client (n : BitVec 64) : (o : COp) → o.Ret Toy.crypto
  | .connect => (none : Option Err)
  | .setKeepAlive => (none : Option Err)
  | .read o => match o with
    | .alloc _ => ()
    | .readFull _ => .error .eof
    | .copyLimit _ => ([], none)
  | .write _ => ((0, none) : Nat × Option Err)
  | .setReadDeadline => (none : Option Err)
  | .setWriteDeadline => (none : Option Err)
  | .close => (none : Option Err)
  | .closeSocket => (none : Option Err)
  | .fetch _ => .error (.other "")
  | .random => .error (.other "")
  | .genKey => .error (.other "")
  | .newCounter => (0 : Nat)
  | .addCounter _ => n
  | .aead _ _ _ => ([] : Bytes)

/-- What happens besides the connection: the messages get the counters 1, 2 and 3. -/
def env (n : Nat) : FlowEnv Toy.crypto :=
  { server, client := client (if n < 107 then 1 else if n < 271 then 2 else 3) }

/-- A client with the same secret. -/
def conn (expectReply : Bool) : Client :=
  { host := .ok [], readTimeout := 0, writeTimeout := 0, expectReply,
    session := some { secret := List.replicate 32 7#8, id := ⟨List.replicate 16 0, rfl⟩, sendCounter := 0 },
    lastSentCounter := 0, buffer := [] }

theorem newClient (expectReply : Bool) : NewClient (conn expectReply) := ⟨rfl, Int.lt_irrefl 0, Int.lt_irrefl 0, rfl⟩

/-- The two ends take turns. -/
def turns (n : Nat) : Nat × FlowEnv Toy.crypto := (n % 2, env n)

theorem turns_fair : FlowFair turns := by
  intro i hi n
  refine ⟨2 * n + i, by omega, ?_⟩
  show (2 * n + i) % 2 = i
  omega

/-- The connection takes 16 octets in each direction. -/
def system : Nat → Flow Toy.crypto :=
  flowAfter (inMemory Toy.crypto) (.ok []) 16 16 (writeAll (conn true) [str "a", str "b", str "c"]) turns

/-- Both goroutines are about to send. -/
def bothSend (s : Flow Toy.crypto) : Bool :=
  match s.threads with
  | [.op (.send _) _, .op (.send _) _] => true
  | _ => false

theorem stuck_step {s : Flow Toy.crypto} (hb : bothSend s = true) (hu : s.world.up.length = 16)
    (hd : s.world.down.length = 16) (hc : s.world.closed = false) (act : Nat × FlowEnv Toy.crypto) :
    Loops.step (flowBody (inMemory Toy.crypto) (.ok [])) (flowExec 16 16) s act = s := by
  obtain ⟨w, threads⟩ := s
  obtain ⟨i, env⟩ := act
  simp only at hu hd hc
  unfold bothSend at hb
  split at hb
  · rename_i b k b' k' hts
    simp only at hts
    subst hts
    match i with
    | 0 =>
      have hx : flowExec 16 16 env 0 (.send b) w = none := by
        show (if w.closed = true then _ else if w.up.length < 16 then _ else _) = _
        rw [hc, hu]
        rfl
      simp only [Loops.step, List.getElem?_cons_zero, hx]
    | 1 =>
      have hx : flowExec 16 16 env 1 (.send b') w = none := by
        show (if w.down.length < 16 then _ else _) = _
        rw [hd]
        rfl
      simp only [Loops.step, List.getElem?_cons_succ, List.getElem?_cons_zero, hx]
    | i + 2 => rfl
  · cases hb

theorem stuck_at : bothSend (system 160) = true ∧ (system 160).world.up.length = 16 ∧
    (system 160).world.down.length = 16 ∧ (system 160).world.closed = false ∧
    (system 160).world.written = [(51, none)] := by decide +kernel

theorem stuck_for_ever (n : Nat) : system (160 + n) = system 160 := by
  induction n with
  | zero => rfl
  | succ n ih =>
    show Loops.step _ _ (system (160 + n)) (turns (160 + n)) = _
    rw [ih]
    exact stuck_step stuck_at.1 stuck_at.2.1 stuck_at.2.2.1 stuck_at.2.2.2.1 _

/-- Before that, results are only added. -/
theorem few_before : ∀ t < 160, (system t).world.written.length < 3 := by decide +kernel

end FlowDemo

/-- The claim does not hold: with an application that never reads, as the chat example (it calls only `Encode`,
examples/chat/cmd/user/main.go:282-286, and uses no timeout), the server cannot send its answers once the connection is
full, does not read any more, and the second `Write` never returns. -/
theorem C122_refuted : ¬ C122_claim := by
  intro h
  obtain ⟨t, ht⟩ := h Toy.crypto Toy.lawful (.ok []) 16 16 (FlowDemo.conn true) [str "a", str "b", str "c"] FlowDemo.turns
    (by omega) (by omega) (FlowDemo.newClient true) (by decide +kernel) FlowDemo.turns_fair
  have ht : (FlowDemo.system t).world.written.length = 3 := ht
  rcases Nat.lt_or_ge t 160 with hlt | hge
  · have := FlowDemo.few_before t hlt
    omega
  · obtain ⟨n, rfl⟩ := Nat.exists_eq_add_of_le hge
    rw [FlowDemo.stuck_for_ever, FlowDemo.stuck_at.2.2.2.2] at ht
    cases ht

/-! ## What holds -/

variable {M : Manager C}

/-- **C122**: however the two ends are scheduled and whatever the application at the server replies, an application that
asks for answers and does not read them has at most `roomUp + roomDown + 2` of its messages accepted. -/
theorem C122_bounded (hC : C.Lawful) (hM : M.Passive) (host : Except Err Bytes) (roomUp roomDown : Nat) (c : Client)
    (hs : c.session.isSome = true) (he : c.expectReply = true) (msgs : List Bytes)
    (hm : ∀ p ∈ msgs, p.length + 16 ≤ 2 ^ 30) (acts : List (Nat × FlowEnv C)) :
    (flowRun M host roomUp roomDown (writeAll c msgs) acts).world.written.countP (·.2.isNone) ≤ roomUp + roomDown + 2 := by
  cases acts with
  | nil => exact Nat.zero_le _
  | cons act acts =>
    rw [flowRun_trace _ _ act.2, flowAfter_trace]
    have hi := trace_invW (P := fun _ => True) (er := true) (host := host) (roomUp := roomUp) (roomDown := roomDown)
      (σ := fun n => (act :: acts).getD n (0, act.2)) hM msgs.length
      (fun _ _ _ _ _ _ _ _ => trivial) (writeOnly_writeAll hC msgs hm c ⟨he, hs⟩) (act :: acts).length
    obtain ⟨st, m, -, hu, hd, -, h⟩ := hi
    rcases h with ⟨-, -, h⟩ | ⟨-, h⟩
    · exact Nat.le_trans (Nat.le_add_right _ _) (h rfl)
    · exact Nat.le_trans (Nat.le_add_right _ _) (open_bound h hu hd rfl)

theorem replyBound (hC : C.Lawful) (er : Bool) (l : Nat) :
    ReplyBound C (fun bs => bs.length ≤ l) er (max 65 (33 + l)) := by
  intro out h
  rcases h with ⟨-, rfl⟩ | ⟨code, text, ht, rfl⟩ | ⟨counter, key, nonce, bs, hb, rfl⟩
  · exact Nat.zero_le _
  · simp only [ErrorResponse.bytes, newErrorResponse, ResponseCommon.bytes, List.length_append, beEnc_length]
    refine Nat.le_trans ?_ (Nat.le_max_left _ _)
    have h2 : 1 + 4 + 8 + text.length ≤ 65 := by omega
    exact h2
  · simp only [ProcessResponse.bytes, newProcessResponse, ResponseCommon.bytes, List.length_append, beEnc_length,
      hC.seal_length]
    have hb : bs.length ≤ l := hb
    split <;> simp only [List.length_cons, List.length_nil] <;> omega

/-- **C122, for few messages**: if the connection has room for all the answers, every `Write` returns.  Missing: any
number of messages (this does not hold, `C122_refuted`). -/
theorem C122_room_partial (hC : C.Lawful) (hM : M.Passive) (host : Except Err Bytes) (roomUp roomDown : Nat) (c : Client)
    (hs : c.session.isSome = true) (msgs : List Bytes) (hm : ∀ p ∈ msgs, p.length + 16 ≤ 2 ^ 30)
    (σ : Nat → Nat × FlowEnv C) (hfair : FlowFair σ) (hup : 0 < roomUp) (l : Nat)
    (hreply : ∀ t r counter host id message bs, (σ t).2.server (.invoke r counter host id message) = .reply bs →
      bs.length ≤ l)
    (hroom : msgs.length * max 65 (33 + l) ≤ roomDown) :
    ∃ t, (flowAfter M host roomUp roomDown (writeAll c msgs) σ t).world.written.length = msgs.length := by
  have hσ : ∀ m, EnvGood (fun bs : Bytes => bs.length ≤ l) (σ m).2 :=
    fun m r counter host id message bs h => hreply m r counter host id message bs h
  have hinv := trace_invW (host := host) (roomUp := roomUp) (roomDown := roomDown) hM msgs.length hσ
    (writeOnly_writeAll (C := C) hC msgs hm c ⟨rfl, hs⟩)
  obtain ⟨t, ht⟩ := writeOnly_ends hM hfair hup hinv hσ _ (replyBound hC c.expectReply l) hroom _ 0 rfl
  refine ⟨t, ?_⟩
  rw [flowAfter_trace]
  obtain ⟨st, m, hw, -, -, hn, -⟩ := hinv t
  rw [ht] at hw
  obtain ⟨-, rfl, rfl⟩ := hw
  simpa [Sending.begun] using hn

/-- **C123**: an application that reads after each message is not held up, however few octets the connection takes: every
message is exchanged for an answer (or an error), unless the server closes the connection. -/
theorem C123_every_exchange_completes (hC : C.Lawful)
    (hopen : ∀ k n x p, C.aeadOpen k n x = some p → p.length ≤ x.length) (hM : M.Passive) (host : Except Err Bytes)
    (roomUp roomDown : Nat) (c : Client) (hc : NewClient c) (he : c.expectReply = true) (msgs : List Bytes)
    (hm : ∀ p ∈ msgs, p.length + 16 ≤ 2 ^ 30) (σ : Nat → Nat × FlowEnv C) (hfair : FlowFair σ) (hup : 0 < roomUp)
    (hdown : 0 < roomDown) (hb : ∀ t, (σ t).2.Benign)
    (hreply : ∀ t r counter host id message bs, (σ t).2.server (.invoke r counter host id message) = .reply bs →
      bs.length + 16 ≤ 2 ^ 30) :
    ∃ t, (flowAfter M host roomUp roomDown (exchangeAll c msgs) σ t).world.got.length = msgs.length ∨
      ((flowAfter M host roomUp roomDown (exchangeAll c msgs) σ t).world.closed = true ∧
        ∃ r ∈ (flowAfter M host roomUp roomDown (exchangeAll c msgs) σ t).world.written, r.2 ≠ none) := by
  have hσ : ∀ m, EnvGood ShortReply (σ m).2 :=
    fun m r counter host id message bs h => hreply m r counter host id message bs h
  have hinv := trace_invX (host := host) (roomUp := roomUp) (roomDown := roomDown) hM msgs.length hσ
    (exchanges_exchangeAll (C := C) hC hopen (fun _ h => h) msgs hm c ⟨he, hc.1, hc.2.1, hc.2.2.2⟩)
    (tally_exchangeAll msgs c hc.1)
  have husable : UsableClient C c := by
    obtain ⟨s, hs⟩ := Option.isSome_iff_exists.mp hc.1
    obtain ⟨key, -, hk⟩ := newGCM_ok hC s.secret
    exact ⟨s, key, hs, hk⟩
  by_cases hok : ∃ t, (flowTrace M host roomUp roomDown (atStart (exchangeAll c msgs)) σ t).2.2.failed
  · obtain ⟨t, hf⟩ := hok
    obtain ⟨x, -, -, -, hcl⟩ := trace_invF (M := M) (host := host) (roomUp := roomUp) (roomDown := roomDown) hb
      (failsClosed_exchangeAll msgs c husable false) t
    refine ⟨t, .inr ?_⟩
    rw [flowAfter_trace]
    exact ⟨hcl hf, hf⟩
  · obtain ⟨t, ht⟩ := exchanges_done hM hfair hup hdown hinv hσ (fun m h => hok ⟨m, h⟩) _ 0 rfl
    refine ⟨t, .inl ?_⟩
    rw [flowAfter_trace]
    exact ht

/-- **C123**: a `Write` reports an error only if the server has closed the connection, in any schedule. -/
theorem C123_write_fails_when_closed (hC : C.Lawful) (host : Except Err Bytes) (roomUp roomDown : Nat) (c : Client)
    (hs : c.session.isSome = true) (msgs : List Bytes) (σ : Nat → Nat × FlowEnv C) (hb : ∀ t, (σ t).2.Benign) (t : Nat)
    (r : Nat × Option Err) (he : r.2 ≠ none) :
    (r ∈ (flowAfter M host roomUp roomDown (writeAll c msgs) σ t).world.written →
      (flowAfter M host roomUp roomDown (writeAll c msgs) σ t).world.closed = true) ∧
    (r ∈ (flowAfter M host roomUp roomDown (exchangeAll c msgs) σ t).world.written →
      (flowAfter M host roomUp roomDown (exchangeAll c msgs) σ t).world.closed = true) := by
  have husable : UsableClient C c := by
    obtain ⟨s, hs⟩ := Option.isSome_iff_exists.mp hs
    obtain ⟨key, -, hk⟩ := newGCM_ok hC s.secret
    exact ⟨s, key, hs, hk⟩
  rw [flowAfter_trace, flowAfter_trace]
  constructor
  · intro hr
    obtain ⟨x, -, -, -, h⟩ := trace_invF (M := M) (host := host) (roomUp := roomUp) (roomDown := roomDown) hb
      (failsClosed_writeAll msgs c husable false) t
    exact h ⟨r, hr, he⟩
  · intro hr
    obtain ⟨x, -, -, -, h⟩ := trace_invF (M := M) (host := host) (roomUp := roomUp) (roomDown := roomDown) hb
      (failsClosed_exchangeAll msgs c husable false) t
    exact h ⟨r, hr, he⟩

end

/-! ## Examples -/

section
open FlowDemo

/-- With room for the answers all three messages are accepted though none of the answers is read. -/
example : (flowAfter (inMemory Toy.crypto) (.ok []) 16 195 (writeAll (conn true) [str "a", str "b", str "c"]) turns 700).world.written =
    [(51, none), (51, none), (51, none)] := by decide +kernel

/-- The same messages over a connection that takes one octet at a time, each answer being read. -/
example : (flowAfter (inMemory Toy.crypto) (.ok []) 1 1 (exchangeAll (conn true) [str "a", str "b"]) turns 800).world.got =
    [(str "ok", some .eof), (str "ok", some .eof)] := by decide +kernel

/-- An application that panics: the server closes the connection, the second `Write` fails and the application stops. -/
example : (flowAfter (inMemory Toy.crypto) (.ok []) 64 64 (exchangeAll (conn true) [str "a", str "b"])
      (fun n => (n % 2, { env n with server := fun o => match o with
        | .invoke _ _ _ _ _ => HRes.panic "boom"
        | o => server o })) 400).world =
    { up := [], down := [], closed := true, written := [(51, none), (0, some (.other "connection closed"))],
      got := [([], some (.wrap "failed to parse response" .unexpectedEOF))] } := by decide +kernel

end

end Goe2ee
