import Verif.Props.Deadlines

/-!
# C75: servers that fall silent
-/

set_option autoImplicit false

namespace Goe2ee

section
variable {C : Crypto}

/-- The server has sent these chunks; then it sends nothing more and does not close. -/
def silentAfter (chunks : List Bytes) : Transport := .tcp (chunks.map Ev.data ++ [.fail .timeout])

/-- With timeouts, every `DialTCP`, every `Read` of a dialled client, and every borrow test returns,
even if the server falls silent. -/
def C75_claim : Prop :=
  ∀ (C : Crypto) (env : CEnv C) (host : Except Err Bytes) (options : ClientOptions) (chunks : List Bytes)
    (shared : CShared) (now : Nat), C.Lawful → 0 < options.readTimeout → 0 < options.writeTimeout →
    (waitRun options.readTimeout options.writeTimeout env (dial false host options)
      ⟨⟨silentAfter chunks, [], false⟩, shared, now, none, none⟩).isSome = true ∧
    ∀ c s, UsedT (C := C) c s → 0 < c.readTimeout → 0 < c.writeTimeout →
      s.conn.net = silentAfter chunks →
      (∀ n, (waitRun c.readTimeout c.writeTimeout env (c.read n) s).isSome = true) ∧
      (waitRun c.readTimeout c.writeTimeout env testOnBorrow s).isSome = true

/-- A program that starts with a read deadline does not wait for ever. -/
theorem waitRun_deadline {α : Type} {rt wt : Int} {env : CEnv C} {p : CProg C α} {s : Timed}
    (h : s.readBy.isSome = true) : (waitRun rt wt env p s).isSome = true := by
  induction p generalizing s with
  | ret a => rfl
  | panic m => rfl
  | op o k ih =>
    rw [waitRun]
    rw [if_neg (by rw [Option.isNone_eq_false_iff.mpr h]; simp)]
    refine ih _ ?_
    obtain ⟨-, h1, -⟩ := texec_deadlines (rt := rt) (wt := wt) (env := env) o s
    by_cases ho : o = .setReadDeadline
    · subst ho
      simp only [texec]
      split
      · exact h
      · rfl
    · rw [h1 ho]; exact h

/-- **C75**, what holds for reading: with a read timeout, `Read` returns whatever the server does. -/
theorem C75_read_partial (env : CEnv C) (c : Client) (s : Timed) (n : Nat) (hrt : 0 < c.readTimeout) :
    (waitRun c.readTimeout c.writeTimeout env (c.read n) s).isSome = true := by
  unfold Client.read
  rw [if_pos hrt]
  simp only [Prog.bind, waitRun, opTimedOut, Bool.false_and, Bool.false_eq_true, ↓reduceIte]
  rcases hd : env.readDeadline with _ | e
  · exact waitRun_deadline (by simp [texec, hd])
  · simp only [texec, hd, waitRun, Option.isSome_some]

/-- What holds for the borrow test: it returns if a read deadline is set on the connection, as it is once
a `Read` has set one. -/
theorem C75_test_partial (rt wt : Int) (env : CEnv C) (s : Timed) (h : s.readBy.isSome = true) :
    (waitRun rt wt env testOnBorrow s).isSome = true :=
  waitRun_deadline h

theorem waitRun_op {α : Type} {rt wt : Int} {env : CEnv C} {o : COp} {k : o.Ret C → CProg C α} {s s' : Timed}
    {r : o.Ret C} (h : texec rt wt env o s = (r, s')) (hn : opTimedOut o r = false) :
    waitRun rt wt env (.op (S := CSig C) o k) s = waitRun rt wt env (k r) s' := by
  rw [waitRun]
  simp only [h]
  rw [hn]
  rfl

/-- The first octet of a silent server is waited for. -/
theorem waitRun_silent {α : Type} {rt wt : Int} {env : CEnv C} {s : Timed}
    {f : Except Err ResponseCommon → CProg C α} (hnet : s.conn.net = silentAfter []) (hby : s.readBy = none) :
    waitRun rt wt env ((onClientConn parseResponseCommon).bind f) s = none := by
  obtain ⟨⟨net, writes, isOpen⟩, shared, now, readBy, writeBy⟩ := s
  subst hnet hby
  rfl

/-- `DialTCP` waits for ever when the server accepts the connection and the setup request and sends
nothing, whatever timeouts the options set. -/
theorem C75_dial_waits (env : CEnv C) (host : Bytes) (options : ClientOptions) (shared : CShared)
    (now : Nat) (key : PublicKey) (random : ID) (priv : C.EPriv)
    (hc : env.connect = none) (hka : env.keepAlive = none) (hf : env.fetch host = .ok key)
    (hr : env.random = .ok random) (hg : env.genKey = .ok priv) (hw : env.write = (0, none)) :
    waitRun options.readTimeout options.writeTimeout env (dial false (.ok host) options)
      ⟨⟨silentAfter [], [], false⟩, shared, now, none, none⟩ = none := by
  refine (waitRun_op (o := .connect) (r := none)
    (s' := ⟨⟨silentAfter [], [], true⟩, shared, now, none, none⟩) (by simp only [texec, cexec, hc]; rfl) rfl).trans ?_
  refine (waitRun_op (o := .setKeepAlive) (r := none)
    (s' := ⟨⟨silentAfter [], [], true⟩, shared, now, none, none⟩) (by simp only [texec, cexec, hka]) rfl).trans ?_
  refine (waitRun_op (o := .fetch host) (r := .ok key)
    (s' := ⟨⟨silentAfter [], [], true⟩, shared, now, none, none⟩) (by simp only [texec, cexec, hf]) rfl).trans ?_
  refine (waitRun_op (o := .random) (r := .ok random)
    (s' := ⟨⟨silentAfter [], [], true⟩, shared, now, none, none⟩) (by simp only [texec, cexec, hr]) rfl).trans ?_
  refine (waitRun_op (o := .genKey) (r := .ok priv)
    (s' := ⟨⟨silentAfter [], [], true⟩, shared, now, none, none⟩) (by simp only [texec, cexec, hg]) rfl).trans ?_
  let request := (newSetupRequest C (uuidOf random) (C.epub priv)).bytes
  refine (waitRun_op (o := .write request) (r := (request.length, none))
    (s' := ⟨⟨silentAfter [], [(request, request.length, none)], true⟩, shared, now, none, none⟩) (by simp only [texec, passed, Bool.false_eq_true, ↓reduceIte, cexec, hw, Nat.sub_zero]; rfl) rfl).trans ?_
  dsimp only
  rw [if_neg (by simp [request]), Prog.bind_assoc]
  exact waitRun_silent rfl rfl

/-- The borrow test of a client without read deadline (one that has not been read from since it was
dialled) waits for ever when the server is silent, whatever timeouts the client has. -/
theorem C75_test_waits (rt wt : Int) (env : CEnv C) (s : Timed) (hnet : s.conn.net = silentAfter [])
    (hby : s.readBy = none) (hwb : passed s.now s.writeBy = false) (hw : env.write = (0, none)) :
    waitRun rt wt env testOnBorrow s = none := by
  unfold testOnBorrow
  simp only [waitRun, opTimedOut, Bool.false_and, Bool.false_eq_true, ↓reduceIte, texec, hwb, cexec, hw,
    Nat.sub_zero]
  rw [if_neg (by simp)]
  exact waitRun_silent (by rw [hnet]; rfl) hby

/-- **C75** is false: the handshake sets no deadlines. -/
theorem C75_refuted : ¬ C75_claim := by
  intro h
  have h1 := (h Toy.crypto HandshakeExample.env (.ok (str "example.com")) {} [] ⟨[], []⟩ 17 Toy.lawful
    (by decide) (by decide)).1
  rw [C75_dial_waits HandshakeExample.env (str "example.com") {} ⟨[], []⟩ 17 _ _ _ rfl rfl rfl rfl rfl rfl] at h1
  cases h1

/-- A server that answers the handshake and then falls silent: `DialTCP` returns a client; its borrow
test waits for ever; its `Read` fails with a timeout, and then the borrow test returns false. -/
example : (match waitRun 0 0 HandshakeExample.env (dial false (.ok (str "example.com")) {})
      ⟨⟨silentAfter [HandshakeExample.answer 4], [], false⟩, ⟨[], []⟩, 17, none, none⟩ with
    | some (.val (.ok c), s) =>
      (waitRun c.readTimeout c.writeTimeout HandshakeExample.env testOnBorrow s).isNone &&
      (match waitRun c.readTimeout c.writeTimeout HandshakeExample.env (c.read 10) s with
        | some (.val (([], some e), _), s) => e.isDeadline &&
          (match waitRun c.readTimeout c.writeTimeout HandshakeExample.env testOnBorrow s with
            | some (.val false, _) => true
            | _ => false)
        | _ => false)
    | _ => false) = true := by decide +kernel

end

end Goe2ee
