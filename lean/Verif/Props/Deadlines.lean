import Verif.Model.Deadlines
import Verif.Props.Borrow

/-!
# C74: deadlines set by the application

Time does not pass during a call in the model, so only deadlines that have passed when a call starts are
described, not the interruption of calls that wait.
-/

set_option autoImplicit false

namespace Goe2ee

section
variable {C : Crypto}

/-- After a successful `SetReadDeadline` (`SetWriteDeadline`), every `Read` that needs data from the
network (every `Write`) started after the deadline fails with an error that wraps
`os.ErrDeadlineExceeded`; `SetDeadline` does both. -/
def C74_claim : Prop :=
  ∀ (C : Crypto) (env env' : CEnv C) (c : Client) (s s₁ : Timed) (d time : Nat), C.Lawful →
    UsedT (C := C) c s → d ≤ s₁.now + time →
    ((setReadDeadline env (some d) s = (none, s₁) ∨ setDeadline env (some d) s = (none, s₁)) →
      ∀ n, c.buffer = [] → env'.readDeadline = none →
      ∃ e c' s₂, (c.read n).run (texec c.readTimeout c.writeTimeout env') { s₁ with now := s₁.now + time } =
        (.val (([], some e), c'), s₂) ∧ e.isDeadline = true) ∧
    ((setWriteDeadline env (some d) s = (none, s₁) ∨ setDeadline env (some d) s = (none, s₁)) →
      ∀ p session, env'.writeDeadline = none → c.session = some session →
      s.shared.counters.getD session.sendCounter 0 + 1 ≠ 0 →
      ∃ e c' s₂, (c.write p).run (texec c.readTimeout c.writeTimeout env') { s₁ with now := s₁.now + time } =
        (.val ((0, some e), c'), s₂) ∧ e.isDeadline = true)

/-- **C74**, what holds for reading: a client without read timeout fails every `Read` that needs data
from the network after a read deadline, and takes nothing from the connection. -/
theorem C74_read_partial (env env' : CEnv C) (c : Client) (s s₁ : Timed) (d time n : Nat)
    (hset : setReadDeadline env (some d) s = (none, s₁) ∨ setDeadline env (some d) s = (none, s₁))
    (hlate : d ≤ s₁.now + time) (hrt : c.readTimeout ≤ 0) (hb : c.buffer = []) :
    ∃ e, (c.read n).run (texec c.readTimeout c.writeTimeout env') { s₁ with now := s₁.now + time } =
      (.val (([], some e), c), { s₁ with now := s₁.now + time }) ∧ e.isDeadline = true := by
  have hby : s₁.readBy = some d := by
    rcases hset with h | h
    · unfold setReadDeadline at h; split at h <;> cases h; rfl
    · unfold setDeadline at h; split at h <;> cases h; rfl
  have hr : passed (s₁.now + time) s₁.readBy = true := by
    rw [hby]; simpa [passed] using hlate
  refine ⟨.wrap "failed to parse response" (.wrap ("failed to read " ++ "flags") .timeout), ?_, rfl⟩
  unfold Client.read
  rw [if_neg (by omega)]
  simp only [Prog.bind]
  rw [if_neg (by simp [hb]), Prog.run_bind, parseResponseCommon, readOctet,
    run_readOp (I := texec c.readTimeout c.writeTimeout env') (o := .copyLimit 1)
      (r := ([], some .timeout)) (s' := { s₁ with now := s₁.now + time })
      (by simp only [texec, hr, ↓reduceIte, expiredRead]; rfl)]
  rfl

theorem runT_addCounter {α : Type} {rt wt : Int} {env : CEnv C} {a : Nat} {k : BitVec 64 → CProg C α}
    {s : Timed} :
    (Prog.op (S := CSig C) (.addCounter a) k).run (texec rt wt env) s =
      (k (s.shared.counters.getD a 0 + 1)).run (texec rt wt env)
        { s with shared := { s.shared with
            counters := s.shared.counters.set a (s.shared.counters.getD a 0 + 1) } } := rfl

/-- **C74**, what holds for writing: a client without write timeout fails every `Write` after a write
deadline; no octet of the request is sent. -/
theorem C74_write_partial (hC : C.Lawful) (env env' : CEnv C) (c : Client) (s s₁ : Timed) (d time : Nat)
    (p : Bytes) (session : ClientSession)
    (hset : setWriteDeadline env (some d) s = (none, s₁) ∨ setDeadline env (some d) s = (none, s₁))
    (hlate : d ≤ s₁.now + time) (hwt : c.writeTimeout ≤ 0) (hs : c.session = some session)
    (h0 : s.shared.counters.getD session.sendCounter 0 + 1 ≠ 0) :
    ∃ e c' s₂ bs, (c.write p).run (texec c.readTimeout c.writeTimeout env')
        { s₁ with now := s₁.now + time } = (.val ((0, some e), c'), s₂) ∧ e.isDeadline = true ∧
      s₂.conn.writes = s.conn.writes ++ [(bs, 0, some e)] := by
  have hby : s₁.writeBy = some d ∧ s₁.shared = s.shared ∧ s₁.conn = s.conn := by
    rcases hset with h | h
    · unfold setWriteDeadline at h; split at h <;> cases h; exact ⟨rfl, rfl, rfl⟩
    · unfold setDeadline at h; split at h <;> cases h; exact ⟨rfl, rfl, rfl⟩
  have hr : passed (s₁.now + time) s₁.writeBy = true := by
    rw [hby.1]; simpa [passed] using hlate
  obtain ⟨key, -, hk⟩ := newGCM_ok hC session.secret
  rw [← hby.2.1] at h0
  unfold Client.write
  rw [if_neg (by omega)]
  simp only [Prog.bind, hs, hk]
  rw [runT_addCounter]
  dsimp only
  rw [if_neg h0, show gcmNonceSize = 12 from rfl, C12_nonce_layout]
  simp only [ofClientRes, Prog.ret_bind, Prog.run, texec, hr, ↓reduceIte]
  exact ⟨.timeout, _, _, _, rfl, rfl, by rw [← hby.2.2]; rfl⟩

/-- With a read timeout, the deadline set by the application makes no difference to `Read`: it is
replaced before anything is read.  (Whether it has passed, is later than the timeout, or there is
none.) -/
theorem C74_read_ignores (env : CEnv C) (c : Client) (s : Timed) (t : Option Nat) (n : Nat)
    (hrt : 0 < c.readTimeout) (hd : env.readDeadline = none) :
    (c.read n).run (texec c.readTimeout c.writeTimeout env) { s with readBy := t } =
      (c.read n).run (texec c.readTimeout c.writeTimeout env) s := by
  unfold Client.read
  rw [if_pos hrt]
  simp only [Prog.bind, Prog.run, texec, hd, Option.isSome_none, Bool.false_eq_true, ↓reduceIte]

/-- The same for `Write`. -/
theorem C74_write_ignores (env : CEnv C) (c : Client) (s : Timed) (t : Option Nat) (p : Bytes)
    (hwt : 0 < c.writeTimeout) (hd : env.writeDeadline = none) :
    (c.write p).run (texec c.readTimeout c.writeTimeout env) { s with writeBy := t } =
      (c.write p).run (texec c.readTimeout c.writeTimeout env) s := by
  unfold Client.write
  rw [if_pos hwt]
  simp only [Prog.bind, Prog.run, texec, hd, Option.isSome_none, Bool.false_eq_true, ↓reduceIte]

/-- A dialled client has the timeouts of its options. -/
theorem dial_timeouts {σ : Type} {I : Interp (CSig C) σ} {udp : Bool} {host : Except Err Bytes}
    {options : ClientOptions} {s s' : σ} {c : Client}
    (h : (dial udp host options).run I s = (.val (.ok c), s')) :
    c.readTimeout = options.readTimeout ∧ c.writeTimeout = options.writeTimeout := by
  have hh : ∀ c₀ : Client, (handshakeOrClose (C := C) c₀).Does (fun _ => True)
      (fun r => ∀ c, r = .ok c → c.readTimeout = c₀.readTimeout ∧ c.writeTimeout = c₀.writeTimeout) := by
    intro c₀
    unfold handshakeOrClose
    refine Prog.Does.bind (P := fun _ => True) ?_ fun a _ => ?_
    · exact (does_handshake 0 0 _).mono fun _ _ => trivial
    split
    · refine Prog.Does.bind (P := fun _ => True) ?_ fun _ _ c h => by cases h
      refine ⟨trivial, fun r => ?_⟩
      dsimp only
      split <;> trivial
    · intro c h; cases h; exact ⟨rfl, rfl⟩
  have hd : (dial (C := C) udp host options).Does (fun _ => True)
      (fun r => ∀ c, r = .ok c → c.readTimeout = options.readTimeout ∧
        c.writeTimeout = options.writeTimeout) := by
    unfold dial dialUDP dialTCP
    split
    · refine ⟨trivial, fun r => ?_⟩
      dsimp only
      split
      · intro c h; cases h
      · exact hh (newClient host options)
    · refine ⟨trivial, fun r => ?_⟩
      dsimp only
      split
      · intro c h; cases h
      refine ⟨trivial, fun r => ?_⟩
      dsimp only
      split
      · intro c h; cases h
      · exact hh (newClient host options)
  exact hd.run_val h c rfl

/-- So the deadlines set by the application make no difference to any `Read` or `Write` of a client that
was dialled without timeout options. -/
theorem C74_default_client {σ : Type} {I : Interp (CSig C) σ} {host : Except Err Bytes} {s₀ s' : σ}
    {c : Client} (h : (dial false host {}).run I s₀ = (.val (.ok c), s')) (env : CEnv C) (s : Timed)
    (t : Option Nat) (n : Nat) (p : Bytes) (hr : env.readDeadline = none) (hw : env.writeDeadline = none) :
    (c.read n).run (texec c.readTimeout c.writeTimeout env) { s with readBy := t } =
      (c.read n).run (texec c.readTimeout c.writeTimeout env) s ∧
    (c.write p).run (texec c.readTimeout c.writeTimeout env) { s with writeBy := t } =
      (c.write p).run (texec c.readTimeout c.writeTimeout env) s := by
  obtain ⟨h1, h2⟩ := dial_timeouts h
  exact ⟨C74_read_ignores env c s t n (by rw [h1]; decide) hr,
    C74_write_ignores env c s t p (by rw [h2]; decide) hw⟩

end

namespace DeadlineExample
open HandshakeExample BorrowExample

/-- The application sends "ping", sets a read deadline of one second, and reads two seconds later: the
result is "pong". -/
def late (c : Client) (s : Timed) : Bool :=
  match (c.call (.write (str "ping"))).run (texec c.readTimeout c.writeTimeout env) s with
  | (.val c, s) =>
    match setReadDeadline env (some (s.now + 1000000000)) s with
    | (none, s) =>
      c.buffer.isEmpty &&
      match (c.read 10).run (texec c.readTimeout c.writeTimeout env) { s with now := s.now + 2000000000 } with
      | (.val ((bs, _), _), _) => bs == str "pong"
      | _ => false
    | _ => false
  | _ => false

theorem used_late : ∃ c s, UsedT (C := Toy.crypto) c s ∧ late c s = true :=
  usedT_dial (conn := net1.1) (shared := net1.2) (now := 17) (by decide +kernel)

end DeadlineExample

/-- **C74** is false: with the default timeouts, a `Read` started a second after the deadline that the
application set returns the reply. -/
theorem C74_refuted : ¬ C74_claim := by
  intro h
  obtain ⟨c, s, hu, hl⟩ := DeadlineExample.used_late
  rw [DeadlineExample.late] at hl
  split at hl
  · rename_i c₁ s₁ h1
    split at hl
    · rename_i s₂ h2
      simp only [Bool.and_eq_true, List.isEmpty_iff] at hl
      have hn : s₂.now = s₁.now := by cases h2; rfl
      obtain ⟨e, c', s₃, hr, -⟩ := (h Toy.crypto HandshakeExample.env HandshakeExample.env c₁ s₁ s₂
        (s₁.now + 1000000000) 2000000000 Toy.lawful (.called hu h1) (by omega)).1 (.inl h2) 10 hl.1 rfl
      have := hl.2
      rw [hr] at this
      exact absurd (show (([] : Bytes) == str "pong") = true from this) (by decide +kernel)
    · cases hl
  · cases hl

/-- The partial theorems apply to a client that was dialled without timeouts: after the deadline `Read`
and `Write` fail, and after the deadline was removed again `Read` returns "pong". -/
example : (match (dial false (.ok (str "example.com")) { readTimeout := 0, writeTimeout := 0 }).run
      (texec 0 0 HandshakeExample.env) ⟨BorrowExample.net1.1, BorrowExample.net1.2, 17, none, none⟩ with
    | (.val (.ok c), s) =>
      match (c.call (.write (str "ping"))).run (texec 0 0 HandshakeExample.env) s with
      | (.val c, s) =>
        let s := { (setDeadline HandshakeExample.env (some 20) s).2 with now := 30 }
        (match ((c.read 10).run (texec 0 0 HandshakeExample.env) s).1 with
          | .val (([], some e), _) => e.isDeadline
          | _ => false) &&
        (match ((c.write (str "ping")).run (texec 0 0 HandshakeExample.env) s).1 with
          | .val ((0, some e), _) => e.isDeadline
          | _ => false) &&
        (match ((c.read 10).run (texec 0 0 HandshakeExample.env)
            (setReadDeadline HandshakeExample.env none s).2).1 with
          | .val ((bs, some .eof), _) => bs == str "pong"
          | _ => false)
      | _ => false
    | _ => false) = true := by decide +kernel

end Goe2ee
