import Verif.Spec.Client
import Verif.Proofs.Invert
import Verif.Props.Keys
import Verif.Props.Nonce

/-!
# Helper lemmas about the client
-/

set_option autoImplicit false

namespace Goe2ee

theorem stream_net : Stream readNet Transport.stream where
  spec t k hk := by
    have hd : ∀ b q, (b = [] ∧ ∃ s', Transport.stream s' = [] ∧
          readDatagram b q k = (([], some .eof), s')) ∨
        (∃ bs s', bs ≠ [] ∧ bs.length ≤ k ∧ b.map Sum.inl = bs.map Sum.inl ++ Transport.stream s' ∧
          readDatagram b q k = ((bs, none), s')) := by
      intro b q
      by_cases hb : b = []
      · exact .inl ⟨hb, _, rfl, by rw [readDatagram, if_pos hb]⟩
      · refine .inr ⟨b.take k, _, ?_, by simp; omega, ?_, by rw [readDatagram, if_neg hb]⟩
        · cases b with
          | nil => exact absurd rfl hb
          | cons x b => cases k with
            | zero => omega
            | succ k => simp
        · rw [Transport.stream, ← List.map_append, List.take_append_drop]
    match t with
    | .tcp input =>
      rcases readEv_spec input k hk with ⟨h1, h2⟩ | ⟨e, s', h1, h2⟩ | ⟨bs, s', h0, h3, h1, h2⟩
      · exact .inl ⟨h1, .tcp [], rfl, by rw [readNet, h2]⟩
      · exact .inr (.inl ⟨e, .tcp s', h1, by rw [readNet, h2]⟩)
      · exact .inr (.inr ⟨bs, .tcp s', h0, h3, h1, by rw [readNet, h2]⟩)
    | .udp true b q =>
      rcases hd b q with ⟨h1, s', h2, h3⟩ | h
      · exact .inl ⟨by rw [Transport.stream, h1]; rfl, s', h2, h3⟩
      · exact .inr (.inr h)
    | .udp false b [] => exact .inl ⟨rfl, _, rfl, rfl⟩
    | .udp false b (.error e :: q) => exact .inr (.inl ⟨e, .udp false b q, rfl, rfl⟩)
    | .udp false b (.ok d :: q) =>
      rcases hd d q with ⟨h1, s', h2, h3⟩ | h
      · exact .inl ⟨by rw [Transport.stream, Transport.stream.received, h1]; rfl, s', h2, h3⟩
      · exact .inr (.inr h)

section
variable {C : Crypto}

/-- Run a parser over a client's socket. -/
abbrev runNet {α : Type} (p : RProg α) (t : Transport) : Res α × Transport :=
  p.run (readInterp readNet) t

theorem run_onClientConn {α : Type} (env : CEnv C) (p : RProg α) (c : CConn) (w : CShared) :
    (onClientConn p).run (cexec env) (c, w) =
      ((runNet p c.net).1, ({ c with net := (runNet p c.net).2 }, w)) := by
  induction p generalizing c with
  | ret a => rfl
  | panic m => rfl
  | op o k ih => exact ih _ { c with net := (readInterp readNet o c.net).2 }

theorem runNet_stream {α : Type} (p : RProg α) (t : Transport) :
    ((runNet p t).1, (runNet p t).2.stream) = runI p t.stream := run_stream stream_net p t

/-- A parser run by the client, followed by anything. -/
theorem run_parse {α β : Type} (env : CEnv C) (p : RProg α) (f : α → CProg C β) (c : CConn)
    (w : CShared) :
    ∃ t, (∃ a, runI p c.net.stream = (.val a, t.stream) ∧
        ((onClientConn p).bind f).run (cexec env) (c, w) =
          (f a).run (cexec env) ({ c with net := t }, w)) ∨
      (∃ m, runI p c.net.stream = (.panic m, t.stream) ∧
        ((onClientConn p).bind f).run (cexec env) (c, w) = (.panic m, ({ c with net := t }, w))) := by
  refine ⟨(runNet p c.net).2, ?_⟩
  have h := runNet_stream p c.net
  rw [Prog.run_bind, run_onClientConn]
  cases hr : (runNet p c.net).1 with
  | val a => rw [hr] at h; exact .inl ⟨a, h.symm, rfl⟩
  | panic m => rw [hr] at h; exact .inr ⟨m, h.symm, rfl⟩

theorem run_parse_inv {α β : Type} {env : CEnv C} {p : RProg α} {f : α → CProg C β} {c : CConn}
    {w : CShared} {out : Res β × (CConn × CShared)}
    (h : ((onClientConn p).bind f).run (cexec env) (c, w) = out) :
    ∃ t, (∃ a, runI p c.net.stream = (.val a, t.stream) ∧
        (f a).run (cexec env) ({ c with net := t }, w) = out) ∨
      (∃ m, runI p c.net.stream = (.panic m, t.stream) ∧ (.panic m, ({ c with net := t }, w)) = out) := by
  obtain ⟨t, ⟨a, h1, h2⟩ | ⟨m, h1, h2⟩⟩ := run_parse env p f c w
  · exact ⟨t, .inl ⟨a, h1, h2.symm.trans h⟩⟩
  · exact ⟨t, .inr ⟨m, h1, h2.symm.trans h⟩⟩

theorem run_parse_val {α β : Type} {env : CEnv C} {p : RProg α} {f : α → CProg C β} {c : CConn}
    {w : CShared} {b : β} {s' : CConn × CShared}
    (h : ((onClientConn p).bind f).run (cexec env) (c, w) = (.val b, s')) :
    ∃ a t, runI p c.net.stream = (.val a, t.stream) ∧
      (f a).run (cexec env) ({ c with net := t }, w) = (.val b, s') := by
  obtain ⟨t, ⟨a, h1, h2⟩ | ⟨m, h1, h2⟩⟩ := run_parse_inv h
  · exact ⟨a, t, h1, h2⟩
  · cases h2

/-- A parser run by the client, result known. -/
theorem run_parse_of {α β : Type} (env : CEnv C) {p : RProg α} (f : α → CProg C β) (c : CConn)
    (w : CShared) {a : α} {rest : List Item} (h : runI p c.net.stream = (.val a, rest)) :
    ∃ t, t.stream = rest ∧ ((onClientConn p).bind f).run (cexec env) (c, w) =
      (f a).run (cexec env) ({ c with net := t }, w) := by
  obtain ⟨t, ⟨a', h1, h2⟩ | ⟨m, h1, -⟩⟩ := run_parse env p f c w
  · rw [h] at h1
    cases h1
    exact ⟨t, rfl, h2⟩
  · rw [h] at h1; cases h1

theorem runNet_rest {α : Type} {p : RProg α} {t : Transport} {a : α} {rest : List Item}
    (h : runI p t.stream = (.val a, rest)) : (runNet p t).2.stream = rest := by
  have := runNet_stream p t
  rw [h] at this
  exact congrArg Prod.snd this

theorem run_parse_eq {α β : Type} {env : CEnv C} {p : RProg α} {f : α → CProg C β} {c : CConn}
    {w : CShared} (a : α) (rest : List Item) (h : runI p c.net.stream = (.val a, rest)) :
    ((onClientConn p).bind f).run (cexec env) (c, w) =
      (f a).run (cexec env) ({ c with net := (runNet p c.net).2 }, w) := by
  have := runNet_stream p c.net
  rw [h] at this
  rw [Prog.run_bind, run_onClientConn, congrArg Prod.fst this]

end

end Goe2ee
