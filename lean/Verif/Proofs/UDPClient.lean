import Verif.Proofs.ClientCalls
import Verif.Proofs.Local

/-!
# A UDP client: what `Read` does to the socket
-/

set_option autoImplicit false

namespace Goe2ee

section
variable {C : Crypto}

/-- Effects of `Client.Read`. -/
def COp.isReading : COp → Prop
  | .read _ => True
  | .setReadDeadline => True
  | _ => False

theorem reading_onClientConn {α : Type} (p : RProg α) :
    Uses (S := CSig C) COp.isReading (onClientConn p) := by
  unfold onClientConn
  induction p with
  | ret a => trivial
  | panic m => trivial
  | op o k ih => exact ⟨trivial, fun r => ih r⟩

theorem reading_read (c : Client) (n : Nat) : Uses (S := CSig C) COp.isReading (c.read n) := by
  unfold Client.read
  refine Uses.bind ?_ fun (r : Option Err) => ?_
  · split
    · exact ⟨trivial, fun _ => trivial⟩
    · trivial
  cases r with
  | some e => trivial
  | none =>
  dsimp only
  split
  · trivial
  refine Uses.bind (reading_onClientConn _) fun parsed => ?_
  rcases parsed with _ | common
  · trivial
  dsimp only
  split
  · refine Uses.bind (reading_onClientConn _) fun parsed => ?_
    cases parsed <;> trivial
  refine Uses.bind (reading_onClientConn _) fun parsed => ?_
  rcases parsed with _ | response
  · trivial
  dsimp only
  split
  · trivial
  split
  · trivial
  split
  · trivial
  rw [show gcmNonceSize = 12 from rfl, C12_nonce_layout]
  dsimp only [ofClientRes, Prog.ret_bind]
  split <;> trivial

/-- What single reads of the socket preserve, `Client.Read` preserves. -/
theorem read_keeps_net {P : Transport → Prop} (hP : ∀ t k, P t → P (readNet t k).2) {env : CEnv C}
    {c : Client} {n : Nat} {s : CConn} {w : CShared} (h : P s.net) :
    P ((c.read n).run (cexec env) (s, w)).2.1.net := by
  refine (reading_read c n).run (cexec env) (fun s => P s.1.net) ?_ (s, w) h
  rintro o ⟨s, w⟩ ho hs
  cases o with
  | read o => exact readInterp_keeps hP o s.net hs
  | setReadDeadline => exact hs
  | _ => exact ho.elim

/-- Reading within a datagram leaves the queue alone. -/
theorem readNet_within (queue : List (Except Err Bytes)) (t : Transport) (k : Nat)
    (h : ∃ b, t = .udp true b queue) : ∃ b, (readNet t k).2 = .udp true b queue := by
  obtain ⟨b, rfl⟩ := h
  rw [readNet, readDatagram]
  split
  · exact ⟨_, rfl⟩
  · exact ⟨_, rfl⟩

/-- Reading receives at most one datagram. -/
theorem readNet_one (rb d : Bytes) (queue : List (Except Err Bytes)) (t : Transport) (k : Nat)
    (h : t = .udp false rb (.ok d :: queue) ∨ ∃ b, t = .udp true b queue) :
    (readNet t k).2 = .udp false rb (.ok d :: queue) ∨ ∃ b, (readNet t k).2 = .udp true b queue := by
  rcases h with rfl | h
  · right
    rw [readNet, readDatagram]
    split
    · exact ⟨_, rfl⟩
    · exact ⟨_, rfl⟩
  · exact .inr (readNet_within queue t k h)

/-- `Read` of a reply to another request. -/
theorem read_mismatch {env : CEnv C} {c : Client} {n : Nat} {s : CConn} {w : CShared} {ct : Bytes}
    {rest : List Item} {counter : BitVec 64} (hd : env.readDeadline = none) (hb : c.buffer = [])
    (hl : ct.length ≤ 2 ^ 30) (hne : counter ≠ c.lastSentCounter)
    (hstream : s.net.stream = (Wire.processResponse counter.toNat ct).map Sum.inl ++ rest) :
    ∃ t, t.stream = rest ∧ (c.read n).run (cexec env) (s, w) =
      (.val (([], some (.other "unexpected response counter")), c), ({ s with net := t }, w)) := by
  have hbytes : Wire.processResponse counter.toNat ct =
      0x80#8 :: (beEnc 8 counter.toNat ++ (beEnc 8 ct.length ++ ct)) := by
    simp [Wire.processResponse, beEnc_eight]
  rw [hbytes, List.map_cons, List.cons_append] at hstream
  have h1 := (congrArg (runI parseResponseCommon) hstream).trans (runI_parseResponseCommon _ _)
  have h2 := (congrArg (runI (parseProcessResponse ⟨true, 0⟩)) (runNet_rest h1)).trans
    (runI_parseProcessResponse _ counter ct hl rest)
  rw [Client.read, run_readDeadline, hd, ite_self]
  dsimp only
  rw [if_neg (by simpa using hb), run_parse_eq _ _ h1]
  dsimp only
  rw [if_neg (by decide), run_parse_eq _ _ h2]
  dsimp only
  rw [if_pos (by simpa using hne)]
  exact ⟨_, runNet_rest h2, rfl⟩

/-- `Read` when nothing is left of the current datagram. -/
theorem read_drained {env : CEnv C} {c : Client} {n : Nat} {s : CConn} {w : CShared}
    {queue : List (Except Err Bytes)} (hd : env.readDeadline = none) (hb : c.buffer = [])
    (hnet : s.net = .udp true [] queue) :
    ∃ e, (c.read n).run (cexec env) (s, w) = (.val (([], some e), c), (s, w)) := by
  rw [Client.read, run_readDeadline, hd, ite_self]
  dsimp only
  obtain ⟨e, he⟩ : ∃ e, runNet parseResponseCommon s.net = (.val (.error e), s.net) := by
    rw [hnet]; exact ⟨_, rfl⟩
  rw [if_neg (by simpa using hb), Prog.run_bind, run_onClientConn, he]
  exact ⟨_, rfl⟩

/-- `Read` when receiving a datagram fails. -/
theorem read_unreceived {env : CEnv C} {c : Client} {n : Nat} {s : CConn} {w : CShared} {rb : Bytes}
    {queue : List (Except Err Bytes)} {e : Err} (hd : env.readDeadline = none) (hb : c.buffer = [])
    (hnet : s.net = .udp false rb (.error e :: queue)) :
    ∃ e', (c.read n).run (cexec env) (s, w) =
      (.val (([], some e'), c), ({ s with net := .udp false rb queue }, w)) := by
  rw [Client.read, run_readDeadline, hd, ite_self]
  dsimp only
  obtain ⟨e', he⟩ : ∃ e', runNet parseResponseCommon s.net =
      (.val (.error e'), .udp false rb queue) := by
    rw [hnet]
    cases e <;> exact ⟨_, rfl⟩
  rw [if_neg (by simpa using hb), Prog.run_bind, run_onClientConn, he]
  exact ⟨_, rfl⟩

/-- `Read` of a datagram with the reply to another request: it is dropped, and the next one is not
received. -/
theorem read_stale {env : CEnv C} {c : Client} {n : Nat} {s : CConn} {w : CShared} {ct rb : Bytes}
    {queue : List (Except Err Bytes)} {counter : BitVec 64} (hd : env.readDeadline = none)
    (hb : c.buffer = []) (hl : ct.length ≤ 2 ^ 30) (hne : counter ≠ c.lastSentCounter)
    (hnet : s.net = .udp false rb (.ok (Wire.processResponse counter.toNat ct) :: queue)) :
    (c.read n).run (cexec env) (s, w) =
      (.val (([], some (.other "unexpected response counter")), c),
        ({ s with net := .udp true [] queue }, w)) := by
  obtain ⟨t, ht, hrun⟩ := read_mismatch (n := n) (s := s) (w := w) (rest := []) hd hb hl hne (by
    rw [hnet, List.append_nil]; rfl)
  have hkeep := read_keeps_net (readNet_one rb _ queue) (env := env) (c := c) (n := n) (w := w)
    (.inl hnet)
  rw [hrun] at hkeep ⊢
  dsimp only at hkeep
  rcases hkeep with rfl | ⟨b, rfl⟩
  · simp [Transport.stream, Transport.stream.received, Wire.processResponse] at ht
  · cases b with
    | nil => rfl
    | cons x b => simp [Transport.stream] at ht

end

end Goe2ee
