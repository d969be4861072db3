import Verif.Props.Flow
import Verif.Props.Limits
import Verif.Proofs.Reader
import Verif.Spec.Transport

/-!
# C123: the reads of the octet-wise connection are those of the parsers
-/

set_option autoImplicit false

namespace Goe2ee

section
variable {C : Crypto}

/-- What the client's effects do on a connection that the server has closed; `down` is still to be read. -/
def drained (env : FlowEnv C) : Interp (FlowSig C) FlowWorld
  | .send _, w => (false, w)
  | .recv, w =>
    match w.down with
    | b :: down => (some b, { w with down })
    | [] => (none, w)
  | .hangUp, w => ((), { w with closed := true })
  | .server o, w => (serverAnswer env o, w)
  | .client o, w => (clientAnswer env o, w)
  | .wrote r, w => ((), { w with written := w.written ++ [r] })
  | .gotData r, w => ((), { w with got := w.got ++ [r] })

/-- The client never waits on a connection that the server has closed. -/
theorem drained_exec (roomUp roomDown : Nat) (env : FlowEnv C) (o : FlowOp) (w : FlowWorld) (h : w.closed = true) :
    flowExec roomUp roomDown env 0 o w = some (drained env o w) := by
  cases o with
  | recv =>
    obtain ⟨up, down, closed, written, got⟩ := w
    cases h
    cases down <;> rfl
  | send b => simp [flowExec, drained, h]
  | _ => rfl

theorem run_recvAll (env : FlowEnv C) (n : Nat) (acc bs : Bytes) (w : FlowWorld) (h : w.down = bs) :
    (recvAll n acc).run (drained env) w =
      (.val (acc ++ bs.take n, decide (n ≤ bs.length)), { w with down := bs.drop n }) := by
  induction n generalizing acc bs w with
  | zero => subst h; simp [recvAll, Prog.run]
  | succ n ih =>
    simp only [recvAll, Prog.run]
    cases bs with
    | nil =>
      have : drained env .recv w = ((none : Option Byte), w) := by simp only [drained, h]; rfl
      rw [this]
      obtain ⟨up, down, closed, written, got⟩ := w
      cases h
      simp [Prog.run]
    | cons b bs =>
      have : drained env .recv w = ((some b : Option Byte), { w with down := bs }) := by simp only [drained, h]; rfl
      rw [this]
      exact (ih (acc ++ [b]) bs { w with down := bs } rfl).trans (by simp)

theorem readFullI_octets (n : Nat) (bs : Bytes) :
    readFullI (bs.map Sum.inl) n =
      (if n ≤ bs.length then .ok (bs.take n) else .error (if bs = [] then .eof else .unexpectedEOF),
        (bs.drop n).map Sum.inl) := by
  induction n generalizing bs with
  | zero => simp [readFullI]
  | succ n ih =>
    cases bs with
    | nil => simp [readFullI]
    | cons b bs =>
      simp only [List.map_cons, readFullI, ih]
      by_cases h : n ≤ bs.length
      · simp [h]
      · cases bs with
        | nil => simp at h; simp [h]
        | cons c cs =>
          have h' : ¬ n ≤ cs.length + 1 := h
          simp [h']

theorem copyLimitI_octets (n : Nat) (bs : Bytes) :
    copyLimitI (bs.map Sum.inl) n = ((bs.take n, none), (bs.drop n).map Sum.inl) := by
  induction n generalizing bs with
  | zero => simp [copyLimitI]
  | succ n ih =>
    cases bs with
    | nil => simp [copyLimitI]
    | cons b bs => simp [copyLimitI, ih]

/-- **C123**, the connection: a parser that reads octet by octet from a connection on which `bs` is under way and
which the server has closed behaves as on the connection of the other claims (`Verif.Model.Reader`) that delivers
`bs` in any pieces and is closed then: the same result, also for truncated messages, and the same octets are left. -/
theorem C123_reads {α : Type} (p : RProg α) (env : FlowEnv C) (evs : List Ev) (bs : Bytes) (w : FlowWorld)
    (h : Delivers evs bs []) (hw : w.down = bs) :
    ∃ rest, Delivers (runEv p evs).2 rest [] ∧
      (p.lift (T := FlowSig C) flowRead).run (drained env) w = ((runEv p evs).1, { w with down := rest }) := by
  rw [Delivers, List.append_nil] at h
  have hflat := runEv_flatten p evs
  rw [h] at hflat
  suffices hI : ∃ rest : Bytes, (runI p (bs.map Sum.inl)).2 = rest.map Sum.inl ∧
      (p.lift (T := FlowSig C) flowRead).run (drained env) w =
        ((runI p (bs.map Sum.inl)).1, { w with down := rest }) by
    obtain ⟨rest, h1, h2⟩ := hI
    rw [← hflat] at h1 h2
    exact ⟨rest, by rw [Delivers, List.append_nil]; exact h1, h2⟩
  clear hflat h
  induction p generalizing bs w with
  | ret a => exact ⟨bs, rfl, by subst hw; rfl⟩
  | panic m => exact ⟨bs, rfl, by subst hw; rfl⟩
  | op o k ih =>
    cases o with
    | alloc n => exact ih () bs w hw
    | readFull n =>
      obtain ⟨rest, h1, h2⟩ := ih (readFullI (bs.map Sum.inl) n).1 (bs.drop n) { w with down := bs.drop n } rfl
      have hrun : runI (.op (.readFull n) k) (bs.map Sum.inl) =
          runI (k (readFullI (bs.map Sum.inl) n).1) ((bs.drop n).map Sum.inl) := by
        show runI (k (readFullI (bs.map Sum.inl) n).1) (readFullI (bs.map Sum.inl) n).2 = _
        rw [readFullI_octets]
      refine ⟨rest, by rw [hrun]; exact h1, ?_⟩
      rw [hrun, ← h2]
      show (((recvAll n []).bind _).bind _).run _ _ = _
      rw [Prog.bind_assoc, Prog.run_bind, run_recvAll env n [] bs w hw]
      have hval : (if decide (n ≤ bs.length) = true then Except.ok ([] ++ bs.take n)
          else .error (if [] ++ bs.take n = [] then Err.eof else .unexpectedEOF)) =
          (readFullI (bs.map Sum.inl) n).1 := by
        rw [readFullI_octets]
        by_cases h : n ≤ bs.length
        · simp [h]
        · cases n <;> cases bs <;> simp_all
      dsimp only [Prog.bind]
      rw [← hval]
      rfl
    | copyLimit n =>
      obtain ⟨rest, h1, h2⟩ := ih (copyLimitI (bs.map Sum.inl) n.toNat).1 (bs.drop n.toNat)
        { w with down := bs.drop n.toNat } rfl
      have hrun : runI (.op (.copyLimit n) k) (bs.map Sum.inl) =
          runI (k (copyLimitI (bs.map Sum.inl) n.toNat).1) ((bs.drop n.toNat).map Sum.inl) := by
        show runI (k (copyLimitI (bs.map Sum.inl) n.toNat).1) (copyLimitI (bs.map Sum.inl) n.toNat).2 = _
        rw [copyLimitI_octets]
      refine ⟨rest, by rw [hrun]; exact h1, ?_⟩
      rw [hrun, ← h2]
      show (((recvAll n.toNat []).bind _).bind _).run _ _ = _
      rw [Prog.bind_assoc, Prog.run_bind, run_recvAll env n.toNat [] bs w hw]
      dsimp only [Prog.bind]
      rw [copyLimitI_octets]
      rfl

end

/-- A truncated reply: the client's parser reports the end of the stream, as on the other connection. -/
example : (match ((recvProcessResponse.lift (T := FlowSig Toy.crypto) flowRead).run (drained (FlowDemo.env 0))
      { down := (Wire.processResponse 1 (List.replicate 30 7)).take 20, closed := true }).1 with
    | .val (.error .unexpectedEOF) => true
    | _ => false) = true := by decide +kernel

end Goe2ee
