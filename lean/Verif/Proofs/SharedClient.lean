import Verif.Model.SharedClient
import Verif.Proofs.ClientCalls
import Verif.Proofs.Loops

/-!
# A client used by several goroutines: one goroutine alone
-/

set_option autoImplicit false

namespace Goe2ee

section
variable {C : Crypto}

/-- One goroutine alone; nothing arrives any more (a read at the end of the input is EOF).  Whatever is read
from the connection, others change `lastSentCounter` by `f` before. -/
def soloI (C : Crypto) (f : BitVec 64 → BitVec 64) (e : DEnv) : Interp DSig DWorld
  | .setReadDeadline, w => (e.deadline, w)
  | .setWriteDeadline, w => (e.deadline, w)
  | .connRead k, w => ((readEv w.input k).1, { w with input := (readEv w.input k).2, last := f w.last })
  | .connWrite bs, w =>
    ((bs.length - e.write.1, e.write.2), { w with writes := w.writes ++ [(bs, bs.length - e.write.1, e.write.2)] })
  | .addCounter, w =>
    (w.counter + 1, { w with counter := w.counter + 1, issued := w.issued ++ [w.counter + 1] })
  | .aead key nonce plaintext, w => (C.aeadSeal key nonce plaintext, w)
  | .loadLast, w => (w.last, w)
  | .storeLast counter, w => ((), { w with last := counter })
  | .bufLen, w => (w.buffer.length, w)
  | .bufRead n, w => ((takeBuffer w.buffer n).1, { w with buffer := (takeBuffer w.buffer n).2 })
  | .bufWrite bs, w => ((), { w with buffer := w.buffer ++ bs })
  | .returned call data err, w => ((), { w with returns := w.returns ++ [(0, call, data, err)] })

/-- `last` after reading. -/
def Touched (f : BitVec 64 → BitVec 64) (a b : BitVec 64) : Prop := b = a ∨ b = f a

theorem Touched.trans {f : BitVec 64 → BitVec 64} (hf : ∀ x, f (f x) = f x) {a b c : BitVec 64}
    (h : Touched f a b) (h' : Touched f b c) : Touched f a c := by
  rcases h with rfl | rfl
  · exact h'
  · rcases h' with rfl | rfl
    · exact .inr rfl
    · exact .inr (hf _)

variable {f : BitVec 64 → BitVec 64}

theorem run_readFullFrom (hf : ∀ x, f (f x) = f x) (e : DEnv) :
    ∀ (fuel r : Nat) (acc : Bytes) (w : DWorld), ∃ last, Touched f w.last last ∧
      (readFullFrom fuel r acc).run (soloI C f e) w =
        (.val (readFullLoop readEv fuel r acc w.input).1,
          { w with input := (readFullLoop readEv fuel r acc w.input).2, last })
  | fuel, 0, acc, w => ⟨w.last, .inl rfl, by cases fuel <;> rfl⟩
  | 0, r + 1, acc, w => ⟨w.last, .inl rfl, rfl⟩
  | fuel + 1, r + 1, acc, w => by
    rcases hr : readEv w.input (r + 1) with ⟨⟨bs, err⟩, s'⟩
    simp only [readFullFrom, readFullLoop, Prog.run, soloI, hr]
    split
    · exact ⟨f w.last, .inr rfl, rfl⟩
    · cases err with
      | none =>
        obtain ⟨last, h1, h2⟩ := run_readFullFrom hf e fuel (r + 1 - bs.length) (acc ++ bs)
          { w with input := s', last := f w.last }
        exact ⟨last, Touched.trans hf (.inr rfl) h1, h2⟩
      | some err => exact ⟨f w.last, .inr rfl, rfl⟩

theorem run_copyFrom (hf : ∀ x, f (f x) = f x) (e : DEnv) :
    ∀ (fuel r : Nat) (acc : Bytes) (w : DWorld), ∃ last, Touched f w.last last ∧
      (0 < fuel → 0 < r → last = f w.last) ∧
      (copyFrom fuel r acc).run (soloI C f e) w =
        (.val (copyLoop readEv fuel r acc w.input).1,
          { w with input := (copyLoop readEv fuel r acc w.input).2, last })
  | fuel, 0, acc, w => ⟨w.last, .inl rfl, fun _ h => absurd h (by omega), by cases fuel <;> rfl⟩
  | 0, r + 1, acc, w => ⟨w.last, .inl rfl, fun h => absurd h (by omega), rfl⟩
  | fuel + 1, r + 1, acc, w => by
    rcases hr : readEv w.input (r + 1) with ⟨⟨bs, err⟩, s'⟩
    simp only [copyFrom, copyLoop, Prog.run, soloI, hr]
    cases err with
    | none =>
      obtain ⟨last, h1, -, h2⟩ := run_copyFrom hf e fuel (r + 1 - bs.length) (acc ++ bs)
        { w with input := s', last := f w.last }
      refine ⟨last, Touched.trans hf (.inr rfl) h1, fun _ _ => ?_, h2⟩
      rcases h1 with h1 | h1
      · exact h1
      · exact h1.trans (hf _)
    | some err => cases err <;> exact ⟨f w.last, .inr rfl, fun _ _ => rfl, rfl⟩

theorem run_sharedReads (hf : ∀ x, f (f x) = f x) (e : DEnv) (o : ROp) (w : DWorld) :
    ∃ last, Touched f w.last last ∧ (sharedReads o).run (soloI C f e) w =
      (.val (readInterp readEv o w.input).1, { w with input := (readInterp readEv o w.input).2, last }) := by
  cases o with
  | alloc n => exact ⟨w.last, .inl rfl, rfl⟩
  | readFull n => exact run_readFullFrom hf e n n [] w
  | copyLimit n =>
    obtain ⟨last, h1, -, h2⟩ := run_copyFrom (C := C) hf e n.toNat n.toNat [] w
    exact ⟨last, h1, h2⟩

/-- A parser on the shared connection is the parser. -/
theorem run_onSharedConn {α : Type} (hf : ∀ x, f (f x) = f x) (e : DEnv) (p : RProg α) (w : DWorld) :
    ∃ last, Touched f w.last last ∧ (onSharedConn p).run (soloI C f e) w =
      ((runEv p w.input).1, { w with input := (runEv p w.input).2, last }) := by
  induction p generalizing w with
  | ret a => exact ⟨w.last, .inl rfl, rfl⟩
  | panic m => exact ⟨w.last, .inl rfl, rfl⟩
  | op o k ih =>
    obtain ⟨last, h1, h2⟩ := run_sharedReads (C := C) hf e o w
    obtain ⟨last', h3, h4⟩ := ih (readInterp readEv o w.input).1
      { w with input := (readInterp readEv o w.input).2, last }
    refine ⟨last', h1.trans hf h3, ?_⟩
    rw [onSharedConn, Prog.lift, Prog.run_bind, h2]
    exact h4

/-- A parser that begins with an octet reads from the connection. -/
theorem run_onSharedConn_first {α : Type} (hf : ∀ x, f (f x) = f x) (e : DEnv)
    (k : ROp.Ret (.copyLimit 1) → RProg α) (w : DWorld) :
    (onSharedConn (.op (.copyLimit 1) k)).run (soloI C f e) w =
      ((runEv (.op (.copyLimit 1) k) w.input).1,
        { w with input := (runEv (.op (.copyLimit 1) k) w.input).2, last := f w.last }) := by
  obtain ⟨last, -, h2, h3⟩ := run_copyFrom (C := C) hf e 1 1 [] w
  have h4 := h2 (by omega) (by omega)
  subst h4
  obtain ⟨last, h5, h6⟩ := run_onSharedConn (C := C) hf e (k (readInterp readEv (.copyLimit 1) w.input).1)
    { w with input := (readInterp readEv (.copyLimit 1) w.input).2, last := f w.last }
  have h7 : last = f w.last := by
    rcases h5 with h5 | h5
    · exact h5
    · exact h5.trans (hf _)
  subst h7
  rw [onSharedConn, Prog.lift, Prog.run_bind,
    show (sharedReads (.copyLimit 1)).run (soloI C f e) w = _ from h3]
  exact h6

theorem run_sharedDeadline {β : Type} (e : DEnv) {timeout : Int} {w : DWorld} {k : Option Err → DProg β} :
    ((if timeout > 0 then .op .setReadDeadline .ret else .ret none : DProg (Option Err)).bind k).run
      (soloI C f e) w = (k (if timeout > 0 then e.deadline else none)).run (soloI C f e) w := by
  by_cases h : timeout > 0
  · rw [if_pos h, if_pos h]; rfl
  · rw [if_neg h, if_neg h]; rfl

theorem run_sharedReadBuffer (e : DEnv) (c : Client) (n : Nat) (w : DWorld) :
    (sharedReadBuffer n).run (soloI C f e) w =
      (.val (readBuffer { c with buffer := w.buffer } n).1,
        { w with buffer := (readBuffer { c with buffer := w.buffer } n).2.buffer }) := by
  simp only [sharedReadBuffer, readBuffer, Prog.run, soloI, takeBuffer]
  by_cases h : w.buffer = [] ∧ 0 < n
  · rw [if_pos h, if_pos h]; rfl
  · rw [if_neg h, if_neg h]
    simp only [Prog.run, soloI, List.length_eq_zero_iff]

theorem runEv_of {α : Type} {p : RProg α} {evs : List Ev} {a : α} {rest : List Item}
    (h : runI p (flatten evs) = (.val a, rest)) :
    (runEv p evs).1 = .val a ∧ flatten (runEv p evs).2 = rest := by
  rw [runEv_fst, runEv_snd, h]; exact ⟨rfl, rfl⟩

/-- `Read` of a genuine reply, if the counter was stored before its first octet arrived. -/
theorem sharedRead_accepts (hC : C.Lawful) (hf : ∀ x, f (f x) = f x) {e : DEnv} {c : Client} {n : Nat}
    {w : DWorld} {session : ClientSession} {key ct message : Bytes} {rest : List Item}
    (hd : e.deadline = none) (hb : w.buffer = []) (hs : c.session = some session)
    (hk : deriveKey C session.secret kdfInfo aesKeySize = .ok key) (hl : ct.length ≤ 2 ^ 30)
    (hstream : flatten w.input = (Wire.processResponse (f w.last).toNat ct).map Sum.inl ++ rest)
    (ho : C.aeadOpen key (Wire.nonce12 1 (f w.last).toNat) ct = some message) :
    ∃ input, flatten input = rest ∧ (sharedRead C c n).run (soloI C f e) w =
      (.val (readBuffer { c with buffer := message } n).1,
        { w with input, last := f w.last, buffer := (readBuffer { c with buffer := message } n).2.buffer }) := by
  have hbytes : Wire.processResponse (f w.last).toNat ct =
      0x80#8 :: (beEnc 8 (f w.last).toNat ++ (beEnc 8 ct.length ++ ct)) := by
    simp [Wire.processResponse, beEnc_eight]
  rw [hbytes, List.map_cons, List.cons_append] at hstream
  obtain ⟨h1, h1'⟩ := runEv_of ((congrArg (runI parseResponseCommon) hstream).trans (runI_parseResponseCommon _ _))
  obtain ⟨h2, h2'⟩ := runEv_of ((congrArg (runI (parseProcessResponse ⟨true, 0⟩)) h1').trans
    (runI_parseProcessResponse _ (f w.last) ct hl rest))
  obtain ⟨key', hk1, hk2⟩ := newGCM_ok hC session.secret
  rw [hk] at hk1
  cases hk1
  rw [sharedRead, run_sharedDeadline, hd, ite_self]
  dsimp only
  simp only [Prog.run, soloI, hb]
  rw [if_neg (by simp), Prog.run_bind]
  rw [show (onSharedConn parseResponseCommon).run (soloI C f e) w = _ from run_onSharedConn_first hf e _ w]
  rw [show runEv (Prog.op (ROp.copyLimit 1) _) w.input = runEv parseResponseCommon w.input from rfl, h1]
  dsimp only
  rw [if_neg (by decide), Prog.run_bind]
  obtain ⟨last, ht, hr⟩ := run_onSharedConn (C := C) hf e (parseProcessResponse ⟨true, 0⟩)
    { w with input := (runEv parseResponseCommon w.input).2, last := f w.last }
  have hlast : last = f w.last := by
    rcases ht with ht | ht
    · exact ht
    · exact ht.trans (hf _)
  subst hlast
  refine ⟨_, h2', ?_⟩
  rw [show ({ success := (0x80#8 >>> 7) == 1#8, reserved := (0x80#8 <<< 1) >>> 1 } : ResponseCommon) = ⟨true, 0⟩
    from rfl]
  rw [show (onSharedConn (parseProcessResponse ⟨true, 0⟩)).run (soloI C f e)
    { w with input := (runEv parseResponseCommon w.input).2, last := f w.last } = _ from hr, h2]
  dsimp only
  simp only [Prog.run, soloI]
  refine (congrArg (fun p => Prog.run (soloI C f e) p _) (if_neg (by simp))).trans ?_
  rw [hs]
  dsimp only
  rw [hk2]
  dsimp only
  rw [show gcmNonceSize = 12 from rfl, C12_nonce_layout]
  dsimp only [ofSharedRes, Prog.ret_bind]
  rw [show directionServerToClient = 1 from rfl, ho]
  dsimp only
  simp only [Prog.run, soloI, hb, List.nil_append]
  rw [run_sharedReadBuffer e c, ← hs]

end

end Goe2ee
