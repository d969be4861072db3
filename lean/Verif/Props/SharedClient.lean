import Verif.Proofs.SharedOnce
import Verif.Spec.Toy

/-!
# C107, C108, C109: one client, several goroutines
-/

set_option autoImplicit false

namespace Goe2ee

deriving instance DecidableEq for CCall

namespace SharedExample

def session : ClientSession := { secret := [1, 2, 3], id := ⟨List.replicate 16 7, rfl⟩, sendCounter := 0 }

def client : Client :=
  { host := .ok (str "localhost"), readTimeout := 0, writeTimeout := 0, expectReply := true,
    session := some session, lastSentCounter := 0, buffer := [] }

def key : Bytes := match deriveKey Toy.crypto session.secret kdfInfo aesKeySize with | .ok k => k | .error _ => []

theorem key_eq : deriveKey Toy.crypto session.secret kdfInfo aesKeySize = .ok key := by
  have h : (deriveKey Toy.crypto session.secret kdfInfo aesKeySize).toOption.isSome = true := by decide +kernel
  unfold key
  cases hk : deriveKey Toy.crypto session.secret kdfInfo aesKeySize with
  | ok k => rfl
  | error e => rw [hk] at h; simp [Except.toOption] at h

/-- `n` steps of goroutine `i`; nothing arrives. -/
def steps (i n : Nat) : List (Nat × DEnv) := List.replicate n (i, { })

/-- A step of goroutine `i`; this arrives before. -/
def arrives (i : Nat) (bs : Bytes) : List (Nat × DEnv) := [(i, { arrives := [.data bs] })]

/-- The reply to the request with this counter. -/
def reply (counter : Nat) (message : Bytes) : Bytes :=
  Wire.processResponse counter (Toy.crypto.aeadSeal key (Wire.nonce12 1 counter) message)

end SharedExample

section
variable {C : Crypto}

/-- The network delivers, in any pieces, nothing before something was written, and then only this reply. -/
def OnlyReply (reply : Bytes) (w : DWorld) : Prop :=
  flatten w.arrived <+: reply.map Sum.inl ∧ (w.writes = [] → flatten w.arrived = [])

theorem pair_run {v : BitVec 64} {c : Client} {n : Nat} {p : Bytes} {out : Bytes × Option Err} {reply : List Item}
    (hstart : ∀ x, Expects C (v + 1) (.read n, out) (sharedCalls C c [.read n]) reply [] x)
    (hreply : ∃ bs : Bytes, reply = bs.map Sum.inl) (hb : c.buffer = []) (acts : List (Nat × DEnv))
    (hd : ∀ a ∈ acts, a.2.deadline = none)
    (hnet : ∀ k, ReplyOnly reply (DSys.run C c (DSys.start c v [[.read n], [.write p]]) (acts.take k)).world) :
    PairInv C v n p out reply (DSys.run C c (DSys.start c v [[.read n], [.write p]]) acts) := by
  have h0 : PairInv C v n p out reply (DSys.start c v [[.read n], [.write p]]) :=
    ⟨.ret [.read n], .ret [.write p], .before, [], reply, rfl, .inr ⟨rfl, rfl⟩, ⟨rfl, rfl⟩, rfl, rfl,
      .before _ hb, fun r hr => by cases hr⟩
  revert h0 hnet
  generalize DSys.start c v [[.read n], [.write p]] = s
  induction acts generalizing s with
  | nil => intro _ h0; exact h0
  | cons act acts ih =>
    intro hnet h0
    have h1 : PairInv C v n p out reply (Loops.step (sharedCalls C c) (dexec C) s act) := by
      have hn := hnet 1
      have hda := hd act (List.mem_cons_self ..)
      obtain ⟨i, e⟩ := act
      match i with
      | 0 => exact h0.reader hstart hda hn hreply
      | 1 => exact h0.writer e
      | i + 2 =>
        obtain ⟨pr, pw, g, consumed, rest, ht, hrest⟩ := h0
        have : Loops.step (sharedCalls C c) (dexec C) s (i + 2, e) = s := by simp [Loops.step, ht]
        rw [this]
        exact ⟨pr, pw, g, consumed, rest, ht, hrest⟩
    exact ih (fun a ha => hd a (List.mem_cons_of_mem _ ha)) _ (fun k => hnet (k + 1)) h1

theorem readBuffer_some {c : Client} {message : Bytes} {n : Nat} (hm : message ≠ []) :
    (readBuffer { c with buffer := message } n).1 =
      (message.take n, if message.length ≤ n then some .eof else none) := by
  rw [readBuffer, if_neg (fun h => hm h.1)]
  by_cases h : message.length ≤ n
  · simp [h, List.drop_eq_nil_of_le h]
  · simp [h]

/-- **C107**: one goroutine calls `Read`, another calls `Write`, in any order and interleaved in any way; the
server replies to the message, in any pieces.  Then `Read` returns the reply: it returns nothing else, and once
the reply has arrived it has to wait for nothing and nobody. -/
theorem C107_read_while_write (hC : C.Lawful) (c : Client) (session : ClientSession) (key ct message p : Bytes)
    (n : Nat) (v : BitVec 64) (acts : List (Nat × DEnv)) (hb : c.buffer = []) (hs : c.session = some session)
    (hk : deriveKey C session.secret kdfInfo aesKeySize = .ok key) (hl : ct.length ≤ 2 ^ 30)
    (ho : C.aeadOpen key (Wire.nonce12 1 (v + 1).toNat) ct = some message) (hm : message ≠ [])
    (hd : ∀ a ∈ acts, a.2.deadline = none)
    (hnet : ∀ k, OnlyReply (Wire.processResponse (v + 1).toNat ct)
      (DSys.run C c (DSys.start c v [[.read n], [.write p]]) (acts.take k)).world) :
    let result := (message.take n, if message.length ≤ n then some Err.eof else none)
    let s := DSys.run C c (DSys.start c v [[.read n], [.write p]]) acts
    (∀ r ∈ s.world.returns, r = (0, .read n, result) ∨ r.1 = 1 ∧ r.2.1 = .write p) ∧
    (flatten s.world.arrived = (Wire.processResponse (v + 1).toNat ct).map Sum.inl →
      ∃ m, (0, .read n, result) ∈ (DSys.run C c s (List.replicate m (0, {}))).world.returns) := by
  intro result s
  have hstart : ∀ x, Expects C (v + 1) (.read n, result) (sharedCalls C c [.read n])
      ((Wire.processResponse (v + 1).toNat ct).map Sum.inl) [] x := by
    intro x
    have := expects_start (n := n) hC hs hk hl ho x
    rw [readBuffer_some hm] at this
    exact this
  have hnet' : ∀ k, ReplyOnly ((Wire.processResponse (v + 1).toNat ct).map Sum.inl) (DSys.run C c
      (DSys.start c v [[.read n], [.write p]]) (acts.take k)).world := hnet
  have hinv := pair_run (p := p) hstart ⟨_, rfl⟩ hb acts hd hnet'
  refine ⟨?_, fun harr => ?_⟩
  · obtain ⟨pr, pw, g, consumed, rest, -, -, -, -, -, -, h⟩ := hinv
    exact h
  · have := hnet' acts.length
    rw [List.take_length] at this
    exact hinv.finishes hstart ⟨_, rfl⟩ harr this

open SharedExample in
/-- `Read` is called first and waits; then the message is written, and the reply arrives in two pieces. -/
example :
    (DSys.run Toy.crypto client (DSys.start client 0 [[.read 10], [.write (str "ping")]])
      (steps 0 5 ++ steps 1 6 ++ arrives 0 ((reply 1 (str "pong")).take 5) ++ steps 0 3 ++
       arrives 0 ((reply 1 (str "pong")).drop 5) ++ steps 0 10)).world.returns =
    [(1, .write (str "ping"), [], none), (0, .read 10, str "pong", some .eof)] := by
  decide +kernel

/-! ## C108 -/

/-- The requests of a server that answers with `answer`: what was written so far, as messages with their
counters, and the replies, in this order. -/
def HonestServer (C : Crypto) (c : Client) (session : ClientSession) (key : Bytes) (answer : Bytes → Bytes) (w : DWorld) :
    Prop :=
  ∃ sent : List (BitVec 64 × Bytes),
    w.writes.map (fun x => x.1) = sent.map (fun m => Wire.processRequest c.expectReply session.id m.1.toNat
      (C.aeadSeal key (Wire.nonce12 0 m.1.toNat) m.2)) ∧
    flatten w.arrived <+: (sent.flatMap fun m => Wire.processResponse m.1.toNat
      (C.aeadSeal key (Wire.nonce12 1 m.1.toNat) (answer m.2))).map Sum.inl

/-- **C108**, as the documentation of `net.Conn` promises ("multiple goroutines may invoke methods on a Conn
simultaneously"): goroutines that send a message and read the reply each get the reply to their own message. -/
def C108_claim : Prop :=
  ∀ (C : Crypto) (c : Client) (session : ClientSession) (key : Bytes) (answer : Bytes → Bytes) (messages : List Bytes)
    (n : Nat) (v : BitVec 64) (acts : List (Nat × DEnv)), C.Lawful → c.buffer = [] → c.session = some session →
    deriveKey C session.secret kdfInfo aesKeySize = .ok key → (∀ a ∈ acts, a.2.deadline = none) →
    v.toNat + messages.length < 2 ^ 64 → (∀ m ∈ messages, answer m ≠ [] ∧ (answer m).length ≤ n) → n + 16 ≤ 2 ^ 30 →
    (∀ k, HonestServer C c session key answer
      (DSys.run C c (DSys.start c v (messages.map fun p => [.write p, .read n])) (acts.take k)).world) →
    ∀ r ∈ (DSys.run C c (DSys.start c v (messages.map fun p => [.write p, .read n])) acts).world.returns,
      r.2.1 = .read n → ∃ p, messages[r.1]? = some p ∧ r.2.2.1 = answer p

namespace SharedExample

/-- Two goroutines write; then the reply to the first message arrives and the first goroutine reads it. -/
def acts : List (Nat × DEnv) :=
  steps 0 6 ++ steps 1 6 ++ steps 0 1 ++ arrives 0 (reply 1 (str "a")) ++ steps 0 8

/-- After `k` steps. -/
def after (k : Nat) : DSys :=
  DSys.run Toy.crypto client (DSys.start client 0 ([str "a", str "b"].map fun p => [.write p, .read 10])) (acts.take k)

/-- What was sent. -/
def sent (k : Nat) : List (BitVec 64 × Bytes) := [(1, str "a"), (2, str "b")].take (after k).world.writes.length

def honest (k : Nat) : Bool :=
  decide ((after k).world.writes.map (fun x => x.1) = (sent k).map (fun m => Wire.processRequest true session.id m.1.toNat
      (Toy.crypto.aeadSeal key (Wire.nonce12 0 m.1.toNat) m.2))) &&
    decide (flatten (after k).world.arrived = (((sent k).flatMap fun m => Wire.processResponse m.1.toNat
      (Toy.crypto.aeadSeal key (Wire.nonce12 1 m.1.toNat) m.2)).map Sum.inl).take
        (flatten (after k).world.arrived).length)

theorem honest_all (k : Nat) : HonestServer Toy.crypto client session key id (after k).world := by
  have hall : ((List.range 23).all honest) = true := by decide +kernel
  have h : ∀ j, j < 23 → honest j = true := fun j hj => List.all_eq_true.mp hall j (List.mem_range.mpr hj)
  have hj : ∃ j, j < 23 ∧ after k = after j := by
    rcases Nat.lt_or_ge k 23 with hk | hk
    · exact ⟨k, hk, rfl⟩
    · refine ⟨22, by omega, ?_⟩
      have h1 : acts.take k = acts := List.take_of_length_le (by rw [show acts.length = 22 from rfl]; omega)
      have h2 : acts.take 22 = acts := List.take_of_length_le (by rw [show acts.length = 22 from rfl]; omega)
      rw [after, after, h1, h2]
  obtain ⟨j, hj, e⟩ := hj
  rw [e]
  have := h j hj
  rw [honest, Bool.and_eq_true] at this
  exact ⟨sent j, of_decide_eq_true this.1, List.prefix_iff_eq_take.mpr (of_decide_eq_true this.2)⟩

end SharedExample

open SharedExample in
/-- **C108** is false: two goroutines have sent their messages when the reply to the first arrives; the
goroutine that reads it gets an error ("unexpected response counter"), and the reply is lost. -/
theorem C108_refuted : ¬ C108_claim := by
  intro h
  have hmem : (0, CCall.read 10, [], some (Err.other "unexpected response counter")) ∈
      (DSys.run Toy.crypto client (DSys.start client 0 ([str "a", str "b"].map fun p => [.write p, .read 10]))
        acts).world.returns := by decide +kernel
  obtain ⟨p, h1, h2⟩ := h Toy.crypto client session key id [str "a", str "b"] 10 0 acts Toy.lawful rfl rfl key_eq
    (by decide +kernel) (by decide) (by decide +kernel) (by decide) honest_all _ hmem rfl
  cases h1
  exact absurd h2 (by decide +kernel)

/-- **C108**, what holds, for any number of goroutines with any calls, any schedule and any network: no octet
is returned twice and none is made up.  In some order the data returned by the calls of `Read` (with `others`,
what calls that did not return yet hold, and `unread`) is what was buffered at the start followed by messages
that open as replies to messages of this client. -/
theorem C108_once_partial (hC : C.Lawful) (c : Client) (session : ClientSession) (key : Bytes) (v : BitVec 64)
    (calls : List (List CCall)) (acts : List (Nat × DEnv)) (hs : c.session = some session)
    (hk : deriveKey C session.secret kdfInfo aesKeySize = .ok key) :
    let w := (DSys.run C c (DSys.start c v calls) acts).world
    ∃ (pieces others messages : List Bytes) (unread : Bytes),
      (readData w.returns ++ others).Perm pieces ∧
      pieces.flatten ++ unread = c.buffer ++ messages.flatten ∧
      ∀ m ∈ messages, ∃ counter ct, (counter = c.lastSentCounter ∨ counter ∈ w.issued) ∧
        C.aeadOpen key (Wire.nonce12 1 counter.toNat) ct = some m := by
  intro w
  obtain ⟨gs, h⟩ := sharedOnce (C := C) (c := c) v calls acts
  obtain ⟨pieces, messages, h1, h2, h3⟩ := h.data
  refine ⟨pieces, heldAll gs, messages, _, h1, h2, fun m hm => ?_⟩
  obtain ⟨session', key', x, ct, g1, g2, g3, g4⟩ := h3 m hm
  rw [hs] at g1
  cases g1
  obtain ⟨key'', hk1, hk2⟩ := newGCM_ok hC session.secret
  rw [hk] at hk1
  cases hk1
  rw [hk2] at g2
  cases g2
  exact ⟨x, ct, List.mem_cons.mp g3, g4⟩

open SharedExample in
/-- Two goroutines read one reply, in parts. -/
example :
    (DSys.run Toy.crypto client (DSys.start client 0 [[.write (str "ping"), .read 3], [.read 3]])
      (steps 0 7 ++ arrives 0 (reply 1 (str "pong")) ++ steps 0 9 ++ steps 1 5)).world.returns =
    [(0, .write (str "ping"), [], none), (0, .read 3, str "pon", none), (1, .read 3, str "g", some .eof)] := by
  decide +kernel

/-! ## C109 -/

/-- The fields of the client that calls change. -/
inductive CField where
  | lastSentCounter
  | buffer
  deriving DecidableEq

/-- The field that a goroutine is about to access, and whether it will change it. -/
def nextAccess (s : DSys) (i : Nat) : Option (CField × Bool) :=
  match s.threads[i]? with
  | some (.op .loadLast _) => some (.lastSentCounter, false)
  | some (.op (.storeLast _) _) => some (.lastSentCounter, true)
  | some (.op .bufLen _) => some (.buffer, false)
  | some (.op (.bufRead _) _) => some (.buffer, true)
  | some (.op (.bufWrite _) _) => some (.buffer, true)
  | _ => none

/-- A data race: two goroutines may access the same field now, and one of them changes it. -/
def DataRace (s : DSys) : Prop :=
  ∃ i j f w w', i ≠ j ∧ nextAccess s i = some (f, w) ∧ nextAccess s j = some (f, w') ∧ (w || w') = true

/-- **C109**: one goroutine reads, another writes, and there is no data race. -/
def C109_claim : Prop :=
  ∀ (C : Crypto) (c : Client) (session : ClientSession) (key : Bytes) (answer : Bytes → Bytes) (ns : List Nat)
    (ps : List Bytes) (v : BitVec 64) (acts : List (Nat × DEnv)), C.Lawful → c.buffer = [] →
    c.session = some session → deriveKey C session.secret kdfInfo aesKeySize = .ok key →
    (∀ a ∈ acts, a.2.deadline = none) → v.toNat + ps.length < 2 ^ 64 →
    (∀ k, HonestServer C c session key answer
      (DSys.run C c (DSys.start c v [ns.map .read, ps.map .write]) (acts.take k)).world) →
    ¬ DataRace (DSys.run C c (DSys.start c v [ns.map .read, ps.map .write]) acts)

namespace SharedExample

/-- The first message is written, its reply read, and a second message is being written. -/
def actsRace : List (Nat × DEnv) :=
  steps 1 6 ++ steps 0 1 ++ arrives 0 (reply 1 (str "a")) ++ steps 0 4 ++ steps 1 2

def afterRace (k : Nat) : DSys :=
  DSys.run Toy.crypto client (DSys.start client 0 [[10].map .read, [str "a", str "b"].map .write]) (actsRace.take k)

/-- What was sent. -/
def sentRace (k : Nat) : List (BitVec 64 × Bytes) := [(1, str "a")].take (afterRace k).world.writes.length

def honestRace (k : Nat) : Bool :=
  decide ((afterRace k).world.writes.map (fun x => x.1) = (sentRace k).map (fun m => Wire.processRequest true session.id
      m.1.toNat (Toy.crypto.aeadSeal key (Wire.nonce12 0 m.1.toNat) m.2))) &&
    decide (flatten (afterRace k).world.arrived = (((sentRace k).flatMap fun m => Wire.processResponse m.1.toNat
      (Toy.crypto.aeadSeal key (Wire.nonce12 1 m.1.toNat) m.2)).map Sum.inl).take
        (flatten (afterRace k).world.arrived).length)

theorem honest_race (k : Nat) : HonestServer Toy.crypto client session key id (afterRace k).world := by
  have hall : ((List.range 15).all honestRace) = true := by decide +kernel
  have h : ∀ j, j < 15 → honestRace j = true := fun j hj => List.all_eq_true.mp hall j (List.mem_range.mpr hj)
  have hj : ∃ j, j < 15 ∧ afterRace k = afterRace j := by
    rcases Nat.lt_or_ge k 15 with hk | hk
    · exact ⟨k, hk, rfl⟩
    · refine ⟨14, by omega, ?_⟩
      have h1 : actsRace.take k = actsRace :=
        List.take_of_length_le (by rw [show actsRace.length = 14 from rfl]; omega)
      have h2 : actsRace.take 14 = actsRace :=
        List.take_of_length_le (by rw [show actsRace.length = 14 from rfl]; omega)
      rw [afterRace, afterRace, h1, h2]
  obtain ⟨j, hj, e⟩ := hj
  rw [e]
  have := h j hj
  rw [honestRace, Bool.and_eq_true] at this
  exact ⟨sentRace j, of_decide_eq_true this.1, List.prefix_iff_eq_take.mpr (of_decide_eq_true this.2)⟩

end SharedExample

open SharedExample in
/-- **C109** is false: the goroutine that reads has received the reply to the first message and looks at
`lastSentCounter`, while the other goroutine is about to store the counter of the second. -/
theorem C109_refuted : ¬ C109_claim := fun h =>
  h Toy.crypto client session key id [10] [str "a", str "b"] 0 actsRace Toy.lawful rfl rfl key_eq
    (by decide +kernel) (by decide) honest_race
    ⟨0, 1, .lastSentCounter, false, true, by decide, by decide +kernel, by decide +kernel, rfl⟩

theorem nextAccess_writer {p : Bytes} {s : DSys} {pr pw : DProg (List CCall)} {g : WPhase} (ht : s.threads = [pr, pw])
    (hw : SafeE (writeAuto p) pw g (Idle p) fun _ _ => True) {f : CField} {w : Bool}
    (h : nextAccess s 1 = some (f, w)) : f = .lastSentCounter ∧ ¬ g.isStored := by
  simp only [nextAccess, ht] at h
  cases pw with
  | ret l => cases h
  | panic m => cases h
  | op o k =>
    cases o with
    | storeLast x =>
      cases h
      refine ⟨rfl, fun hg => ?_⟩
      cases g with
      | stored => exact hw.1.elim
      | written => exact hw.1.elim
      | _ => exact hg
    | loadLast => cases g <;> exact hw.1.elim
    | bufLen => cases g <;> exact hw.1.elim
    | bufRead n => cases g <;> exact hw.1.elim
    | bufWrite bs => cases g <;> exact hw.1.elim
    | _ => cases h

theorem nextAccess_reader {v : BitVec 64} {n : Nat} {out : Bytes × Option Err} {reply rest : List Item} {s : DSys}
    {pr pw : DProg (List CCall)} {g : WPhase} (ht : s.threads = [pr, pw])
    (hr : ReaderAt C v n out reply g pr rest s.world) (hg : ¬ g.isStored) {w : Bool} :
    nextAccess s 0 ≠ some (.lastSentCounter, w) := by
  intro h
  simp only [nextAccess, ht] at h
  cases hr with
  | before => cases h
  | after => cases h
  | during _ _ _ hread _ hall =>
    cases pr with
    | ret l => cases h
    | panic m => cases h
    | op o k =>
      cases o with
      | loadLast => exact (hall hg).1
      | storeLast x => exact hread.1
      | bufLen => cases h
      | bufRead n => cases h
      | bufWrite bs => cases h
      | _ => cases h

/-- **C109**, what holds: one call of `Read` and one call of `Write` at the same time, with a server that sends
nothing but the reply to this message.  Missing: further messages before the reply has been read (`C109_refuted`),
and two goroutines that write, or two that read. -/
theorem C109_no_race_partial (hC : C.Lawful) (c : Client) (session : ClientSession) (key ct message p : Bytes)
    (n : Nat) (v : BitVec 64) (acts : List (Nat × DEnv)) (hb : c.buffer = []) (hs : c.session = some session)
    (hk : deriveKey C session.secret kdfInfo aesKeySize = .ok key) (hl : ct.length ≤ 2 ^ 30)
    (ho : C.aeadOpen key (Wire.nonce12 1 (v + 1).toNat) ct = some message)
    (hd : ∀ a ∈ acts, a.2.deadline = none)
    (hnet : ∀ k, OnlyReply (Wire.processResponse (v + 1).toNat ct)
      (DSys.run C c (DSys.start c v [[.read n], [.write p]]) (acts.take k)).world) :
    ¬ DataRace (DSys.run C c (DSys.start c v [[.read n], [.write p]]) acts) := by
  have hinv := pair_run (p := p) (fun x => expects_start (n := n) hC hs hk hl ho x) ⟨_, rfl⟩ hb acts hd hnet
  generalize DSys.run C c (DSys.start c v [[.read n], [.write p]]) acts = s at hinv
  obtain ⟨pr, pw, g, consumed, rest, ht, hw, -, -, -, hr, -⟩ := hinv
  have none_of : ∀ i x, nextAccess s (i + 2) ≠ some x := by
    intro i x h
    simp [nextAccess, ht] at h
  have clash : ∀ f w w', nextAccess s 0 = some (f, w) → nextAccess s 1 = some (f, w') → False := by
    intro f w w' h0 h1
    obtain ⟨rfl, hg⟩ := nextAccess_writer ht hw h1
    exact nextAccess_reader ht hr hg h0
  rintro ⟨i, j, f, w, w', hij, h1, h2, -⟩
  match i, j with
  | 0, 0 => exact hij rfl
  | 0, 1 => exact clash f w w' h1 h2
  | 1, 0 => exact clash f w' w h2 h1
  | 1, 1 => exact hij rfl
  | i + 2, _ => exact none_of i _ h1
  | 0, j + 2 => exact none_of j _ h2
  | 1, j + 2 => exact none_of j _ h2

open SharedExample in
/-- In the middle of it, both goroutines have something to do: one has read a part of the reply, the other is
about to return. -/
example :
    let s := DSys.run Toy.crypto client (DSys.start client 0 [[.read 10], [.write (str "ping")]])
      (steps 0 3 ++ steps 1 5 ++ arrives 0 ((reply 1 (str "pong")).take 5) ++ steps 0 1)
    s.world.returns = [] ∧ s.world.writes.length = 1 ∧ flatten s.world.input = [] ∧ s.world.last = 1 := by
  decide +kernel

end

end Goe2ee
