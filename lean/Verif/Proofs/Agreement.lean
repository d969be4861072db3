import Verif.Proofs.Trace
import Verif.Proofs.Once
import Verif.Proofs.Parsers
import Verif.Proofs.Invert
import Verif.Proofs.Shutdown

/-!
# Where sessions, messages and replies come from

The ghost state of a goroutine: its peer, and what it has read, created and been told.
-/

set_option autoImplicit false

namespace Goe2ee

/-- What a goroutine knows. -/
inductive Know where
  /-- a session it created -/
  | session (r : Ref) (secret host id : Bytes)
  /-- a session that exists -/
  | live (r : Ref)
  /-- a session's secret -/
  | secret (r : Ref) (secret : Bytes)
  /-- the application's reply to a message -/
  | replied (r : Ref) (counter : BitVec 64) (host id message reply : Bytes)

/-- What it knows is true. -/
def Know.Holds (w : World) : Know → Prop
  | .session r s host id =>
    (∃ window, w.heap[r]? = some (s, window)) ∧ .established r host id ∈ w.log
  | .live r => ∃ s window, w.heap[r]? = some (s, window)
  | .secret r s => ∃ window, w.heap[r]? = some (s, window)
  | .replied r counter host id message reply =>
    .invoked r counter host id message (.reply reply) ∈ w.log

theorem Know.Holds.mono {w w' : World} (hg : Grows w w') {f : Know} (h : f.Holds w) : f.Holds w' := by
  cases f with
  | session r s host id => exact ⟨hg.heap _ _ h.1, hg.log _ h.2⟩
  | live r =>
    obtain ⟨s, h⟩ := h
    exact ⟨s, hg.heap _ _ h⟩
  | secret r s => exact hg.heap _ _ h
  | replied r c host id m reply => exact hg.log _ h

/-- A goroutine's peer (none for the listeners and others without connection), the octets it has just
read one after the other, and what it knows; `bad` after a read result that does not occur. -/
structure Knows where
  peer : Option Peer
  run : Bytes
  facts : List Know
  bad : Bool

/-- What arrives for a goroutine. -/
def Knows.stream (g : Knows) : List (Byte ⊕ Err) :=
  match g.peer with
  | some p => p.stream
  | none => []

/-- Learn something. -/
def Knows.add (g : Knows) (f : Know) : Knows := { g with facts := f :: g.facts }

/-- Read octets. -/
def Knows.got (g : Knows) (bs : Bytes) : Knows := { g with run := g.run ++ bs }

/-- Reading failed. -/
def Knows.broke (g : Knows) : Knows := { g with run := [] }

/-- This does not occur. -/
def Knows.ruin (g : Knows) : Knows := { g with bad := true }

section
variable (C : Crypto)

/-- Signing needs a setup request from the peer, and a session with the secret of the keys in the
transcript; calling the application needs a process request from the peer that opens under the session's
key; encrypting needs the application's reply to the message with the nonce's counter.  If `strict`, storing
in the session table needs a request from the peer with the id of the key. -/
def knowA (strict : Bool) : Auto (SSig C) Knows where
  pre
    | .sign _ content, g => g.bad = true ∨ ∃ p pk k clientKey id host r secret,
        g.peer = some p ∧ p.host = .ok host ∧
        Wire.setupRequest id.val pk <:+ g.run ∧ C.parsePKIX pk = .ok (.inl clientKey) ∧
        .session r secret host id.val ∈ g.facts ∧ C.ecdh k clientKey = .ok secret ∧
        content = setupTranscript C clientKey (C.epub k) id
    | .newSession secret host id, g => g.bad = true ∨ ∃ p pk k clientKey,
        g.peer = some p ∧ p.host = .ok host ∧ id.length = 16 ∧
        Wire.setupRequest id pk <:+ g.run ∧ C.parsePKIX pk = .ok (.inl clientKey) ∧
        C.ecdh k clientKey = .ok secret
    | .mapStore key _, g => strict = true → g.bad = true ∨ ∃ p host id,
        g.peer = some p ∧ p.host = .ok host ∧ key = sessionKey C host id ∧
        ((∃ pk, Wire.setupRequest id.val pk <:+ g.run) ∨ ∃ flags c ct,
          0x13#8 :: flags :: (id.val ++ Wire.be64 c ++ Wire.be64 ct.length ++ ct) <:+ g.run)
    | .secretOf r, g => g.bad = true ∨ .live r ∈ g.facts
    | .invoke r c host id message, g => g.bad = true ∨ ∃ p ct secret key flags,
        g.peer = some p ∧ p.host = .ok host ∧
        id.length = 16 ∧ 0x13#8 :: flags :: (id ++ Wire.be64 c.toNat ++ Wire.be64 ct.length ++ ct) <:+ g.run ∧
        .secret r secret ∈ g.facts ∧ deriveKey C secret kdfInfo aesKeySize = .ok key ∧
        C.aeadOpen key (Wire.nonce12 0 c.toNat) ct = some message
    | .aead r key n reply, g => g.bad = true ∨ ∃ c secret host id message, .secret r secret ∈ g.facts ∧
        deriveKey C secret kdfInfo aesKeySize = .ok key ∧ n = Wire.nonce12 1 c.toNat ∧
        .replied r c host id message reply ∈ g.facts
    | .read (.copyLimit n), g => g.bad = true ∨ n = 1
    | _, _ => True
  next
    | .read (.readFull n), .ok bs, g => if bs.length = n then g.got bs else g.ruin
    | .read (.readFull _), .error _, g => g.broke
    | .read (.copyLimit _), (bs, e), g =>
      if bs = [] then g.broke else if bs.length = 1 ∧ e = none then g.got bs else g.ruin
    | .newSession secret host id, r, g => g.add (.session r secret host id)
    | .check r _, true, g => g.add (.live r)
    | .secretOf r, secret, g => g.add (.secret r secret)
    | .invoke r c host id message, .reply reply, g => g.add (.replied r c host id message reply)
    | _, _, g => g

variable {C} {strict : Bool}

/-- Effects that teach nothing and are always allowed. -/
def SOp.unknowing : SOp → Prop
  | .read _ | .newSession _ _ _ | .check _ _ | .secretOf _ | .invoke _ _ _ _ _ | .sign _ _
  | .aead _ _ _ _ | .mapStore _ _ => False
  | _ => True

theorem know_plain {α : Type} {p : SProg C α} (hp : Uses (S := SSig C) SOp.unknowing p)
    {g : Knows} {Q : α → Knows → Prop} (hQ : ∀ a, Q a g) : Safe (knowA C strict) p g Q :=
  Safe.of_uses hp (fun o _ h => by cases o <;> first | trivial | exact h.elim)
    (fun o _ _ h => by cases o <;> first | rfl | exact h.elim) hQ

theorem isWrite_unknowing (o : SOp) (h : o.isWrite) : o.unknowing := by
  cases o <;> first | trivial | exact h.elim

/-- The manager is the in-memory one, if that matters. -/
def Manager.Known (M : Manager C) (strict : Bool) : Prop := M.Passive ∧ (strict = true → M = inMemory C)

/-- Once `bad`, everything is allowed. -/
theorem know_bad_pre (o : SOp) (g : Knows) (hg : g.bad = true) : (knowA C strict).pre o g := by
  cases o with
  | mapStore k v => exact fun _ => .inl hg
  | read o => cases o <;> first | exact .inl hg | trivial
  | _ => first | exact .inl hg | trivial

theorem know_next_keeps (o : SOp) (r : (SSig C).Ret o) (g : Knows) :
    ((knowA C strict).next o r g).peer = g.peer ∧ (g.bad = true → ((knowA C strict).next o r g).bad = true) := by
  cases o with
  | read o =>
    cases o with
    | readFull n =>
      cases r with
      | error e => exact ⟨rfl, fun h => h⟩
      | ok bs =>
        show (if bs.length = n then g.got bs else g.ruin).peer = _ ∧
          (_ → (if bs.length = n then g.got bs else g.ruin).bad = _)
        split
        · exact ⟨rfl, fun h => h⟩
        · exact ⟨rfl, fun _ => rfl⟩
    | alloc n => exact ⟨rfl, fun h => h⟩
    | copyLimit n =>
      obtain ⟨bs, e⟩ := r
      show (if bs = [] then g.broke else if bs.length = 1 ∧ e = none then g.got bs else g.ruin).peer = _ ∧
        (_ → (if bs = [] then g.broke else if bs.length = 1 ∧ e = none then g.got bs else g.ruin).bad = _)
      split
      · exact ⟨rfl, fun h => h⟩
      split
      · exact ⟨rfl, fun h => h⟩
      · exact ⟨rfl, fun _ => rfl⟩
  | check s n =>
    match r with
    | true => exact ⟨rfl, fun h => h⟩
    | false => exact ⟨rfl, fun h => h⟩
  | invoke s n host id m =>
    match r with
    | .reply _ => exact ⟨rfl, fun h => h⟩
    | .error _ => exact ⟨rfl, fun h => h⟩
    | .panic _ => exact ⟨rfl, fun h => h⟩
  | _ => exact ⟨rfl, fun h => h⟩

theorem know_bad {α : Type} (p : SProg C α) (g : Knows) (hg : g.bad = true) {Q : α → Knows → Prop}
    (hQ : ∀ a g', g'.peer = g.peer → g'.bad = true → Q a g') : Safe (knowA C strict) p g Q := by
  induction p generalizing g with
  | ret a => exact hQ a g rfl hg
  | panic m => trivial
  | op o k ih =>
    refine ⟨know_bad_pre o g hg, fun r => ?_⟩
    obtain ⟨h1, h2⟩ := know_next_keeps o r g
    exact ih r _ (h2 hg) fun a g' hp hb => hQ a g' (hp.trans h1) hb

/-- The same peer. -/
abbrev SamePeer {α : Type} (g : Knows) : α → Knows → Prop := fun _ g' => g'.peer = g.peer

theorem know_fail (code : ErrorCode) (text : String) (g : Knows) :
    Safe (knowA C strict) (failWith code text) g (SamePeer g) :=
  know_plain ((uses_failWith _ _).mono isWrite_unknowing) fun _ => rfl

theorem know_respond (bs : Bytes) (g : Knows) : Safe (knowA C strict) (respondWith bs) g (SamePeer g) :=
  know_plain ((uses_respondWith _).mono isWrite_unknowing) fun _ => rfl

theorem know_table {α : Type} {p : SProg C α} (hp : Uses (S := SSig C) SOp.isTable p) {g : Knows}
    (hstore : ∀ k v g, (knowA C strict).pre (.mapStore k v) g) :
    Safe (knowA C strict) p g (fun _ g' => g' = g) :=
  Safe.of_uses hp (fun o _ h => by
    cases o <;> first | trivial | exact h.elim | exact hstore _ _ _)
    (fun o _ _ h => by cases o <;> first | rfl | exact h.elim) fun _ => rfl

theorem know_store {M : Manager C} (hM : M.Known strict) {g : Knows} (key : Bytes) (r : Ref)
    (hstore : ∀ v, (knowA C strict).pre (.mapStore key v) g) :
    Safe (knowA C strict) (M.store key r) g (fun _ g' => g' = g) := by
  cases strict with
  | false => exact know_table (hM.1.store _ _) fun _ _ _ h => nomatch h
  | true =>
    rw [hM.2 rfl]
    exact ⟨trivial, fun t => ⟨hstore _, fun _ => rfl⟩⟩

theorem know_load {M : Manager C} (hM : M.Known strict) {g : Knows} (key : Bytes)
    (hstore : ∀ v, (knowA C strict).pre (.mapStore key v) g) :
    Safe (knowA C strict) (M.load key) g (fun _ g' => g' = g) := by
  cases strict with
  | false => exact know_table (hM.1.load _) fun _ _ _ h => nomatch h
  | true =>
    rw [hM.2 rfl]
    refine ⟨trivial, fun (value : Option (Ref × Nat)) => ?_⟩
    rcases value with _ | ⟨r, t⟩
    · exact rfl
    · exact ⟨trivial, fun t => ⟨hstore _, fun _ => rfl⟩⟩

/-! ## Reading -/

/-- What a parser may end with: whatever it likes after an error or in a `bad` state. -/
def Lenient {α : Type} (g : Knows) (Q : Except Err α → Knows → Prop) : Prop :=
  (∀ e g', g'.peer = g.peer → Q (.error e) g') ∧ ∀ a g', g'.peer = g.peer → g'.bad = true → Q a g'

theorem know_readField {α : Type} {n : Nat} {what : String} {k : Bytes → RProg (Except Err α)} {g : Knows}
    {Q : Except Err α → Knows → Prop} (hQ : Lenient g Q)
    (hk : ∀ bs, bs.length = n → Safe (knowA C strict) (onConn (k bs)) (g.got bs) Q) :
    Safe (knowA C strict) (onConn (readField n what k)) g Q := by
  refine ⟨trivial, fun (r : Except Err Bytes) => ?_⟩
  rcases r with e | bs
  · cases e <;> exact hQ.1 _ _ rfl
  · show Safe (knowA C strict) (onConn (k bs)) (if bs.length = n then g.got bs else g.ruin) Q
    split
    · rename_i h
      exact hk bs h
    · exact know_bad _ _ rfl fun a g' hp hb => hQ.2 a g' hp hb

theorem know_readOctet {α : Type} {what : String} {k : Byte → RProg (Except Err α)} {g : Knows}
    {Q : Except Err α → Knows → Prop} (hQ : Lenient g Q)
    (hk : ∀ b, Safe (knowA C strict) (onConn (k b)) (g.got [b]) Q) :
    Safe (knowA C strict) (onConn (readOctet what k)) g Q := by
  refine ⟨.inr rfl, fun (r : Bytes × Option Err) => ?_⟩
  obtain ⟨bs, e⟩ := r
  show Safe (knowA C strict) (onConn _)
    (if bs = [] then g.broke else if bs.length = 1 ∧ e = none then g.got bs else g.ruin) Q
  split
  · rename_i hbs
    subst hbs
    rcases e with _ | e
    · exact hQ.1 _ _ rfl
    · show Safe (knowA C strict) (onConn (if _ then _ else _)) _ _
      split <;> exact hQ.1 _ _ rfl
  split
  · rename_i h
    obtain ⟨h1, rfl⟩ := h
    obtain ⟨b, rfl⟩ := List.length_eq_one_iff.mp h1
    exact hk b
  · exact know_bad _ _ rfl fun a g' hp hb => hQ.2 a g' hp hb

theorem know_alloc {α : Type} {n : Nat} {k : RProg α} {g : Knows} {Q : α → Knows → Prop}
    (hk : Safe (knowA C strict) (onConn k) g Q) : Safe (knowA C strict) (onConn (allocThen n k)) g Q :=
  ⟨trivial, fun _ => hk⟩

/-- The common part is one octet. -/
theorem know_requestCommon (g : Knows) :
    Safe (knowA C strict) (onConn parseRequestCommon) g (fun parsed g' => g'.peer = g.peer ∧
      (g'.bad = true ∨ ∀ common, parsed = .ok common → common.bytes <:+ g'.run)) := by
  refine know_readOctet ⟨fun e g' h => ⟨h, .inr (by simp)⟩, fun a g' h hb => ⟨h, .inl hb⟩⟩ fun b => ?_
  refine ⟨rfl, .inr fun common h => ?_⟩
  simp only [Except.ok.injEq] at h
  subst h
  have : (((b &&& 0xF0#8) >>> 4) <<< 4) ||| (b &&& 0x0F#8) = b := by revert b; decide
  rw [RequestCommon.bytes, this]
  exact List.suffix_append ..

/-- A parsed process request was read from the connection. -/
theorem know_processRequest (common : RequestCommon) (g : Knows)
    (hrun : g.bad = true ∨ common.bytes <:+ g.run) :
    Safe (knowA C strict) (onConn (parseProcessRequest common)) g (fun parsed g' => g'.peer = g.peer ∧
      (g'.bad = true ∨ ∀ request, parsed = .ok request → ∃ flags : Byte,
        common.bytes ++ flags :: (request.id.val ++ Wire.be64 request.counter.toNat ++
          Wire.be64 request.message.length ++ request.message) <:+ g'.run)) := by
  rcases hrun with hb | ⟨before, hrun⟩
  · exact know_bad _ _ hb fun _ g' hp hb => ⟨hp, .inl hb⟩
  have hL : ∀ g₀ : Knows, g₀.peer = g.peer → Lenient g₀ (fun (parsed : Except Err ProcessRequest) g' =>
      g'.peer = g.peer ∧ (g'.bad = true ∨ ∀ request, parsed = .ok request → ∃ flags : Byte,
        common.bytes ++ flags :: (request.id.val ++ Wire.be64 request.counter.toNat ++
          Wire.be64 request.message.length ++ request.message) <:+ g'.run)) := fun g₀ h₀ =>
    ⟨fun e g' h => ⟨h.trans h₀, .inr (by simp)⟩, fun a g' h hb => ⟨h.trans h₀, .inl hb⟩⟩
  refine know_readOctet (hL _ rfl) fun b => ?_
  refine know_readField (hL _ rfl) fun idBs hid => ?_
  refine know_readField (hL _ rfl) fun ctrBs hctr => ?_
  refine know_readField (hL _ rfl) fun sizeBs hsize => ?_
  dsimp only
  split
  · exact ⟨rfl, .inr (by simp)⟩
  refine know_alloc (know_readField (hL _ rfl) fun msg hmsg => ?_)
  refine ⟨rfl, .inr fun request h => ⟨b, before, ?_⟩⟩
  simp only [Except.ok.injEq] at h
  subst h
  have h1 : Wire.be64 (BitVec.ofNat 64 (beDec ctrBs)).toNat = ctrBs := by
    rw [← beEnc_eight, beEnc_ofNat_beDec8 _ hctr]
  have h2 : Wire.be64 msg.length = sizeBs := by
    rw [hmsg, ← beEnc_eight, beEnc_ofNat_beDec8 _ hsize]
  dsimp only
  rw [h1, h2, toID_octets _ hid]
  simp [Knows.got, ← hrun]

/-- A parsed setup request was read from the connection. -/
theorem know_setupRequest (common : RequestCommon) (g : Knows)
    (hrun : g.bad = true ∨ common.bytes <:+ g.run) :
    Safe (knowA C strict) (onConn (parseSetupRequest C common)) g (fun parsed g' => g'.peer = g.peer ∧
      (g'.bad = true ∨ ∀ request, parsed = .ok request →
        ∃ pk, common.bytes ++ (request.id.val ++ Wire.be32 pk.length ++ pk) <:+ g'.run ∧
          C.parsePKIX pk = .ok (.inl request.publicKey))) := by
  rcases hrun with hb | ⟨before, hrun⟩
  · exact know_bad _ _ hb fun _ g' hp hb => ⟨hp, .inl hb⟩
  have hL : ∀ g₀ : Knows, g₀.peer = g.peer → Lenient g₀ (fun (parsed : Except Err (SetupRequest C)) g' =>
      g'.peer = g.peer ∧ (g'.bad = true ∨ ∀ request, parsed = .ok request →
        ∃ pk, common.bytes ++ (request.id.val ++ Wire.be32 pk.length ++ pk) <:+ g'.run ∧
          C.parsePKIX pk = .ok (.inl request.publicKey))) := fun g₀ h₀ =>
    ⟨fun e g' h => ⟨h.trans h₀, .inr (by simp)⟩, fun a g' h hb => ⟨h.trans h₀, .inl hb⟩⟩
  refine know_readField (hL _ rfl) fun idBs hid => ?_
  refine know_readField (hL _ rfl) fun sizeBs hsize => ?_
  dsimp only
  split
  · exact ⟨rfl, .inr (by simp)⟩
  refine know_alloc (know_readField (hL _ rfl) fun pk hpk => ?_)
  unfold parseEPub
  split
  · exact ⟨rfl, .inr (by simp)⟩
  · exact ⟨rfl, .inr (by simp)⟩
  · rename_i k hk
    refine ⟨rfl, .inr fun request h => ?_⟩
    simp only [Except.ok.injEq] at h
    subst h
    refine ⟨pk, ⟨before, ?_⟩, hk⟩
    have h2 : Wire.be32 pk.length = sizeBs := by
      rw [hpk, ← beEnc_four, beEnc_ofNat_beDec4 _ hsize]
    dsimp only
    rw [h2, toID_octets _ hid]
    simp [Knows.got, ← hrun]

/-! ## The handlers -/

theorem know_setupHandler {M : Manager C} (hM : M.Known strict) (p : Peer) (common : RequestCommon)
    (hcommon : common.bytes = [0x12#8]) (g : Knows) (hg : g.peer = some p)
    (hrun : g.bad = true ∨ common.bytes <:+ g.run) :
    Safe (knowA C strict) (setupHandler M p.host common) g (SamePeer g) := by
  unfold setupHandler
  refine Safe.bind ((know_setupRequest common g hrun).mono fun parsed g1 h1 => ?_)
  obtain ⟨hp, hb | h1⟩ := h1
  · exact know_bad _ _ hb fun _ g' h _ => h.trans hp
  rcases parsed with _ | request
  · exact (know_fail _ _ _).mono fun _ _ h => h.trans hp
  obtain ⟨pk, hpk, hparse⟩ := h1 request rfl
  refine ⟨trivial, fun (generated : Except Err C.EPriv) => ?_⟩
  rcases generated with _ | serverPrivateKey
  · exact (know_fail _ _ _).mono fun _ _ h => h.trans hp
  dsimp only
  split
  · exact (know_fail _ _ _).mono fun _ _ h => h.trans hp
  rename_i sharedSecret hdh
  split
  · exact (know_fail _ _ _).mono fun _ _ h => h.trans hp
  rename_i host hhost
  have hreq : Wire.setupRequest request.id.val pk <:+ g1.run := by
    rw [hcommon] at hpk
    simpa [Wire.setupRequest] using hpk
  refine ⟨.inr ⟨p, pk, serverPrivateKey, request.publicKey, hp.trans hg, hhost, request.id.property, hreq,
    hparse, hdh⟩, fun (session : Ref) => ?_⟩
  refine Safe.bind ((know_store (g := g1.add (.session session sharedSecret host request.id.val)) hM _ _ fun v _ => .inr ⟨p, host, request.id, hp.trans hg, hhost, rfl,
    .inl ⟨pk, hreq⟩⟩).mono fun stored g2 h2 => ?_)
  subst h2
  rcases stored with _ | _
  · exact (know_fail _ _ _).mono fun _ _ h => h.trans hp
  refine ⟨.inr ⟨p, pk, serverPrivateKey, request.publicKey, request.id, host, session, sharedSecret,
    hp.trans hg, hhost, hreq, hparse, List.mem_cons_self .., hdh, rfl⟩,
    fun (signed : Except Err Bytes) => ?_⟩
  rcases signed with _ | signature
  · exact (know_fail _ _ _).mono fun _ _ h => h.trans hp
  exact (know_respond _ _).mono fun _ _ h => h.trans hp

theorem know_processHandler {M : Manager C} (hM : M.Known strict) (p : Peer) (common : RequestCommon)
    (hcommon : common.bytes = [0x13#8]) (g : Knows) (hg : g.peer = some p)
    (hrun : g.bad = true ∨ common.bytes <:+ g.run) :
    Safe (knowA C strict) (processHandler M p.host common) g (SamePeer g) := by
  unfold processHandler
  refine Safe.bind ((know_processRequest common g hrun).mono fun parsed g1 h1 => ?_)
  obtain ⟨hp, hb | h1⟩ := h1
  · exact know_bad _ _ hb fun _ g' h _ => h.trans hp
  rcases parsed with _ | request
  · exact (know_fail _ _ _).mono fun _ _ h => h.trans hp
  obtain ⟨flags, hframe⟩ := h1 request rfl
  dsimp only
  split
  · exact (know_fail _ _ _).mono fun _ _ h => h.trans hp
  rename_i host hhost
  refine Safe.bind ((know_load hM _ fun v _ => .inr ⟨p, host, request.id, hp.trans hg, hhost, rfl,
    .inr ⟨flags, _, _, by rw [hcommon] at hframe; exact hframe⟩⟩).mono fun loaded g2 h2 => ?_)
  subst h2
  rcases loaded with _ | session
  · exact (know_fail _ _ _).mono fun _ _ h => h.trans hp
  refine ⟨trivial, fun (fresh : Bool) => ?_⟩
  cases fresh with
  | false => exact (know_fail _ _ _).mono fun _ _ h => h.trans hp
  | true =>
    refine ⟨.inr (List.mem_cons_self ..), fun (secret : Bytes) => ?_⟩
    dsimp only
    split
    · exact (know_fail _ _ _).mono fun _ _ h => h.trans hp
    rename_i key hkey
    split
    · exact (know_fail _ _ _).mono fun _ _ h => h.trans hp
    rename_i block hblock
    split
    · exact (know_fail _ _ _).mono fun _ _ h => h.trans hp
    rename_i gcm hgcm
    have h2 := aesNewCipher_eq hblock
    have h3 : gcm = block := by
      unfold cipherNewGCM at hgcm
      cases hgcm
      rfl
    subst h2 h3
    rw [show gcmNonceSize = 12 from rfl, C12_nonce_layout]
    dsimp only [ofRes, Prog.ret_bind]
    split
    · exact (know_fail _ _ _).mono fun _ _ h => h.trans hp
    rename_i message hopen
    unfold runHandler
    refine ⟨.inr ⟨p, request.message, secret, _, flags, hp.trans hg, hhost, request.id.property, ?_,
      List.mem_cons_self .., hkey, hopen⟩, fun (handled : HRes) => ?_⟩
    · rw [hcommon] at hframe
      exact hframe
    rcases handled with written | e | m
    rotate_left
    · exact (know_fail _ _ _).mono fun _ _ h => h.trans hp
    · trivial
    dsimp only
    split
    · rw [show gcmNonceSize = 12 from rfl, C12_nonce_layout]
      refine ⟨.inr ⟨request.counter, secret, host, request.id.val, message,
        List.mem_cons_of_mem _ (List.mem_cons_self ..), hkey, rfl, List.mem_cons_self ..⟩,
        fun (sealed : Bytes) => ?_⟩
      exact (know_respond _ _).mono fun _ _ h => h.trans hp
    · exact hp

theorem know_serveRequest {M : Manager C} (hM : M.Known strict) (p : Peer) (g : Knows) (hg : g.peer = some p) :
    Safe (knowA C strict) (serveRequest M p.host) g (SamePeer g) := by
  unfold serveRequest
  refine Safe.bind ((know_requestCommon g).mono fun parsed g1 hp => ?_)
  obtain ⟨hp, hrun⟩ := hp
  rcases parsed with _ | common
  · exact hp
  replace hrun : g1.bad = true ∨ common.bytes <:+ g1.run := hrun.imp id fun h => h _ rfl
  dsimp only
  split
  · exact hp
  rename_i hver
  have hver : common.version = version1 := by simpa using hver
  have : Safe (knowA C strict) (handle M p.host common) g1 (SamePeer g1) := by
    unfold handle
    split
    · exact know_respond _ _
    split
    · rename_i ha
      refine know_setupHandler hM p _ ?_ _ (hp.trans hg) hrun
      rw [RequestCommon.bytes, hver, ha]
      decide
    split
    · rename_i ha
      refine know_processHandler hM p _ ?_ _ (hp.trans hg) hrun
      rw [RequestCommon.bytes, hver, ha]
      decide
    split
    · unfold fetchKeyHandler
      refine ⟨trivial, fun (fetched : Except Err (KeyAlgorithm × PublicKey)) => ?_⟩
      rcases fetched with _ | ⟨alg, pk⟩
      · exact know_fail _ _ _
      dsimp only
      split
      · exact know_fail _ _ _
      · exact know_respond _ _
    · rfl
  refine Safe.bind (this.mono fun err g2 h2 => ?_)
  rcases err with _ | _ <;> exact h2.trans hp

/-! ## Goroutines -/

theorem know_peer {M : Manager C} (hM : M.Known strict) (p : Peer) :
    ThreadOK (knowA C strict) (Thread.ofPeer M p) ⟨some p, [], [], false⟩ := by
  have hpanic : ∀ {α : Type} {q : SProg C α} {g : Knows} {Q : α → Knows → Prop},
      Safe (knowA C strict) q g Q → SafeE (knowA C strict) q g Q fun _ _ => True := fun h => h.toE
  cases p with
  | tcp host input =>
    have hpass : ∀ g : Knows, g.peer = some (.tcp host input) → SafeE (knowA C strict) (connPass M host) g
        (fun b g' => if b then g'.peer = some (.tcp host input) else True) (fun _ _ => True) := by
      intro g hg
      refine ⟨trivial, fun (closed : Bool) => ?_⟩
      cases closed
      · refine ⟨trivial, fun _ => ?_⟩
        refine (hpanic (know_serveRequest hM (.tcp host input) g hg)).mono (fun b g' h => ?_) (fun _ _ h => h)
        cases b
        · trivial
        · exact h.trans hg
      · trivial
    refine ⟨fun g => g.peer = some (.tcp host input), fun _ => True, hpass _ rfl, hpass, ?_⟩
    exact fun _ _ => ⟨trivial, fun _ => ⟨trivial, fun _ => trivial⟩⟩
  | udp host datagram =>
    refine ⟨fun _ => False, fun _ => True, ?_, fun _ h => h.elim, ?_⟩
    · refine ⟨trivial, fun _ => ?_⟩
      refine SafeE.bind ((hpanic (know_serveRequest hM (.udp host datagram) ⟨some (.udp host datagram), [], [], false⟩ rfl)).mono
        (fun _ _ _ => trivial) (fun _ _ h => h))
    · exact fun _ _ => ⟨trivial, fun _ => trivial⟩

theorem know_loop {q : SProg C Bool} (hq : Uses (S := SSig C) SOp.unknowing q) (g : Knows) :
    ThreadOK (knowA C strict) (.repeating q) g := by
  refine ThreadOK.always ?_ ?_ ?_ g
  · exact fun _ => know_plain hq fun _ => trivial
  · exact fun _ => know_plain hq fun _ => trivial
  · exact fun _ => trivial

theorem unknowing_acceptPass : Uses (S := SSig C) SOp.unknowing acceptPass := by
  refine ⟨trivial, fun (closed : Bool) => ?_⟩
  cases closed
  rotate_left
  · trivial
  refine ⟨trivial, fun (accepted : Except Err Peer) => ?_⟩
  rcases accepted with _ | peer
  · trivial
  exact ⟨trivial, fun _ => ⟨trivial, fun _ => trivial⟩⟩

theorem unknowing_packetPass : Uses (S := SSig C) SOp.unknowing packetPass := by
  refine ⟨trivial, fun (closed : Bool) => ?_⟩
  cases closed
  rotate_left
  · trivial
  refine ⟨trivial, fun (received : Except Err Peer) => ?_⟩
  rcases received with _ | peer
  · trivial
  exact ⟨trivial, fun _ => trivial⟩

theorem unknowing_closeServer : Uses (S := SSig C) SOp.unknowing closeServer := by
  refine ⟨trivial, fun (ok : Bool) => ?_⟩
  cases ok
  · trivial
  · exact ⟨trivial, fun _ => ⟨trivial, fun _ => trivial⟩⟩

theorem unknowing_gcVisit (ttl : Nat) : Uses (S := SSig C) SOp.unknowing (gcVisit ttl) := by
  refine ⟨trivial, fun key => ⟨trivial, fun (value : Option (Ref × Nat)) => ?_⟩⟩
  rcases value with _ | ⟨r, last⟩
  · trivial
  refine ⟨trivial, fun (t : Nat) => ?_⟩
  dsimp only
  split
  · exact ⟨trivial, fun _ => trivial⟩
  · trivial

/-! ## The invariant -/

/-- What a goroutine knows is true; its peer was accepted, and what it has just read and what it still
has to read is the end of what the peer sent. -/
structure KnowR (ops : List SOp) (g : Knows) (c : Conn) (w : World) : Prop where
  good : g.bad = false
  peer : ∀ p, g.peer = some p → Accepts ops p
  input : g.run.map Sum.inl ++ flatten c.input <:+ g.stream
  facts : ∀ f ∈ g.facts, f.Holds w

theorem readInterp_suffix (o : ROp) (evs : List Ev) :
    flatten (readInterp readEv o evs).2 <:+ flatten evs := by
  refine readInterp_keeps (P := fun e => flatten e <:+ flatten evs) (fun s k h => ?_) o evs List.suffix_rfl
  exact (readEv_suffix s k).trans h

/-- One octet, or none. -/
theorem copyLimitI_one (s : List Item) :
    ((copyLimitI s 1).1.1 = []) ∨
    ∃ b, (copyLimitI s 1).1 = ([b], none) ∧ s = .inl b :: (copyLimitI s 1).2 := by
  match s with
  | [] => exact .inl rfl
  | .inr e :: s => exact .inl rfl
  | .inl b :: s => exact .inr ⟨b, by simp [copyLimitI], by simp [copyLimitI]⟩

theorem exec_know (timeout : Nat) (ops : List SOp) (a : Answer C) (o : SOp) (c : Conn) (w : World)
    (g : Knows) (hpre : (knowA C strict).pre o g) (h : KnowR ops g c w) :
    KnowR ops ((knowA C strict).next o (exec C timeout a o (c, w)).1 g) (exec C timeout a o (c, w)).2.1
      (exec C timeout a o (c, w)).2.2 := by
  obtain ⟨h0, h1, h2, h3⟩ := h
  have hold : ∀ f ∈ g.facts, f.Holds (exec C timeout a o (c, w)).2.2 :=
    fun f hf => (h3 f hf).mono (exec_grows timeout a o c w)
  have hadd : ∀ f : Know, f.Holds (exec C timeout a o (c, w)).2.2 →
      ∀ f' ∈ (g.add f).facts, f'.Holds (exec C timeout a o (c, w)).2.2 := by
    intro f hf f' hm
    rcases List.mem_cons.mp hm with rfl | hm
    · exact hf
    · exact hold f' hm
  cases o with
  | read o =>
    have hs := (readInterp_suffix o c.input).trans ((List.suffix_append _ _).trans h2)
    cases o with
    | readFull n =>
      show KnowR ops ((knowA C strict).next (.read (.readFull n)) (readFull readEv n c.input).1 g)
        { c with input := (readFull readEv n c.input).2 } w
      cases hr : (readFull readEv n c.input).1 with
      | error e => exact ⟨h0, h1, hs, hold⟩
      | ok bs =>
        have hf := readFull_flatten n c.input
        rw [hr] at hf
        obtain ⟨hf1, hf2⟩ := readFullI_ok_inv _ _ _ _ hf.symm
        show KnowR ops (if bs.length = n then g.got bs else g.ruin) _ _
        rw [if_pos hf2]
        refine ⟨h0, h1, ?_, hold⟩
        rw [hf1] at h2
        simpa [Knows.got, Knows.stream] using h2
    | alloc n => exact ⟨h0, h1, h2, hold⟩
    | copyLimit n =>
      have hn : n = 1 := by
        rcases hpre with hb | hn
        · rw [h0] at hb; cases hb
        · exact hn
      subst hn
      show KnowR ops ((knowA C strict).next (.read (.copyLimit 1)) (copyLimit readEv 1 c.input).1 g)
        { c with input := (copyLimit readEv 1 c.input).2 } w
      have hf := copyLimit_flatten 1 c.input
      have h4 := copyLimitI_one (flatten c.input)
      rw [show ((1 : Int).toNat) = 1 from rfl] at hf
      rw [← hf] at h4
      have hs' : flatten (copyLimit readEv 1 c.input).2 <:+ g.stream := hs
      revert h4 hs'
      generalize (copyLimit readEv 1 c.input) = res
      obtain ⟨⟨bs, e⟩, evs⟩ := res
      intro h4 hs'
      show KnowR ops
        (if bs = [] then g.broke else if bs.length = 1 ∧ e = none then g.got bs else g.ruin) _ _
      rcases h4 with h4 | ⟨b, h4, h5⟩
      · rw [if_pos h4]
        exact ⟨h0, h1, hs', hold⟩
      · cases h4
        refine ⟨h0, h1, ?_, hold⟩
        dsimp only at h5
        rw [h5] at h2
        simpa [Knows.got, Knows.stream] using h2
  | write bs =>
    have : (exec C timeout a (.write bs) (c, w)).2.1.input = c.input := by
      simp [exec, execWrite]
    exact ⟨h0, h1, by rw [this]; exact h2, hold⟩
  | flush =>
    have : (exec C timeout a .flush (c, w)).2.1.input = c.input := by
      simp only [exec]; split <;> rfl
    exact ⟨h0, h1, by rw [this]; exact h2, hold⟩
  | check r n =>
    have hc : (exec C timeout a (.check r n) (c, w)).2.1 = c := by
      simp only [exec]; split <;> rfl
    rw [hc]
    have hlive : ∀ b : Bool, (exec C timeout a (.check r n) (c, w)).1 = b → b = true →
        ∃ secret window, w.heap[r]? = some (secret, window) := by
      intro b hb ht
      subst ht
      simp only [exec] at hb
      split at hb
      · cases hb
      · rename_i s win hr
        exact ⟨s, win, hr⟩
    have hgen : ∀ b : Bool, (exec C timeout a (.check r n) (c, w)).1 = b →
        KnowR ops ((knowA C strict).next (.check r n) b g) c (exec C timeout a (.check r n) (c, w)).2.2 := by
      intro b hb
      cases b with
      | false => exact ⟨h0, h1, h2, hold⟩
      | true =>
        refine ⟨h0, h1, h2, hadd _ ?_⟩
        obtain ⟨s, hw⟩ := hlive true hb rfl
        exact ⟨s, (exec_grows timeout a (.check r n) c w).heap _ _ hw⟩
    exact hgen _ rfl
  | newSession secret host id =>
    refine ⟨h0, h1, h2, hadd _ ⟨⟨.fresh, ?_⟩, ?_⟩⟩
    · show (w.heap ++ [(secret, ReplayWindow.fresh)])[w.heap.length]? = _
      simp
    · show _ ∈ w.log ++ [_]
      exact List.mem_append_right _ (List.mem_singleton.mpr rfl)
  | secretOf r =>
    refine ⟨h0, h1, h2, hadd _ ?_⟩
    have hl : .live r ∈ g.facts := by
      rcases hpre with hb | hl
      · rw [h0] at hb; cases hb
      · exact hl
    obtain ⟨s, win, hr⟩ := h3 _ hl
    refine ⟨win, ?_⟩
    show w.heap[r]? = some ((w.heap.getD r ([], .fresh)).1, win)
    simp [List.getD, hr]
  | invoke r n host id m =>
    have hgen : ∀ res : HRes, a.handle = res →
        KnowR ops ((knowA C strict).next (.invoke r n host id m) res g) c
          (exec C timeout a (.invoke r n host id m) (c, w)).2.2 := by
      intro res hres
      cases res with
      | reply reply =>
        refine ⟨h0, h1, h2, hadd _ ?_⟩
        show _ ∈ w.log ++ [_]
        rw [hres]
        exact List.mem_append_right _ (List.mem_singleton.mpr rfl)
      | error e => exact ⟨h0, h1, h2, hold⟩
      | panic m => exact ⟨h0, h1, h2, hold⟩
    exact hgen _ rfl
  | _ => exact ⟨h0, h1, h2, hold⟩

theorem know_keeps {M : Manager C} (hM : M.Known strict) (timeout : Nat) (ops : List SOp) :
    KeepsGrow M timeout (knowA C strict) (KnowR ops) (fun o => o ∈ ops) where
  exec := fun a o c w g _ hpre h => exec_know timeout ops a o c w g hpre h
  mono := fun _ _ _ _ hg h => ⟨h.good, h.peer, h.input, fun f hf => (h.facts f hf).mono hg⟩
  spawn := fun p w hp => by
    refine ⟨⟨some p, [], [], false⟩, know_peer hM p, rfl, ?_, ?_, by simp⟩
    · intro q hq
      cases hq
      exact hp
    · cases p with
      | tcp host input => exact List.suffix_rfl
      | udp host datagram =>
        show (datagram.map Sum.inl ++ []) <:+ datagram.map Sum.inl
        rw [List.append_nil]
        exact List.suffix_rfl

/-- Every effect the server performed was allowed by what its goroutine knew. -/
theorem know_run {M : Manager C} (hM : M.Known strict) (timeout ttl closers : Nat)
    (acts : List (Nat × Answer C)) (o : SOp)
    (ho : o ∈ (Sys.start (C := C) ttl closers).effects M timeout acts) :
    ∃ g, g.bad = false ∧ (knowA C strict).pre o g ∧
      (∀ p, g.peer = some p → Accepts ((Sys.start (C := C) ttl closers).effects M timeout acts) p ∧
        ∀ bs, bs <:+ g.run → Within bs p.stream) ∧
      ∀ f ∈ g.facts, f.Holds (Sys.run M timeout (Sys.start ttl closers) acts).world := by
  have hnone : KnowR ((Sys.start (C := C) ttl closers).effects M timeout acts) ⟨none, [], [], false⟩ Conn.none
      (Sys.start (C := C) ttl closers).world := ⟨rfl, by simp, List.suffix_rfl, by simp⟩
  have hclose : ThreadOK (knowA C strict)
      { conn := .none, prog := closeServer, loop := .ret false, deferred := .ret false } ⟨none, [], [], false⟩ := by
    refine ThreadOK.always ?_ ?_ ?_ _
    · exact fun _ => know_plain unknowing_closeServer fun _ => trivial
    · exact fun _ => trivial
    · exact fun _ => trivial
  obtain ⟨-, -, h⟩ := (know_keeps hM timeout _).run acts (Sys.start ttl closers) (fun o ho => ho) rfl
    (start_threads (P := GrowOK (knowA C strict) (KnowR _) _)
      ⟨⟨none, [], [], false⟩, know_loop unknowing_acceptPass _, hnone⟩
      ⟨⟨none, [], [], false⟩, know_loop unknowing_packetPass _, hnone⟩
      ⟨⟨none, [], [], false⟩, know_loop (unknowing_gcVisit ttl) _, hnone⟩ ⟨⟨none, [], [], false⟩, hclose, hnone⟩)
  obtain ⟨g, c, h1, h2⟩ := h o ho
  refine ⟨g, h2.good, h1, fun p hp => ⟨h2.peer p hp, fun bs hbs => ?_⟩, h2.facts⟩
  have h3 := h2.input
  rw [Knows.stream, hp] at h3
  obtain ⟨before, hb⟩ := hbs
  obtain ⟨pre, h3⟩ := h3
  refine ⟨pre ++ before.map Sum.inl, flatten c.input, ?_⟩
  show _ = p.stream
  refine Eq.trans ?_ h3
  rw [← hb]
  simp

end

end Goe2ee
