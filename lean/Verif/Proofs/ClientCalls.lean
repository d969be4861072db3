import Verif.Proofs.Handshake

/-!
# `Client.Read` and `Client.Write`
-/

set_option autoImplicit false

namespace Goe2ee

section
variable {C : Crypto}

theorem newGCM_ok (hC : C.Lawful) (secret : Bytes) :
    ∃ key, deriveKey C secret kdfInfo aesKeySize = .ok key ∧ newGCM C secret = .ok key := by
  obtain ⟨key, h1, -, h3, h4⟩ := C55_aead_key C hC secret
  exact ⟨key, h1, by simp only [newGCM, h1, h3, h4]⟩

theorem newGCM_key {secret key : Bytes} (h : newGCM C secret = .ok key) :
    deriveKey C secret kdfInfo aesKeySize = .ok key := by
  unfold newGCM at h
  cases h1 : deriveKey C secret kdfInfo aesKeySize with
  | error e => rw [h1] at h; cases h
  | ok k =>
    rw [h1] at h
    dsimp only at h
    unfold aesNewCipher cipherNewGCM at h
    split at h
    · cases h
    · rename_i heq
      split at heq
      · cases heq; cases h; rfl
      · cases heq

theorem run_readDeadline {β : Type} {env : CEnv C} {timeout : Int} {s : CConn × CShared}
    {f : Option Err → CProg C β} :
    ((if timeout > 0 then .op .setReadDeadline .ret else .ret none : CProg C (Option Err)).bind f).run
      (cexec env) s = (f (if timeout > 0 then env.readDeadline else none)).run (cexec env) s := by
  by_cases h : timeout > 0
  · rw [if_pos h, if_pos h]; rfl
  · rw [if_neg h, if_neg h]; rfl

theorem run_writeDeadline {β : Type} {env : CEnv C} {timeout : Int} {s : CConn × CShared}
    {f : Option Err → CProg C β} :
    ((if timeout > 0 then .op .setWriteDeadline .ret else .ret none : CProg C (Option Err)).bind f).run
      (cexec env) s = (f (if timeout > 0 then env.writeDeadline else none)).run (cexec env) s := by
  by_cases h : timeout > 0
  · rw [if_pos h, if_pos h]; rfl
  · rw [if_neg h, if_neg h]; rfl

/-- What a call of `Read` did. -/
inductive ReadOutcome (C : Crypto) (c : Client) (n : Nat) (s : CConn) :
    (Bytes × Option Err) × Client → CConn → Prop where
  /-- no data -/
  | failed (e : Err) (s' : CConn) : ReadOutcome C c n s (([], some e), c) s'
  /-- data of an earlier reply -/
  | buffered : c.buffer ≠ [] → ReadOutcome C c n s (readBuffer c n) s
  /-- a new reply -/
  | reply (session : ClientSession) (header : Byte) (ct key message : Bytes) (net : Transport) :
    c.buffer = [] → c.session = some session → header.msb = true →
    s.net.stream = (header :: (Wire.be64 c.lastSentCounter.toNat ++ Wire.be64 ct.length ++ ct)).map Sum.inl
      ++ net.stream →
    deriveKey C session.secret kdfInfo aesKeySize = .ok key →
    C.aeadOpen key (Wire.nonce12 1 c.lastSentCounter.toNat) ct = some message →
    ReadOutcome C c n s (readBuffer { c with buffer := message } n) { s with net }

theorem read_outcome {env : CEnv C} {c : Client} {n : Nat} {s s' : CConn} {w w' : CShared}
    {out : (Bytes × Option Err) × Client}
    (h : (c.read n).run (cexec env) (s, w) = (.val out, (s', w'))) :
    w' = w ∧ s'.writes = s.writes ∧ s'.isOpen = s.isOpen ∧ ReadOutcome C c n s out s' := by
  rw [Client.read, run_readDeadline] at h
  split at h
  · cases h; exact ⟨rfl, rfl, rfl, .failed _ _⟩
  split at h
  · rename_i hb; cases h; exact ⟨rfl, rfl, rfl, .buffered hb⟩
  rename_i hb
  have hb : c.buffer = [] := by simpa using hb
  obtain ⟨p₁, t₁, h1, h⟩ := run_parse_val h
  cases p₁ with
  | error e => cases h; exact ⟨rfl, rfl, rfl, .failed _ _⟩
  | ok common =>
  dsimp only at h
  split at h
  · obtain ⟨p₂, t₂, h2, h⟩ := run_parse_val h
    cases p₂ <;> cases h <;> exact ⟨rfl, rfl, rfl, .failed _ _⟩
  rename_i hs
  have hs : common.success = true := by simpa using hs
  obtain ⟨p₂, t₂, h2, h⟩ := run_parse_val h
  cases p₂ with
  | error e => cases h; exact ⟨rfl, rfl, rfl, .failed _ _⟩
  | ok response =>
  dsimp only at h
  split at h
  · cases h; exact ⟨rfl, rfl, rfl, .failed _ _⟩
  rename_i hc
  have hc : response.counter = c.lastSentCounter := by simpa using hc
  cases hsess : c.session with
  | none => rw [hsess] at h; cases h
  | some session =>
  rw [hsess] at h
  dsimp only at h
  cases hk : newGCM C session.secret with
  | error e => rw [hk] at h; cases h; exact ⟨rfl, rfl, rfl, .failed _ _⟩
  | ok key =>
  rw [hk] at h
  dsimp only at h
  rw [show gcmNonceSize = 12 from rfl, C12_nonce_layout] at h
  dsimp only [ofClientRes, Prog.ret_bind] at h
  cases ho : C.aeadOpen key (Wire.nonce12 directionServerToClient response.counter.toNat)
      response.message with
  | none => rw [ho] at h; cases h; exact ⟨rfl, rfl, rfl, .failed _ _⟩
  | some message =>
  rw [ho, hb] at h
  cases h
  obtain ⟨hcommon, hstream, hsize, -⟩ := parseProcessResponse_inv h2
  have hhead := parseResponseCommon_inv h1
  rw [hc] at ho
  have hall : s.net.stream = (((1#8 <<< 7) ||| common.reserved) ::
      (Wire.be64 c.lastSentCounter.toNat ++ Wire.be64 response.message.length ++
        response.message)).map Sum.inl ++ t₂.stream := by
    refine hhead.trans ?_
    dsimp only at hstream
    rw [hstream, ProcessResponse.bytes, hcommon, success_bytes common hs, hc, hsize, beEnc_eight,
      beEnc_eight]
    simp
  have := ReadOutcome.reply (n := n) session _ response.message key message t₂ hb hsess
    (msb_success common hs) hall (newGCM_key hk) ho
  rw [hsess] at this
  exact ⟨rfl, rfl, rfl, this⟩

/-- `Read` of a genuine reply. -/
theorem read_accepts {env : CEnv C} {c : Client} {n : Nat} {s : CConn} {w : CShared}
    {session : ClientSession} {key ct message : Bytes} {rest : List Item} (hC : C.Lawful)
    (hd : env.readDeadline = none) (hb : c.buffer = []) (hs : c.session = some session)
    (hk : deriveKey C session.secret kdfInfo aesKeySize = .ok key) (hl : ct.length ≤ 2 ^ 30)
    (hstream : s.net.stream =
      (Wire.processResponse c.lastSentCounter.toNat ct).map Sum.inl ++ rest)
    (ho : C.aeadOpen key (Wire.nonce12 1 c.lastSentCounter.toNat) ct = some message) :
    ∃ t, t.stream = rest ∧ (c.read n).run (cexec env) (s, w) =
      (.val (readBuffer { c with buffer := message } n), ({ s with net := t }, w)) := by
  have hbytes : Wire.processResponse c.lastSentCounter.toNat ct =
      0x80#8 :: (beEnc 8 c.lastSentCounter.toNat ++ (beEnc 8 ct.length ++ ct)) := by
    simp [Wire.processResponse, beEnc_eight]
  rw [hbytes, List.map_cons, List.cons_append] at hstream
  have h1 := (congrArg (runI parseResponseCommon) hstream).trans (runI_parseResponseCommon _ _)
  have h2 := (congrArg (runI (parseProcessResponse ⟨true, 0⟩)) (runNet_rest h1)).trans
    (runI_parseProcessResponse _ c.lastSentCounter ct hl rest)
  obtain ⟨key', hk1, hk2⟩ := newGCM_ok hC session.secret
  rw [hk] at hk1
  cases hk1
  rw [Client.read, run_readDeadline, hd, ite_self]
  dsimp only
  rw [if_neg (by simpa using hb), run_parse_eq _ _ h1]
  dsimp only
  rw [if_neg (by decide), run_parse_eq _ _ h2]
  dsimp only
  rw [if_neg (by simp), hs]
  dsimp only
  rw [hk2]
  dsimp only
  rw [show gcmNonceSize = 12 from rfl, C12_nonce_layout]
  dsimp only [ofClientRes, Prog.ret_bind]
  rw [show directionServerToClient = 1 from rfl, ho, hb]
  exact ⟨_, runNet_rest h2, by rw [← hs]; rfl⟩

theorem run_addCounter {β : Type} {env : CEnv C} {a : Nat} {k : BitVec 64 → CProg C β} {s : CConn}
    {w : CShared} :
    (Prog.op (S := CSig C) (.addCounter a) k).run (cexec env) (s, w) =
      (k (w.counters.getD a 0 + 1)).run (cexec env)
        (s, { w with counters := w.counters.set a (w.counters.getD a 0 + 1) }) := rfl

/-- The request that `Write` sends. -/
def writeRequest (C : Crypto) (c : Client) (session : ClientSession) (key : Bytes) (counter : BitVec 64)
    (p : Bytes) : Bytes :=
  Wire.processRequest c.expectReply session.id.val counter.toNat
    (C.aeadSeal key (Wire.nonce12 0 counter.toNat) p)

theorem sealed_fits (hC : C.Lawful) {p : Bytes} (hp : p.length < 2 ^ 63) (key nonce : Bytes) :
    (C.aeadSeal key nonce p).length < 2 ^ 64 := by rw [hC.seal_length]; omega

/-- A call of `Write` that gets as far as the counter. -/
theorem write_run {env : CEnv C} {c : Client} {p : Bytes} {s : CConn} {w : CShared}
    {session : ClientSession} {key : Bytes} (hC : C.Lawful)
    (hd : env.writeDeadline = none) (hs : c.session = some session)
    (hk : deriveKey C session.secret kdfInfo aesKeySize = .ok key) (counter : BitVec 64)
    (hc : counter = w.counters.getD session.sendCounter 0 + 1) (h0 : counter ≠ 0)
    (hp : p.length < 2 ^ 63) :
    (c.write p).run (cexec env) (s, w) =
      (.val (((writeRequest C c session key counter p).length - env.write.1, env.write.2),
          { c with lastSentCounter := counter }),
        ({ s with net := s.net.written, writes := s.writes ++ [(writeRequest C c session key counter p,
            (writeRequest C c session key counter p).length - env.write.1, env.write.2)] },
          { counters := w.counters.set session.sendCounter counter,
            sealed := w.sealed ++ [(key, Wire.nonce12 0 counter.toNat, p)] })) := by
  obtain ⟨key', hk1, hk2⟩ := newGCM_ok hC session.secret
  rw [hk] at hk1
  cases hk1
  rw [Client.write, run_writeDeadline, hd, ite_self]
  dsimp only
  rw [hs]
  dsimp only
  rw [hk2]
  subst hc
  dsimp only
  rw [run_addCounter, if_neg h0, show gcmNonceSize = 12 from rfl, C12_nonce_layout]
  simp only [ofClientRes, Prog.ret_bind, Prog.run, cexec,
    C04_process_request_layout _ _ _ _ (sealed_fits hC hp _ _)]
  rw [← hs]
  rfl

/-- A call of `Write` that exhausts the counter. -/
theorem write_exhausted {env : CEnv C} {c : Client} {p : Bytes} {s : CConn} {w : CShared}
    {session : ClientSession} {key : Bytes} (hC : C.Lawful)
    (hd : env.writeDeadline = none) (hs : c.session = some session)
    (hk : deriveKey C session.secret kdfInfo aesKeySize = .ok key)
    (hc : w.counters.getD session.sendCounter 0 + 1 = 0) :
    (c.write p).run (cexec env) (s, w) =
      (.val ((0, some (.other "message counter exhausted")), c),
        (s, { w with counters := w.counters.set session.sendCounter 0 })) := by
  obtain ⟨key', hk1, hk2⟩ := newGCM_ok hC session.secret
  rw [hk] at hk1
  cases hk1
  rw [Client.write, run_writeDeadline, hd, ite_self]
  dsimp only
  rw [hs]
  dsimp only
  rw [hk2]
  dsimp only
  rw [run_addCounter, if_pos hc, hc]
  rfl

/-- A successful `Write`. -/
theorem write_ok {env : CEnv C} {c c' : Client} {p : Bytes} {n : Nat} {s s' : CConn} {w w' : CShared}
    (hC : C.Lawful) (hp : p.length < 2 ^ 63)
    (h : (c.write p).run (cexec env) (s, w) = (.val ((n, none), c'), (s', w'))) :
    ∃ session key counter, c.session = some session ∧
      deriveKey C session.secret kdfInfo aesKeySize = .ok key ∧
      counter = w.counters.getD session.sendCounter 0 + 1 ∧ counter ≠ 0 ∧
      n = (writeRequest C c session key counter p).length - env.write.1 ∧ env.write.2 = none ∧
      c' = { c with lastSentCounter := counter } ∧
      s' = { s with net := s.net.written,
                    writes := s.writes ++ [(writeRequest C c session key counter p, n, none)] } ∧
      w' = { counters := w.counters.set session.sendCounter counter,
             sealed := w.sealed ++ [(key, Wire.nonce12 0 counter.toNat, p)] } := by
  rw [Client.write, run_writeDeadline] at h
  split at h
  · cases h
  cases hs : c.session with
  | none => rw [hs] at h; cases h
  | some session =>
  rw [hs] at h
  dsimp only at h
  cases hk : newGCM C session.secret with
  | error e => rw [hk] at h; cases h
  | ok key =>
  rw [hk] at h
  dsimp only at h
  rw [run_addCounter] at h
  split at h
  · cases h
  rename_i h0
  rw [show gcmNonceSize = 12 from rfl, C12_nonce_layout] at h
  simp only [ofClientRes, Prog.ret_bind, Prog.run, cexec,
    C04_process_request_layout _ _ _ _ (sealed_fits hC hp _ _)] at h
  cases hw : env.write.2 with
  | some e => rw [hw] at h; cases h
  | none =>
    rw [hw] at h
    cases h
    exact ⟨session, key, _, rfl, newGCM_key hk, rfl, h0, rfl, rfl, by rw [← hs], rfl, rfl⟩

/-- `Read` with data in the buffer. -/
theorem read_buffered {env : CEnv C} {c : Client} {n : Nat} {s : CConn × CShared}
    (hd : env.readDeadline = none) (hb : c.buffer ≠ []) :
    (c.read n).run (cexec env) s = (.val (readBuffer c n), s) := by
  rw [Client.read, run_readDeadline, hd, ite_self]
  dsimp only
  rw [if_pos hb]
  rfl

/-- Reading out the buffer. -/
theorem reads_buffer {c c' : Client} {s s' : CConn × CShared} {ns : List Nat}
    {rs : List (Bytes × Option Err)} (h : Reads (C := C) c s ns rs c' s') (hb : c.buffer ≠ [])
    (hns : ∀ i, i < ns.length → (ns.take i).sum < c.buffer.length) :
    (rs.map (·.1)).flatten = c.buffer.take ns.sum ∧
    (∀ (i : Nat) (r : Bytes × Option Err), rs[i]? = some r →
      r.2 = if c.buffer.length ≤ (ns.take (i + 1)).sum then some .eof else none) ∧
    c' = { c with buffer := c.buffer.drop ns.sum } ∧ s' = s := by
  induction h with
  | done c s => simp
  | @call env c c₁ c₂ s s₁ s₂ n ns r rs hd hr hrest ih =>
    rw [runClient, read_buffered hd hb, readBuffer, if_neg (fun h => hb h.1)] at hr
    cases hr
    cases ns with
    | nil =>
      cases hrest
      refine ⟨by simp, ?_, by simp, rfl⟩
      intro i r hr
      cases i with
      | zero =>
        cases hr
        dsimp only
        by_cases hle : c.buffer.length ≤ n
        · rw [if_pos (List.drop_eq_nil_iff.mpr hle), if_pos (by simpa using hle)]
        · rw [if_neg (fun h => hle (List.drop_eq_nil_iff.mp h)), if_neg (by simpa using hle)]
      | succ i => cases hr
    | cons m ns =>
      have hlt : n < c.buffer.length := by simpa using hns 1 (by simp)
      have hne : c.buffer.drop n ≠ [] := fun h => absurd (List.drop_eq_nil_iff.mp h) (by omega)
      obtain ⟨h1, h2, h3, h4⟩ := ih hne (by
        intro i hi
        have := hns (i + 1) (by simpa using hi)
        simp at this ⊢
        omega)
      refine ⟨?_, ?_, ?_, h4⟩
      · simp only [List.map_cons, List.flatten_cons, h1, List.sum_cons]
        exact List.take_add.symm
      · intro i r hr
        cases i with
        | zero =>
          cases hr
          dsimp only
          rw [if_neg hne, if_neg (by simp; omega)]
        | succ i =>
          have := h2 i r hr
          rw [this]
          by_cases hle : c.buffer.length - n ≤ m + (ns.take i).sum
          · rw [if_pos (by simpa using hle), if_pos (by simp; omega)]
          · rw [if_neg (by simpa using hle), if_neg (by simp; omega)]
      · rw [h3]; simp [List.drop_drop, Nat.add_comm]

end

end Goe2ee
