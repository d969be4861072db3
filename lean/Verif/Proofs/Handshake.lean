import Verif.Proofs.Client
import Verif.Proofs.Robust
import Verif.Props.Codec

/-!
# Helper lemmas: the client's side of the handshake
-/

set_option autoImplicit false

namespace Goe2ee

section
variable {C : Crypto}

theorem cryptoHash_eq {t : HashType} {h : Nat} (he : HashType.cryptoHash t = .val h) :
    hashNumber t = some h := by
  unfold HashType.cryptoHash at he
  unfold hashNumber
  split at he
  · rename_i ht; cases he; subst ht; rfl
  split at he
  · rename_i ht; cases he; subst ht; rfl
  split at he
  · rename_i ht; cases he; subst ht; rfl
  · cases he

theorem verifySignature_true {key : PublicKey} {hash : Nat} {content sig : Bytes}
    (h : verifySignature C key hash content sig = .val (.ok true)) : Verifies C key hash content sig := by
  unfold verifySignature at h
  split at h
  · cases key with
    | rsa k => cases k with
      | none => cases h
      | some k => exact .inl ⟨k, rfl, by simpa using h⟩
    | ecdsa k => cases k with
      | none => cases h
      | some k => exact .inr (.inl ⟨k, rfl, by simpa using h⟩)
    | ed25519 k =>
      dsimp only at h
      split at h
      · cases h
      · rename_i hk
        exact .inr (.inr ⟨k, rfl, by omega, by simpa using h⟩)
    | nilIface => cases h
    | otherType t => cases h
  · cases h

theorem success_bytes (r : ResponseCommon) (h : r.success = true) :
    r.bytes = [(1#8 <<< 7) ||| r.reserved] := by rw [ResponseCommon.bytes, if_pos h]

theorem msb_or : ∀ b : Byte, ((1#8 <<< 7) ||| b).msb = true := by decide

theorem msb_success (r : ResponseCommon) (_ : r.success = true) :
    ((1#8 <<< 7) ||| r.reserved).msb = true := msb_or _

theorem handshake_ok {env : CEnv C} {host : Except Err Bytes} {c : CConn} {w : CShared}
    {session : ClientSession} {s' : CConn × CShared}
    (h : (handshake host).run (cexec env) (c, w) = (.val (.ok session), s')) :
    ∃ hostname key random priv header pk serverKey hashOctet hash sig rest,
      host = .ok hostname ∧ env.fetch hostname = .ok key ∧ env.random = .ok random ∧
      env.genKey = .ok priv ∧
      c.net.written.stream = (header :: (Wire.be32 pk.length ++ pk ++ [hashOctet] ++
        Wire.be32 sig.length ++ sig)).map Sum.inl ++ rest ∧
      header.msb = true ∧ C.parsePKIX pk = .ok (.inl serverKey) ∧ hashNumber hashOctet = some hash ∧
      Verifies C key hash (Wire.transcript (C.marshalEPub (C.epub priv)) (C.marshalEPub serverKey)
        session.id.val) sig ∧
      C.ecdh priv serverKey = .ok session.secret ∧ session.id = uuidOf random ∧
      session.sendCounter = w.counters.length ∧ s'.2 = { w with counters := w.counters ++ [0] } ∧
      s'.1.isOpen = c.isOpen ∧ s'.1.net.stream = rest ∧
      s'.1.writes = c.writes ++ [(Wire.setupRequest session.id.val (C.marshalEPub (C.epub priv)),
        (Wire.setupRequest session.id.val (C.marshalEPub (C.epub priv))).length, none)] := by
  unfold handshake at h
  cases host with
  | error e => cases h
  | ok hostname =>
  cases hf : env.fetch hostname with
  | error e => simp only [Prog.run, cexec, hf] at h; cases h
  | ok key =>
  cases hr : env.random with
  | error e => simp only [Prog.run, cexec, hf, hr, uuid] at h; cases h
  | ok random =>
  cases hg : env.genKey with
  | error e => simp only [Prog.run, cexec, hf, hr, hg, uuid] at h; cases h
  | ok priv =>
  simp only [Prog.run, cexec, hf, hr, hg, uuid] at h
  cases hw : env.write.2 with
  | some e => rw [hw] at h; cases h
  | none =>
  rw [hw] at h
  dsimp only at h
  split at h
  · cases h
  rename_i hn
  obtain ⟨p₁, t₁, h1, h⟩ := run_parse_val h
  cases p₁ with
  | error e => cases h
  | ok common =>
  dsimp only at h
  split at h
  · obtain ⟨p₂, t₂, h2, h⟩ := run_parse_val h
    cases p₂ <;> cases h
  rename_i hs
  obtain ⟨p₂, t₂, h2, h⟩ := run_parse_val h
  cases p₂ with
  | error e => cases h
  | ok response =>
  dsimp only at h
  cases hh : HashType.cryptoHash response.hashType with
  | panic m => rw [hh] at h; cases h
  | val hash =>
  rw [hh] at h
  dsimp only [ofClientRes, Prog.ret_bind] at h
  cases hv : verifySignature C key hash
      (setupTranscript C (C.epub priv) response.publicKey (uuidOf random)) response.signature with
  | panic m => rw [hv] at h; cases h
  | val v =>
  rw [hv] at h
  match v, hv, h with
  | .error e, _, h => cases h
  | .ok false, _, h => cases h
  | .ok true, hv, h =>
  cases he : C.ecdh priv response.publicKey with
  | error e => simp only [ofClientRes, Prog.ret_bind, he, Prog.run] at h; cases h
  | ok secret =>
  simp only [ofClientRes, Prog.ret_bind, he, Prog.run, cexec] at h
  cases h
  obtain ⟨pk, hc, hpk, -, -, hstream⟩ := parseSetupResponse_inv h2
  have hhead := parseResponseCommon_inv h1
  refine ⟨hostname, key, random, priv, _, pk, response.publicKey, response.hashType, hash,
    response.signature, t₂.stream, rfl, hf, rfl, rfl, ?_, msb_success common (by simpa using hs), hpk,
    cryptoHash_eq hh, ?_, he, rfl, rfl, rfl, rfl, rfl, ?_⟩
  · refine hhead.trans ?_
    rw [success_bytes common (by simpa using hs)]
    dsimp only at hstream
    rw [hstream, beEnc_four, beEnc_four]
    simp
  · have := verifySignature_true hv
    rwa [C13_transcript_layout] at this
  · have hn' : (newSetupRequest C (uuidOf random) (C.epub priv)).bytes.length - env.write.1 =
        (newSetupRequest C (uuidOf random) (C.epub priv)).bytes.length := by simpa using hn
    dsimp only
    rw [hn', C02_setup_request_layout]

theorem NoPanic.responseCommon : NoPanic parseResponseCommon := .readOctet fun _ => trivial

theorem NoPanic.setupResponse (C : Crypto) (c : ResponseCommon) : NoPanic (parseSetupResponse C c) :=
  .readField fun _ => .ite trivial fun _ => .readField fun _ => by
    unfold parseEPub
    split
    · exact trivial
    · exact trivial
    · exact .readField fun _ => .readField fun _ => .ite trivial fun _ => .readField fun _ => trivial

theorem NoPanic.processResponse (c : ResponseCommon) : NoPanic (parseProcessResponse c) :=
  .readField fun _ => .readField fun _ => .ite trivial fun _ => .readField fun _ => trivial

theorem NoPanic.errorResponse (c : ResponseCommon) : NoPanic (parseErrorResponse c) := by
  refine .readField fun _ => .readField fun _ => .ite trivial ?_
  intro r
  rcases r with ⟨n, _ | e⟩
  · exact .ite trivial trivial
  · exact .ite trivial (.ite trivial trivial)

theorem NoPanic.run {S : Sig} {σ α : Type} {p : Prog S α} (hp : NoPanic p) (I : Interp S σ) (s : σ)
    (m : String) (s' : σ) : p.run I s ≠ (.panic m, s') := by
  induction p generalizing s with
  | ret a => intro h; cases h
  | panic m => exact hp.elim
  | op o k ih => exact ih _ (hp _) _

theorem run_parse_panic {α β : Type} {env : CEnv C} {p : RProg α} {f : α → CProg C β} {c : CConn}
    {w : CShared} {m : String} {s' : CConn × CShared} (hp : NoPanic p)
    (h : ((onClientConn p).bind f).run (cexec env) (c, w) = (.panic m, s')) :
    ∃ a t, runI p c.net.stream = (.val a, t.stream) ∧
      (f a).run (cexec env) ({ c with net := t }, w) = (.panic m, s') := by
  obtain ⟨t, ⟨a, h1, h2⟩ | ⟨m, h1, h2⟩⟩ := run_parse_inv h
  · exact ⟨a, t, h1, h2⟩
  · exact absurd h1 (hp.run _ _ _ _)

theorem cryptoHash_panic {t : HashType} {m : String} (he : HashType.cryptoHash t = .panic m) :
    hashNumber t = none := by
  unfold HashType.cryptoHash at he
  unfold hashNumber
  split at he
  · cases he
  rename_i h1
  split at he
  · cases he
  rename_i h2
  split at he
  · cases he
  rename_i h3
  exact (if_neg h1).trans ((if_neg h2).trans (if_neg h3))

theorem verifySignature_panic {key : PublicKey} {hash : Nat} {content sig : Bytes} {m : String}
    (h : verifySignature C key hash content sig = .panic m) : ¬ key.usable := by
  unfold verifySignature at h
  split at h
  · cases key with
    | rsa k => cases k with
      | none => exact Bool.false_ne_true
      | some k => cases h
    | ecdsa k => cases k with
      | none => exact Bool.false_ne_true
      | some k => cases h
    | ed25519 k =>
      dsimp only at h
      split at h
      · assumption
      · cases h
    | nilIface => cases h
    | otherType t => cases h
  · cases h

theorem handshake_panic {env : CEnv C} {host : Except Err Bytes} {c : CConn} {w : CShared}
    {m : String} {s' : CConn × CShared}
    (h : (handshake host).run (cexec env) (c, w) = (.panic m, s')) :
    ∃ hostname key header pk serverKey hashOctet sig rest,
      host = .ok hostname ∧ env.fetch hostname = .ok key ∧
      c.net.written.stream = (header :: (Wire.be32 pk.length ++ pk ++ [hashOctet] ++
        Wire.be32 sig.length ++ sig)).map Sum.inl ++ rest ∧
      header.msb = true ∧ C.parsePKIX pk = .ok (.inl serverKey) ∧
      (hashNumber hashOctet = none ∨ ¬ key.usable) := by
  unfold handshake at h
  cases host with
  | error e => cases h
  | ok hostname =>
  cases hf : env.fetch hostname with
  | error e => simp only [Prog.run, cexec, hf] at h; cases h
  | ok key =>
  cases hr : env.random with
  | error e => simp only [Prog.run, cexec, hf, hr, uuid] at h; cases h
  | ok random =>
  cases hg : env.genKey with
  | error e => simp only [Prog.run, cexec, hf, hr, hg, uuid] at h; cases h
  | ok priv =>
  simp only [Prog.run, cexec, hf, hr, hg, uuid] at h
  cases hw : env.write.2 with
  | some e => rw [hw] at h; cases h
  | none =>
  rw [hw] at h
  dsimp only at h
  split at h
  · cases h
  obtain ⟨p₁, t₁, h1, h⟩ := run_parse_panic .responseCommon h
  cases p₁ with
  | error e => cases h
  | ok common =>
  dsimp only at h
  split at h
  · obtain ⟨p₂, t₂, h2, h⟩ := run_parse_panic (.errorResponse _) h
    cases p₂ <;> cases h
  rename_i hs
  obtain ⟨p₂, t₂, h2, h⟩ := run_parse_panic (.setupResponse C _) h
  cases p₂ with
  | error e => cases h
  | ok response =>
  obtain ⟨pk, hc, hpk, -, -, hstream⟩ := parseSetupResponse_inv h2
  have hhead := parseResponseCommon_inv h1
  refine ⟨hostname, key, _, pk, response.publicKey, response.hashType, response.signature, t₂.stream,
    rfl, hf, ?_, msb_success common (by simpa using hs), hpk, ?_⟩
  · refine hhead.trans ?_
    rw [success_bytes common (by simpa using hs)]
    dsimp only at hstream
    rw [hstream, beEnc_four, beEnc_four]
    simp
  dsimp only at h
  cases hh : HashType.cryptoHash response.hashType with
  | panic m => exact .inl (cryptoHash_panic hh)
  | val hash =>
  rw [hh] at h
  dsimp only [ofClientRes, Prog.ret_bind] at h
  cases hv : verifySignature C key hash
      (setupTranscript C (C.epub priv) response.publicKey (uuidOf random)) response.signature with
  | panic m => exact .inr (verifySignature_panic hv)
  | val v =>
  rw [hv] at h
  match v, hv, h with
  | .error e, _, h => cases h
  | .ok false, _, h => cases h
  | .ok true, hv, h =>
  cases he : C.ecdh priv response.publicKey with
  | error e => simp only [ofClientRes, Prog.ret_bind, he, Prog.run] at h; cases h
  | ok secret => simp only [ofClientRes, Prog.ret_bind, he, Prog.run, cexec] at h; cases h

theorem handshakeOrClose_ok {env : CEnv C} {c c' : Client} {s s' : CConn × CShared}
    (h : (handshakeOrClose c).run (cexec env) s = (.val (.ok c'), s')) :
    ∃ session, (handshake c.host).run (cexec env) s = (.val (.ok session), s') ∧
      c' = { c with session := some session } := by
  rw [handshakeOrClose, Prog.run_bind] at h
  rcases hr : (handshake c.host).run (cexec env) s with ⟨r, s₁⟩
  rw [hr] at h
  match r, h with
  | .panic m, h => cases h
  | .val (.ok session), h => cases h; exact ⟨session, rfl, rfl⟩
  | .val (.error e), h =>
    dsimp only at h
    rw [Prog.run_bind] at h
    split at h
    · cases h
    · cases h

theorem dial_ok {env : CEnv C} {udp : Bool} {host : Except Err Bytes} {options : ClientOptions}
    {c : Client} {s s' : CConn × CShared}
    (h : runClient env (dial udp host options) s = (.val (.ok c), s')) :
    ∃ session, (handshake host).run (cexec env) ({ s.1 with isOpen := true }, s.2) =
        (.val (.ok session), s') ∧ c = { newClient host options with session := some session } := by
  unfold runClient dial dialUDP dialTCP at h
  cases hc : env.connect with
  | some e =>
    cases udp <;>
    · simp only [if_true, if_false, Bool.false_eq_true, Prog.run, cexec, hc] at h
      cases h
  | none =>
    cases udp
    · simp only [if_false, Bool.false_eq_true, Prog.run, cexec, hc, Option.isNone, Bool.or_true] at h
      cases hk : env.keepAlive with
      | some e => rw [hk] at h; cases h
      | none => rw [hk] at h; exact handshakeOrClose_ok h
    · simp only [if_true, Prog.run, cexec, hc, Option.isNone, Bool.or_true] at h
      exact handshakeOrClose_ok h

theorem handshakeOrClose_panic {env : CEnv C} {c : Client} {m : String} {s s' : CConn × CShared}
    (h : (handshakeOrClose c).run (cexec env) s = (.panic m, s')) :
    (handshake c.host).run (cexec env) s = (.panic m, s') := by
  rw [handshakeOrClose, Prog.run_bind] at h
  rcases hr : (handshake c.host).run (cexec env) s with ⟨r, s₁⟩
  rw [hr] at h
  match r, h with
  | .panic m, h => cases h; rfl
  | .val (.ok session), h => cases h
  | .val (.error e), h =>
    dsimp only at h
    refine absurd h (NoPanic.run ?_ _ _ _ _)
    exact NoPanic.bind (fun r => by cases r <;> trivial) fun _ => trivial

theorem dial_panic {env : CEnv C} {udp : Bool} {host : Except Err Bytes} {options : ClientOptions}
    {m : String} {s s' : CConn × CShared}
    (h : runClient env (dial udp host options) s = (.panic m, s')) :
    (handshake host).run (cexec env) ({ s.1 with isOpen := true }, s.2) = (.panic m, s') := by
  unfold runClient dial dialUDP dialTCP at h
  cases hc : env.connect with
  | some e =>
    cases udp <;>
    · simp only [if_true, if_false, Bool.false_eq_true, Prog.run, cexec, hc] at h
      cases h
  | none =>
    cases udp
    · simp only [if_false, Bool.false_eq_true, Prog.run, cexec, hc, Option.isNone, Bool.or_true] at h
      cases hk : env.keepAlive with
      | some e => rw [hk] at h; cases h
      | none => rw [hk] at h; exact handshakeOrClose_panic h
    · simp only [if_true, Prog.run, cexec, hc, Option.isNone, Bool.or_true] at h
      exact handshakeOrClose_panic h

theorem cryptoHash_sha512 : HashType.cryptoHash 4 = .val 7 := rfl

/-- A handshake with an honest answer. -/
theorem handshake_accepts (hC : C.Lawful) (env : CEnv C) (hostname : Bytes) (key : PublicKey)
    (random : ID) (priv : C.EPriv) (serverKey : C.EPub) (sig secret : Bytes) (c : CConn) (w : CShared)
    (rest : List Item) (hf : env.fetch hostname = .ok key) (hr : env.random = .ok random)
    (hg : env.genKey = .ok priv) (hw : env.write = (0, none)) (hl : sig.length ≤ 65536)
    (hstream : c.net.written.stream =
      (Wire.setupResponse (C.marshalEPub serverKey) 4 sig).map Sum.inl ++ rest)
    (hv : verifySignature C key 7 (setupTranscript C (C.epub priv) serverKey (uuidOf random)) sig =
      .val (.ok true))
    (he : C.ecdh priv serverKey = .ok secret) :
    ∃ t ws, t.stream = rest ∧ (handshake (.ok hostname)).run (cexec env) (c, w) =
      (.val (.ok ⟨secret, uuidOf random, w.counters.length⟩),
        ({ net := t, writes := ws, isOpen := c.isOpen }, { w with counters := w.counters ++ [0] })) := by
  have hb : Wire.setupResponse (C.marshalEPub serverKey) 4 sig =
      0x80#8 :: (beEnc 4 (C.marshalEPub serverKey).length ++ (C.marshalEPub serverKey ++ ([4] ++
        (beEnc 4 sig.length ++ sig)))) := by
    simp [Wire.setupResponse, beEnc_four]
  rw [hb, List.map_cons, List.cons_append] at hstream
  unfold handshake
  simp only [Prog.run, cexec, hf, hr, hg, hw, uuid, Nat.sub_zero]
  rw [if_neg (by simp)]
  have h1 := (congrArg (runI parseResponseCommon) hstream).trans (runI_parseResponseCommon _ _)
  rw [run_parse_eq _ _ h1]
  dsimp only
  rw [if_neg (by decide)]
  have h2 := (congrArg (runI (parseSetupResponse C ⟨true, 0⟩)) (runNet_rest h1)).trans
    (runI_parseSetupResponse C hC.parse_marshalEPub _ serverKey 4 sig
      (by rw [hC.marshalEPub_length]; decide) hl rest)
  rw [run_parse_eq _ _ h2]
  dsimp only
  rw [cryptoHash_sha512]
  dsimp only [ofClientRes, Prog.ret_bind]
  rw [hv]
  dsimp only [ofClientRes, Prog.ret_bind]
  simp only [he, Prog.run, cexec]
  exact ⟨_, _, runNet_rest h2, rfl⟩

theorem dial_of {env : CEnv C} {udp : Bool} {host : Except Err Bytes} {options : ClientOptions}
    {session : ClientSession} {s s' : CConn × CShared} (hc : env.connect = none)
    (hk : env.keepAlive = none)
    (h : (handshake host).run (cexec env) ({ s.1 with isOpen := true }, s.2) =
      (.val (.ok session), s')) :
    runClient env (dial udp host options) s =
      (.val (.ok { newClient host options with session := some session }), s') := by
  have h' : (handshakeOrClose (newClient host options)).run (cexec env)
      ({ s.1 with isOpen := true }, s.2) =
      (.val (.ok { newClient host options with session := some session }), s') := by
    rw [handshakeOrClose, Prog.run_bind]
    rw [show (newClient host options).host = host from rfl, h]
    rfl
  unfold runClient dial dialUDP dialTCP
  cases udp <;>
  · simp only [if_true, if_false, Bool.false_eq_true, Prog.run, cexec, hc, hk, Option.isNone,
      Bool.or_true]
    exact h'

end

end Goe2ee
