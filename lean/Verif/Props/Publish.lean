import Verif.Props.DoH
import Verif.Props.KeySources
import Verif.Props.Handshake
import Verif.Model.DefaultFetcher

/-!
# C148: a key that the server generates, published in DNS, for clients with default options
-/

set_option autoImplicit false

namespace Goe2ee

open Form

section

variable {C : Crypto}

/-- What the key generators of Go promise: an RSA modulus of exactly the number of bits, with exponent 65537
(crypto/rsa), and a point of the curve that was asked for.  (Ed25519 keys have 32 octets: `Crypto.Lawful`.) -/
structure KeyGen.Lawful (G : KeyGen C) : Prop where
  rsa : ∀ bits k, G.rsa bits = .ok k → ∃ n, C.rsaPub k = ⟨some n, 65537⟩ ∧ 2 ^ (bits - 1) ≤ n ∧ n < 2 ^ bits
  ecdsa : ∀ curve k, G.ecdsa curve = .ok k → (C.ecdsaPub k).curve = curve

end

/-- The record makes clients find the key: whoever asks a provider about a domain whose zone holds the record, with no
other zone signing key of a supported algorithm before it, gets the key.  The URL of the provider is a URL, without
parameters that ask another question. -/
def FoundAt (text : Bytes) (key : PublicKey) : Prop :=
  ∀ (env : DoHEnv) (provider providerQuery domain : Bytes) (zone : Bytes → List DnsRecord)
    (pre post : List DnsRecord) (record : DnsRecord) (s : DoHState),
    env.parseURL provider = .ok providerQuery →
    (∀ p ∈ pairs providerQuery, p.1 ≠ str "name" ∧ p.1 ≠ str "type") →
    AnswersKeys env provider zone → record.data = text → zone domain = pre ++ record :: post →
    (∀ r ∈ pre, ∀ alg raw, ZoneKey r.data alg raw → alg ∉ [5, 7, 8, 10, 13, 14, 15]) →
    ((dohFetch provider domain).run (dohExec env) s).1 = .val (.ok key)

theorem found_of_inRange {key : PublicKey} (h : InRange key) :
    ∃ text, buildDNSKEY key = .val (.ok text) ∧ FoundAt text key := by
  obtain ⟨text, h1, -⟩ := C37_round_trip key h
  refine ⟨text, h1, fun env provider q domain zone pre post record s hu ho ha hr hz hp => ?_⟩
  subst hr
  exact C146_published env provider q domain zone key pre post record s hu ho ha h h1 hz hp

/-- **C148**, the full claim: whatever algorithm a server generates its key for, there is a DNSKEY record by which
clients find the key. -/
def C148_claim : Prop :=
  ∀ (C : Crypto) (G : KeyGen C) (algorithm : KeyAlgorithm) (privateKey : PrivateKey C) (key : PublicKey),
    C.Lawful → G.Lawful → generateOnTheFly G algorithm = .ok privateKey →
    fetchServerKey privateKey = .ok (algorithm, key) → ∃ text, FoundAt text key

/-- A key in a DNSKEY record is not on another curve than P-256 and P-384. -/
theorem parseDNSKEY_curve {text : Bytes} {p : ECDSAPub} (h : parseDNSKEY text = .val (.ok (.ecdsa (some p)))) :
    p.curve = .p256 ∨ p.curve = .p384 := by
  rcases parse_cases text with ⟨e, h'⟩ | ⟨_, h'⟩ | ⟨alg, raw, h'⟩
  · rw [h'] at h
    cases h
  · rw [h'] at h
    cases h
  · rw [parse_zoneKey h'] at h
    unfold dnskeyMaterial at h
    split at h
    · obtain ⟨k, hk⟩ := rsa_total raw
      rw [hk] at h
      cases h
    · have hcurve : ∀ a, publicKeyECDSA raw a = some p → p.curve = .p256 ∨ p.curve = .p384 := by
        intro a h
        unfold publicKeyECDSA at h
        split at h <;> split at h <;> cases h <;> simp
      split at h
      · cases h' : publicKeyECDSA raw alg with
        | none => rw [h'] at h; cases h
        | some q => rw [h'] at h; cases h; exact hcurve _ h'
      · split at h <;> cases h

/-- **C148**, generated ECDSA keys cannot be found: whatever a provider answers, `Fetch` does not return the key that a
server generated for ECDSA. -/
theorem C148_never_found {C : Crypto} (G : KeyGen C) (hG : G.Lawful) (privateKey : PrivateKey C)
    (algorithm : KeyAlgorithm) (key : PublicKey) (h : generateOnTheFly G 2 = .ok privateKey)
    (hk : fetchServerKey privateKey = .ok (algorithm, key)) (env : DoHEnv) (provider domain : Bytes) (s : DoHState) :
    ((dohFetch provider domain).run (dohExec env) s).1 ≠ .val (.ok key) := by
  intro hf
  obtain ⟨request, response, answer, record, -, -, -, -, -, -, hp, -⟩ :=
    C146_only_answers env provider domain s _ key (Prod.ext hf rfl)
  have h' : (G.ecdsa curveP521).map PrivateKey.ecdsa = .ok privateKey := h
  cases hg : G.ecdsa curveP521 with
  | error e => rw [hg] at h'; cases h'
  | ok k =>
    rw [hg] at h'
    cases h'
    cases hk
    have hc := hG.ecdsa _ _ hg
    rcases parseDNSKEY_curve hp with h1 | h1 <;> rw [hc] at h1 <;> cases h1

/-- **C148**, generated RSA and Ed25519 keys: the record that is built for the key makes clients find it. -/
theorem C148_generated_partial {C : Crypto} (hC : C.Lawful) (G : KeyGen C) (hG : G.Lawful) (algorithm : KeyAlgorithm)
    (privateKey : PrivateKey C) (key : PublicKey) (halg : algorithm ≠ 2)
    (h : generateOnTheFly G algorithm = .ok privateKey) (hk : fetchServerKey privateKey = .ok (algorithm, key)) :
    ∃ text, buildDNSKEY key = .val (.ok text) ∧ FoundAt text key := by
  apply found_of_inRange
  unfold generateOnTheFly at h
  split at h
  · cases hg : G.rsa 2048 with
    | error e => rw [hg] at h; cases h
    | ok k =>
      rw [hg] at h
      cases h
      cases hk
      obtain ⟨n, h1, h2, h3⟩ := hG.rsa _ _ hg
      rw [h1]
      refine ⟨by decide, by decide, Nat.le_trans ?_ h2, Nat.lt_of_lt_of_le h3 ?_⟩
      · show 256 ^ 63 ≤ 2 ^ (2048 - 1)
        rw [show (256 : Nat) = 2 ^ 8 from rfl, ← Nat.pow_mul]
        exact Nat.pow_le_pow_right (by decide) (by decide)
      · rw [show (256 : Nat) = 2 ^ 8 from rfl, ← Nat.pow_mul]
        exact Nat.pow_le_pow_right (by decide) (by decide)
  split at h
  · rename_i ha
    exact absurd ha halg
  split at h
  · cases hg : G.ed25519 with
    | error e => rw [hg] at h; cases h
    | ok k =>
      rw [hg] at h
      cases h
      cases hk
      exact hC.ed_length k
  · cases h

/-- The generators of a computer on which everything works, toy keys: the toy RSA key of `bits` bits is `2 ^ (bits - 1)`. -/
def Toy.generate (curve : Curve → Except Err (Nat × Nat)) : KeyGen Toy.crypto :=
  { rsa := fun bits => if bits = 0 then .error (.other "rsa") else .ok (2 ^ (bits - 1) : Nat), ecdsa := curve, ed25519 := .ok (77 : BitVec 256) }

/-- The toy primitives with ECDSA keys on another curve. -/
def Toy.crypto521 : Crypto :=
  { Toy.crypto with ecdsaPub := fun k : Nat × Nat => { curve := .otherCurve, x := some k.1, y := some k.2 } }

theorem Toy.lawful521 : Toy.crypto521.Lawful :=
  { Toy.lawful with
    ecdsa_correct := fun r k d s hs => Toy.lawful.ecdsa_correct r k d s hs
    ecdsa_point := fun _ => ⟨rfl, rfl⟩ }

def Toy.generate521 : KeyGen Toy.crypto521 :=
  { rsa := fun _ => .error (.other "rsa")
    ecdsa := fun curve => match curve with
      | .otherCurve => .ok ((3, 4) : Nat × Nat)
      | _ => .error (.other "ecdsa")
    ed25519 := .error (.other "ed25519") }

theorem Toy.generate521_lawful : Toy.generate521.Lawful where
  rsa bits k h := by cases h
  ecdsa curve k h := by
    cases curve with
    | otherCurve => rfl
    | _ => cases h

theorem pairs_nil : pairs [] = [] := by decide +kernel

/-- **C148 is refuted**: the key that a server generates for ECDSA is on P-521, for which there is no DNSKEY algorithm. -/
theorem C148_refuted : ¬ C148_claim := by
  intro h
  obtain ⟨text, h1⟩ := h Toy.crypto521 Toy.generate521 2 (.ecdsa ((3, 4) : Nat × Nat))
    (.ecdsa (some ⟨.otherCurve, some 3, some 4⟩)) Toy.lawful521 Toy.generate521_lawful rfl rfl
  have hkey : ∀ name, (fun _ : Bytes => [(⟨[], 48, text⟩ : DnsRecord)]) name = [] ++ ⟨[], 48, text⟩ :: [] := fun _ => rfl
  refine C148_never_found Toy.generate521 Toy.generate521_lawful (.ecdsa ((3, 4) : Nat × Nat)) 2
    (.ecdsa (some ⟨.otherCurve, some 3, some 4⟩)) rfl rfl
    { parseURL := fun _ => .ok [], provider := fun _ => .ok ⟨200, .ok ⟨true, [⟨[], 48, text⟩]⟩⟩, closeBody := none } [] [] {}
    (h1 _ [] [] [] (fun _ => [⟨[], 48, text⟩]) [] [] ⟨[], 48, text⟩ {} rfl ?_ ?_ rfl (hkey []) ?_)
  · intro p hp
    rw [pairs_nil] at hp
    exact absurd hp List.not_mem_nil
  · intro request name _ _ _ _ _
    rfl
  · intro r hr
    exact absurd hr (List.not_mem_nil)

section

variable {C : Crypto}

/-- **C148**, the default configuration: a server whose key is published at the host name answers a client that dials
with the default options, over TCP or UDP; the provider answers questions for keys.  Then the dial succeeds, with the
secret that the server stored.  (The other hypotheses are those of `C15_honest_handshake`.) -/
theorem C148_default_dial (hC : C.Lawful) (timeout : Nat) (ans : Nat → Answer C) (host : Bytes)
    (s : Seq) (hs : Reachable C s.world) (env : CEnv C) (udp : Bool) (hostname : Bytes)
    (privateKey : PrivateKey C) (random : Nat) (algorithm : KeyAlgorithm)
    (key : PublicKey) (idBytes : ID) (clientKey serverKey : C.EPriv) (secret signature : Bytes)
    (rest : List (Byte ⊕ Err))
    -- what is published
    (doh : DoHEnv) (zone : Bytes → List DnsRecord) (pre post : List DnsRecord) (record : DnsRecord)
    (hurl : doh.parseURL googleDNSProvider = .ok []) (hdoh : AnswersKeys doh googleDNSProvider zone)
    (hrange : InRange key) (hrecord : buildDNSKEY key = .val (.ok record.data))
    (hzone : zone hostname = pre ++ record :: post)
    (hpre : ∀ r ∈ pre, ∀ alg raw, ZoneKey r.data alg raw → alg ∉ [5, 7, 8, 10, 13, 14, 15])
    -- the client
    (hconnect : env.connect = none) (hwrite : env.write = (0, none)) (hrandom : env.random = .ok idBytes)
    (hgen : env.genKey = .ok clientKey) (setKeepAlive : Bool → Option Err) (hkeep : setKeepAlive false = none)
    -- the server
    (hkey : fetchServerKey privateKey = .ok (algorithm, key))
    (h : Delivers s.conn.input (Wire.setupRequest (uuidOf idBytes).val
      (C.marshalEPub (C.epub clientKey))) rest)
    (hg : (ans s.pos).genKey = .ok serverKey)
    (he : C.ecdh serverKey (C.epub clientKey) = .ok secret)
    (hsigner : ∀ hash content, (ans (s.pos + 4)).sign hash content =
      signServer privateKey random hash content)
    (hsig : signServer privateKey random 7 (Wire.transcript (C.marshalEPub (C.epub clientKey))
      (C.marshalEPub (C.epub serverKey)) (uuidOf idBytes).val) = .ok signature)
    (hw : (ans (s.pos + 5)).write = (0, none))
    (hd : ∀ d, s.conn.deadline = some d →
      s.world.now + (ans (s.pos + 2)).tick + (ans (s.pos + 5)).tick ≤ d) :
    ∃ reply, (serveOne timeout ans host s).conn.output = s.conn.output ++ reply ∧
      (∃ r t, (serveOne timeout ans host s).world.table (sessionKey C host (uuidOf idBytes)) = some (r, t) ∧
        (serveOne timeout ans host s).world.heap[r]? = some (secret, .fresh)) ∧
      ∀ (cs : CConn × CShared) (rest' : List (Byte ⊕ Err)),
        cs.1.net.written.stream = reply.map Sum.inl ++ rest' →
        ∃ c session cs', dialWith env (defaultFetcher doh) setKeepAlive udp (.ok hostname) [] cs =
            (.val (.ok c), cs') ∧
          c.session = some session ∧ session.secret = secret ∧ session.id = uuidOf idBytes := by
  have hf : defaultFetcher doh hostname = .ok key := by
    unfold defaultFetcher dnskeyFetcher
    rw [C146_published doh googleDNSProvider [] hostname zone key pre post record {} hurl
      (fun p hp => absurd (pairs_nil ▸ hp) List.not_mem_nil) hdoh hrange hrecord hzone hpre]
  obtain ⟨reply, h1, ⟨r, t, h2, h3, -⟩, h4⟩ := C15_honest_handshake hC timeout ans host s hs
    { env with fetch := defaultFetcher doh, keepAlive := setKeepAlive false } udp hostname
    (clientConfig (defaultFetcher doh) []).options privateKey random algorithm key idBytes clientKey serverKey secret
    signature rest hconnect hkeep hwrite hf hrandom hgen hkey h hg he hsigner hsig hw hd
  refine ⟨reply, h1, ⟨r, t, h2, h3⟩, fun cs rest' hst => ?_⟩
  obtain ⟨c, session, cs', h5, h6, h7, h8, -⟩ := h4 cs rest' hst
  exact ⟨c, session, cs', h5, h6, h7, h8⟩

end

namespace PublishExample

theorem lawful : (Toy.generate fun _ => .error (.other "ecdsa")).Lawful where
  rsa bits k h := by
    by_cases hb : bits = 0
    · subst hb
      cases h
    · have h' : (if bits = 0 then Except.error (Err.other "rsa") else .ok (2 ^ (bits - 1) : Nat)) = .ok k := h
      rw [if_neg hb] at h'
      cases h'
      exact ⟨_, rfl, Nat.le_refl _, Nat.pow_lt_pow_right (by decide) (by omega)⟩
  ecdsa curve k h := by cases h

/-- The zone of the server: its generated Ed25519 key. -/
def zone (_ : Bytes) : List DnsRecord :=
  [⟨str "example.com.", 48, str "256 3 15 AAAAAAAAAAAAAAAAAAAAAAAAAAAAAAAAAAAAAAAAAE0="⟩]

def doh : DoHEnv :=
  { parseURL := fun _ => .ok []
    provider := fun _ => .ok ⟨200, .ok ⟨true, zone []⟩⟩
    closeBody := none }

def succeeds (udp : Bool) (t : Transport) : Bool :=
  match (dialWith HandshakeExample.env (defaultFetcher doh) (fun _ => none) udp (.ok (str "example.com")) []
    (HandshakeExample.start t)).1 with
  | .val (.ok _) => true
  | _ => false

end PublishExample

open PublishExample in
/-- The key of the example is generated and published, and the dial succeeds over TCP and UDP. -/
example : (match generateOnTheFly (Toy.generate fun _ => .error (.other "ecdsa")) 3 with
      | .ok k => (match fetchServerKey k with | .ok (_, key) => key == .ed25519 (beEnc 32 77) | _ => false)
      | _ => false) = true ∧
    (match buildDNSKEY (.ed25519 (beEnc 32 77)) with
      | .val (.ok text) => (zone []).any fun r => r.data == text
      | _ => false) = true ∧
    succeeds false (.tcp ((HandshakeExample.answer 4).map fun b => .data [b])) = true ∧
    succeeds true (.udp false [] [.ok (HandshakeExample.answer 4)]) = true := by
  decide +kernel

end Goe2ee
