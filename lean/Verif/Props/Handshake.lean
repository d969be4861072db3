import Verif.Proofs.Handshake
import Verif.Props.Sign
import Verif.Props.Session

/-!
# C14, C15, C16: the client's side of the handshake
-/

set_option autoImplicit false

namespace Goe2ee

section
variable {C : Crypto}

/-! ## C14 -/

/-- **C14.** If a dial succeeds, the octets received are a successful setup response with a server key
and a signature that is valid, under the key the fetcher returned for the dialled host, over the
transcript of the client's own fresh key, that server key and the client's own fresh id; the session
secret is the Diffie–Hellman secret of exactly these keys, and its send counter is new and zero.  Any
other stream therefore makes the dial fail. -/
theorem C14_authenticated (env : CEnv C) (udp : Bool) (host : Except Err Bytes)
    (options : ClientOptions) (s s' : CConn × CShared) (c : Client)
    (h : runClient env (dial udp host options) s = (.val (.ok c), s')) :
    ∃ hostname key random priv header pk serverKey hashOctet hash sig rest session,
      host = .ok hostname ∧ env.fetch hostname = .ok key ∧ env.random = .ok random ∧
      env.genKey = .ok priv ∧
      s.1.net.written.stream = (header :: (Wire.be32 pk.length ++ pk ++ [hashOctet] ++
        Wire.be32 sig.length ++ sig)).map Sum.inl ++ rest ∧
      header.msb = true ∧ C.parsePKIX pk = .ok (.inl serverKey) ∧ hashNumber hashOctet = some hash ∧
      Verifies C key hash (Wire.transcript (C.marshalEPub (C.epub priv)) (C.marshalEPub serverKey)
        (uuidOf random).val) sig ∧
      c.session = some session ∧ session.id = uuidOf random ∧
      C.ecdh priv serverKey = .ok session.secret ∧
      s'.2.counters[session.sendCounter]? = some 0 ∧ session.sendCounter = s.2.counters.length := by
  obtain ⟨session, h1, rfl⟩ := dial_ok h
  obtain ⟨hostname, key, random, priv, header, pk, serverKey, hashOctet, hash, sig, rest, h2, h3, h4,
    h5, h6, h7, h8, h9, h10, h11, h12, h13, h14, -, -, -⟩ := handshake_ok h1
  rw [h12] at h10
  exact ⟨hostname, key, random, priv, header, pk, serverKey, hashOctet, hash, sig, rest, session, h2,
    h3, h4, h5, h6, h7, h8, h9, h10, rfl, h12, h11, by rw [h14, h13]; simp, h13⟩

/-- **C14.** What a successful dial sends is one setup request, complete, with the client's id and
public key. -/
theorem C14_request_sent (env : CEnv C) (udp : Bool) (host : Except Err Bytes)
    (options : ClientOptions) (s s' : CConn × CShared) (c : Client)
    (h : runClient env (dial udp host options) s = (.val (.ok c), s')) :
    ∃ random priv request, env.random = .ok random ∧ env.genKey = .ok priv ∧
      request = Wire.setupRequest (uuidOf random).val (C.marshalEPub (C.epub priv)) ∧
      s'.1.writes = s.1.writes ++ [(request, request.length, none)] := by
  obtain ⟨session, h1, rfl⟩ := dial_ok h
  obtain ⟨hostname, key, random, priv, header, pk, serverKey, hashOctet, hash, sig, rest, h2, h3, h4,
    h5, h6, h7, h8, h9, h10, h11, h12, h13, h14, -, -, h17⟩ := handshake_ok h1
  rw [h12] at h17
  exact ⟨random, priv, _, h4, h5, rfl, h17⟩

end

namespace HandshakeExample

/-- A client with the server's Ed25519 key (toy cryptography). -/
def env : CEnv Toy.crypto where
  fetch _ := .ok (.ed25519 (beEnc 32 77))
  random := .ok ⟨List.replicate 16 1, rfl⟩
  genKey := .ok (5 : BitVec 256)

/-- The signature of the server with key 77 and ephemeral key 9, over the transcript. -/
def signature : Bytes :=
  Toy.crypto.edSign (77 : BitVec 256) (Toy.crypto.digest 7 (Wire.transcript
    (Toy.crypto.marshalEPub (5 : BitVec 256)) (Toy.crypto.marshalEPub (9 : BitVec 256))
    (uuidOf ⟨List.replicate 16 1, rfl⟩).val))

/-- A server's answer with the given hash octet. -/
def answer (hashOctet : Byte) : Bytes :=
  Wire.setupResponse (Toy.crypto.marshalEPub (9 : BitVec 256)) hashOctet signature

def start (t : Transport) : CConn × CShared :=
  (⟨t, [], false⟩, ⟨[], []⟩)

/-- Did the call return an established client? -/
def succeeds (udp : Bool) (t : Transport) : Bool :=
  match (runClient env (dial udp (.ok (str "example.com")) {}) (start t)).1 with
  | .val (.ok _) => true
  | _ => false

/-- Did the call panic? -/
def panics (udp : Bool) (t : Transport) : Bool :=
  match (runClient env (dial udp (.ok (str "example.com")) {}) (start t)).1 with
  | .panic _ => true
  | _ => false

/-- The hypothesis of C14 can be met, over TCP (one octet at a time) and over UDP; a corrupted answer
fails. -/
example : succeeds false (.tcp ((answer 4).map fun b => .data [b])) = true ∧
    succeeds true (.udp false [] [.ok (answer 4)]) = true ∧
    succeeds false (.tcp [.data ((answer 4).set 60 1)]) = false ∧
    succeeds false (.tcp [.data (answer 3)]) = false := by decide +kernel

end HandshakeExample

section

/-! ## C16 -/

/-- No answer of a server makes a dial panic. -/
def C16_claim : Prop :=
  ∀ (C : Crypto) (_ : C.Lawful) (env : CEnv C) (udp : Bool) (host : Except Err Bytes)
    (options : ClientOptions) (s : CConn × CShared),
    ∃ r, (runClient env (dial udp host options) s).1 = .val r

/-- **C16** is false: a setup response with an unknown hash identifier crashes the client — the
signature is not needed, so anyone who can answer in place of the server can do it. -/
theorem C16_hash_octet_panics : ¬ C16_claim := by
  intro h
  obtain ⟨r, hr⟩ := h Toy.crypto Toy.lawful HandshakeExample.env false (.ok (str "example.com")) {}
    (HandshakeExample.start (.tcp [.data (HandshakeExample.answer 9)]))
  have hp : HandshakeExample.panics false (.tcp [.data (HandshakeExample.answer 9)]) = true := by
    decide +kernel
  rw [HandshakeExample.panics, hr] at hp
  cases hp

/-- **C16** is false also for a correct server, if the key fetcher returns a nil pointer as key (as
`ParseDNSKEY` does for malformed records, see C38). -/
theorem C16_nil_key_panics : ¬ C16_claim := by
  intro h
  let env : CEnv Toy.crypto := { HandshakeExample.env with fetch := fun _ => .ok (.rsa none) }
  obtain ⟨r, hr⟩ := h Toy.crypto Toy.lawful env false (.ok (str "example.com")) {}
    (HandshakeExample.start (.tcp [.data (HandshakeExample.answer 4)]))
  have hp : (match (runClient env (dial false (.ok (str "example.com")) {})
      (HandshakeExample.start (.tcp [.data (HandshakeExample.answer 4)]))).1 with
    | .panic _ => true
    | _ => false) = true := by decide +kernel
  rw [hr] at hp
  cases hp

/-- **C16**, what holds: the only way to crash a dial is a well-formed successful setup response whose
hash octet is not 2, 3 or 4, or a key fetcher that returned an unusable key.  Everything else is
reported as an error (or is an authentic response, see C14). -/
theorem C16_no_other_panic_partial {C : Crypto} (env : CEnv C) (udp : Bool) (host : Except Err Bytes)
    (options : ClientOptions) (s s' : CConn × CShared) (m : String)
    (h : runClient env (dial udp host options) s = (.panic m, s')) :
    ∃ hostname key header pk serverKey hashOctet sig rest,
      host = .ok hostname ∧ env.fetch hostname = .ok key ∧
      s.1.net.written.stream = (header :: (Wire.be32 pk.length ++ pk ++ [hashOctet] ++
        Wire.be32 sig.length ++ sig)).map Sum.inl ++ rest ∧
      header.msb = true ∧ C.parsePKIX pk = .ok (.inl serverKey) ∧
      (hashNumber hashOctet = none ∨ ¬ key.usable) := by
  have h' := handshake_panic (dial_panic h)
  exact h'

end

section
variable {C : Crypto}

/-! ## C15 -/

/-- What an honest server answers to a setup request: its ephemeral key and the signature, SHA-512,
of the transcript. -/
theorem C15_server_answer (hC : C.Lawful) (timeout : Nat) (ans : Nat → Answer C) (host : Bytes)
    (s : Seq) (id : ID) (clientKey : C.EPub) (rest : List (Byte ⊕ Err))
    (h : Delivers s.conn.input (Wire.setupRequest id.val (C.marshalEPub clientKey)) rest)
    (serverKey : C.EPriv) (secret signature : Bytes) (hg : (ans s.pos).genKey = .ok serverKey)
    (he : C.ecdh serverKey clientKey = .ok secret)
    (hsig : (ans (s.pos + 4)).sign 7 (Wire.transcript (C.marshalEPub clientKey)
      (C.marshalEPub (C.epub serverKey)) id.val) = .ok signature)
    (hne : 0 < signature.length) (hw : (ans (s.pos + 5)).write = (0, none))
    (hd : ∀ d, s.conn.deadline = some d →
      s.world.now + (ans (s.pos + 2)).tick + (ans (s.pos + 5)).tick ≤ d) :
    (serveOne timeout ans host s).conn.output =
      s.conn.output ++ Wire.setupResponse (C.marshalEPub (C.epub serverKey)) 4 signature := by
  obtain ⟨evs, h1⟩ := serveOne_setup hC timeout ans host s id clientKey rest h
  obtain ⟨now, rfl, h2⟩ := run_setup_stored timeout ans host (parsedSetup C id clientKey)
    { s with conn := { s.conn with input := evs } } serverKey secret hg he
  dsimp only at h2
  have hsig' : (ans (s.pos + 4)).sign 7 (setupTranscript C (parsedSetup C id clientKey).publicKey
      (C.epub serverKey) (parsedSetup C id clientKey).id) = .ok signature := by
    rw [C13_transcript_layout]; exact hsig
  rw [hsig'] at h2
  rw [h1, h2]
  dsimp only
  rw [run_respondWith _ _ _ _ _ (run_write_ok timeout ans _ _ hw hd)]
  dsimp only
  rw [C03_setup_response_layout _ _ _ _ hne]

/-- **C15.** An honest handshake: the server, in any reachable state, receives the client's setup
request and answers it; the client, over TCP or UDP, receives that answer (in any segmentation) and
holds the server's published key.  Then the dial succeeds, and the server stores for (client host, id)
the secret of the client's session, with an empty replay history.  For each of the three key types. -/
theorem C15_honest_handshake (hC : C.Lawful) (timeout : Nat) (ans : Nat → Answer C) (host : Bytes)
    (s : Seq) (hs : Reachable C s.world) (env : CEnv C) (udp : Bool) (hostname : Bytes)
    (options : ClientOptions) (privateKey : PrivateKey C) (random : Nat) (algorithm : KeyAlgorithm)
    (key : PublicKey) (idBytes : ID) (clientKey serverKey : C.EPriv) (secret signature : Bytes)
    (rest : List (Byte ⊕ Err))
    -- the client
    (hconnect : env.connect = none) (hkeep : env.keepAlive = none) (hwrite : env.write = (0, none))
    (hfetch : env.fetch hostname = .ok key) (hrandom : env.random = .ok idBytes)
    (hgen : env.genKey = .ok clientKey)
    -- the server
    (hkey : fetchServerKey privateKey = .ok (algorithm, key))
    (h : Delivers s.conn.input (Wire.setupRequest (uuidOf idBytes).val
      (C.marshalEPub (C.epub clientKey))) rest)
    (hg : (ans s.pos).genKey = .ok serverKey)
    (he : C.ecdh serverKey (C.epub clientKey) = .ok secret)
    (hsigner : ∀ hash content, (ans (s.pos + 4)).sign hash content =
      signServer privateKey random hash content)
    (hsig : signServer privateKey random 7 (Wire.transcript (C.marshalEPub (C.epub clientKey))
      (C.marshalEPub (C.epub serverKey)) (uuidOf idBytes).val) = .ok signature)
    (hw : (ans (s.pos + 5)).write = (0, none))
    (hd : ∀ d, s.conn.deadline = some d →
      s.world.now + (ans (s.pos + 2)).tick + (ans (s.pos + 5)).tick ≤ d) :
    ∃ reply, (serveOne timeout ans host s).conn.output = s.conn.output ++ reply ∧
      (∃ r t, (serveOne timeout ans host s).world.table (sessionKey C host (uuidOf idBytes)) = some (r, t) ∧
        (serveOne timeout ans host s).world.heap[r]? = some (secret, .fresh) ∧
        acceptedOf r (serveOne timeout ans host s).world.log = []) ∧
      ∀ (cs : CConn × CShared) (rest' : List (Byte ⊕ Err)),
        cs.1.net.written.stream = reply.map Sum.inl ++ rest' →
        ∃ c session cs', runClient env (dial udp (.ok hostname) options) cs = (.val (.ok c), cs') ∧
          c.session = some session ∧ session.secret = secret ∧ session.id = uuidOf idBytes ∧
          cs'.1.net.stream = rest' := by
  have hbounds : 0 < signature.length ∧ signature.length ≤ 65536 := by
    unfold signServer at hsig
    split at hsig
    case isFalse => cases hsig
    dsimp only at hsig
    cases privateKey with
    | rsa k => exact hC.rsa_sig _ _ _ _ hsig
    | ecdsa k => exact hC.ecdsa_sig _ _ _ _ hsig
    | ed25519 k => cases hsig; exact hC.ed_sig _ _
    | otherType => cases hsig
  have hsig' : (ans (s.pos + 4)).sign 7 (Wire.transcript (C.marshalEPub (C.epub clientKey))
      (C.marshalEPub (C.epub serverKey)) (uuidOf idBytes).val) = .ok signature :=
    (hsigner _ _).trans hsig
  refine ⟨_, C15_server_answer hC timeout ans host s _ _ rest h serverKey secret signature hg he hsig'
    hbounds.1 hw hd, ?_, ?_⟩
  · obtain ⟨r, t, h1, h2, h3, -, -⟩ := C33_setup_installs hC timeout ans host s hs _ _ rest h serverKey
      secret signature hg he hsig'
    exact ⟨r, t, h1, h2, h3⟩
  · intro cs rest' hstream
    obtain ⟨algorithm', key', hkey', -, -, hv⟩ :=
      C40_signature_verifies hC privateKey random 7 _ signature hsig
    rw [hkey] at hkey'
    cases hkey'
    rw [← C13_transcript_layout] at hv
    obtain ⟨t, ws, ht, hrun⟩ := handshake_accepts hC env hostname key idBytes clientKey (C.epub serverKey)
      signature secret { cs.1 with isOpen := true } cs.2 rest' hfetch hrandom hgen hwrite hbounds.2
      hstream hv (hC.ecdh_comm _ _ _ he)
    refine ⟨_, _, _, dial_of hconnect hkeep hrun, rfl, rfl, rfl, ht⟩

end

namespace HandshakeExample

/-- A server with the given long-term key answers the client of `env`; its reply and the stored
secret. -/
def served (privateKey : PrivateKey Toy.crypto) : Bytes × Option Bytes :=
  let s := serveOne 5000 (fun _ => { OnceExample.answer (.error .eof) with
      sign := fun hash content => signServer privateKey 3 hash content }) (str "10.0.0.1")
    (SessionExample.start SessionExample.world (Wire.setupRequest (uuidOf ⟨List.replicate 16 1, rfl⟩).val
      (Toy.crypto.marshalEPub (5 : BitVec 256))))
  (s.conn.output, (s.world.table (sessionKey Toy.crypto (str "10.0.0.1")
    (uuidOf ⟨List.replicate 16 1, rfl⟩))).bind fun r => s.world.heap[r.1]?.map (·.1))

/-- The secret of the client that receives the reply. -/
def dialled (privateKey : PrivateKey Toy.crypto) (udp : Bool) (t : Bytes → Transport) : Option Bytes :=
  match (runClient { env with fetch := fun _ => match fetchServerKey privateKey with
        | .ok k => .ok k.2
        | .error e => .error e } (dial udp (.ok (str "example.com")) {})
      (start (t (served privateKey).1))).1 with
  | .val (.ok c) => c.session.map (·.secret)
  | _ => none

/-- With each key type, TCP octet by octet or UDP: both sides hold the secret 5 + 9. -/
example : ∀ k ∈ [.rsa (77 : Nat), .ecdsa ((4 : Nat), (5 : Nat)), .ed25519 (9 : BitVec 256)],
    (served k).2 = some (beEnc 32 14) ∧
    dialled k false (fun bs => .tcp (bs.map fun b => .data [b])) = some (beEnc 32 14) ∧
    dialled k true (fun bs => .udp false [] [.ok bs]) = some (beEnc 32 14) := by decide +kernel

end HandshakeExample

end Goe2ee
