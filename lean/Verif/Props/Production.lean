import Verif.Props.QuickStart
import Verif.Props.Publish
import Verif.Model.Production

/-!
# C158: the production set-ups of README.md work
-/

set_option autoImplicit false

namespace Goe2ee

section
variable {C : Crypto}

/-- The client of README.md:122-138, besides its connection: it uses the key fetcher `fetcher`; connecting and setting
options and deadlines works; the first counter is 1. -/
structure ProductionClient (fetcher : Fetcher) (random : ID) (clientKey : C.EPriv) (env : FlowEnv C) : Prop where
  connect : env.client .connect = none
  keepAlive : env.client .setKeepAlive = none
  fetch : ∀ host, env.client (.fetch host) = fetcher host
  random : env.client .random = .ok random
  clientKey : env.client .genKey = .ok clientKey
  readDeadline : env.client .setReadDeadline = none
  writeDeadline : env.client .setWriteDeadline = none
  counter : ∀ r, env.client (.addCounter r) = (1 : BitVec 64)

/-- What it means that a client with the key fetcher gets the reply of the server whose long-term key is `privateKey`: at
any time, in any schedule and whatever the connection takes, neither the dial nor `Write` has failed, the connection is
open, and `io.ReadAll` has returned nothing else than the message, without an error; and if both ends keep running, it
returns the message. -/
def GetsReply (C : Crypto) (privateKey : PrivateKey C) (key : PublicKey) (fetcher : Fetcher) (hostname : Bytes) : Prop :=
  ∀ (host : Bytes) (roomUp roomDown : Nat) (options : ClientOptions) (grows : Nat → List Nat) (rnd : Nat) (random : ID)
    (clientKey serverKey : C.EPriv) (secret signature message : Bytes) (σ : Nat → Nat × FlowEnv C),
    options.expectReply = true → BufferGrows grows → 0 < roomUp → 0 < roomDown →
    SignsWith C privateKey rnd key clientKey serverKey (uuidOf random) secret signature →
    message ≠ [] → message.length + 16 ≤ 2 ^ 30 →
    (∀ t, QuickServer grows privateKey rnd serverKey secret (σ t).2) →
    (∀ t, ProductionClient fetcher random clientKey (σ t).2) →
    let w := fun t => (flowAfter (inMemory C) (.ok host) roomUp roomDown
      (quickStart (.ok hostname) options message (grows message.length)) σ t).world
    (∀ t, (w t).written = [] ∧ (w t).closed = false ∧ ((w t).got = [] ∨ (w t).got = [(message, none)])) ∧
    (FlowFair σ → ∃ t, (w t).got = [(message, none)])

theorem getsReply (hC : C.Lawful) {privateKey : PrivateKey C} {key : PublicKey} {fetcher : Fetcher} {hostname : Bytes}
    (hf : fetcher hostname = .ok key) : GetsReply C privateKey key fetcher hostname := by
  intro host roomUp roomDown options grows rnd random clientKey serverKey secret signature message σ hexpect hg hup hdown
    hkeys hne hm hserver hclient
  have hquick : ∀ t, QuickClient hostname key random clientKey (σ t).2 := fun t =>
    { (hclient t) with fetch := ((hclient t).fetch hostname).trans hf }
  exact ⟨C153_no_error hC host roomUp roomDown hostname options hexpect grows hg privateKey rnd key random clientKey
      serverKey secret signature hkeys message hne hm σ hserver hquick,
    C153_quick_start hC host roomUp roomDown hostname options hexpect grows hg privateKey rnd key random clientKey
      serverKey secret signature hkeys message hne hm σ hserver hquick hup hdown⟩

/-- **C158**, the default configuration: "once the server has published its key as a DNSSEC-signed `DNSKEY` record, the
client needs no key-fetcher configuration at all".  The record is built with the library's function and put into the zone
of the host name, with no other zone signing key of a supported algorithm before it. -/
theorem C158_default (hC : C.Lawful) (privateKey : PrivateKey C) (key : PublicKey) (hostname : Bytes)
    (doh : DoHEnv) (zone : Bytes → List DnsRecord) (pre post : List DnsRecord) (record : DnsRecord)
    (hurl : doh.parseURL googleDNSProvider = .ok []) (hdoh : AnswersKeys doh googleDNSProvider zone)
    (hrange : InRange key) (hrecord : buildDNSKEY key = .val (.ok record.data))
    (hzone : zone hostname = pre ++ record :: post)
    (hpre : ∀ r ∈ pre, ∀ alg raw, ZoneKey r.data alg raw → alg ∉ [5, 7, 8, 10, 13, 14, 15]) :
    GetsReply C privateKey key (defaultFetcher doh) hostname := by
  refine getsReply hC ?_
  unfold defaultFetcher dnskeyFetcher
  rw [C146_published doh googleDNSProvider [] hostname zone key pre post record {} hurl
    (fun p hp => absurd (pairs_nil ▸ hp) List.not_mem_nil) hdoh hrange hrecord hzone hpre]

/-- **C158**, "validate the key against an x509 certificate": at port 443 of the host there is a TLS server whose
certificate, valid and trusted by the host's root certificates, is for the host name and carries the key. -/
theorem C158_certificate (hC : C.Lawful) (privateKey : PrivateKey C) (key : PublicKey) (hostname : Bytes)
    (trust : Option Nat → Bytes → Option Err) (env : TLSEnv) (s : TLSState) (cert : Cert)
    (hdial : trust none (hostname ++ str ":443") = none) (hname : env.verifyHostname hostname = none)
    (hcert : env.certs.head? = some cert) (hkey : cert.publicKey = key) (hbefore : cert.notBefore ≤ s.now)
    (hafter : s.now + 2 * env.tick ≤ cert.notAfter) (hclose : env.close = none) :
    GetsReply C privateKey key (tlsFetcher trust env s) hostname := by
  refine getsReply hC ?_
  have h := C70_succeeds { env with dial := trust none } 443 hostname s cert
    (by
      have : str ":" ++ formatUint 443 = str ":443" := by decide +kernel
      rw [List.append_assoc, this]
      exact hdial) hname hcert hbefore hafter hclose
  have h' : ((newClientFetcherTLS []).fetch trust env hostname s).1 = .val (cert.publicKey, none) := h
  unfold tlsFetcher
  rw [h', hkey]

/-- **C158**, the other direction: with this fetcher a dial succeeds only against the holder of a certified key.  The chain of
the certificate was verified, it matches the host, was valid during the call, and its key verifies the server's signature. -/
theorem C158_only_certified (trust : Option Nat → Bytes → Option Err) (tls : TLSEnv) (s : TLSState) (env : CEnv C)
    (henv : env.fetch = tlsFetcher trust tls s) (udp : Bool) (hostname : Bytes) (options : ClientOptions)
    (cs cs' : CConn × CShared) (c : Client)
    (h : runClient env (dial udp (.ok hostname) options) cs = (.val (.ok c), cs')) :
    trust none (hostname ++ str ":443") = none ∧ tls.verifyHostname hostname = none ∧
    ∃ cert hash transcript sig, tls.certs.head? = some cert ∧ Verifies C cert.publicKey hash transcript sig ∧
      (cert.notBefore ≤ cert.notAfter → ∃ t ≥ s.now, cert.notBefore ≤ t ∧ t ≤ cert.notAfter) := by
  obtain ⟨hostname', key, random, priv, header, pk, serverKey, hashOctet, hash, sig, rest, session, hh, hf, -, -, -, -, -, -,
    hver, -⟩ := C14_authenticated env udp (.ok hostname) options cs cs' c h
  cases hh
  rw [henv, tlsFetcher] at hf
  split at hf
  · rename_i k hk
    cases hf
    have hrun : (tlsFetch 443 hostname).run (tlsExec { tls with dial := trust none }) s =
        (.val (key, none), ((newClientFetcherTLS []).fetch trust tls hostname s).2) := Prod.ext hk rfl
    obtain ⟨h1, h2, cert, h3, h4, h5⟩ := C70_key_is_certified _ 443 hostname s _ key hrun
    have : str ":" ++ formatUint 443 = str ":443" := by decide +kernel
    rw [List.append_assoc, this] at h1
    refine ⟨h1, h2, cert, _, _, _, h3, h4 ▸ hver, fun hle => ?_⟩
    obtain ⟨t, ht, -, ht2⟩ := h5 hle
    exact ⟨t, ht, ht2⟩
  · cases hf
  · cases hf

/-- **C158**, "provide it manually from a PEM file": the file is that of the server's public key.  It is accepted, and the
client gets its reply. -/
theorem C158_file (hC : C.Lawful) (P : Pem C) (file raw : Bytes) (privateKey : PrivateKey C) (algorithm : KeyAlgorithm)
    (key : PublicKey) (hk : fetchServerKey privateKey = .ok (algorithm, key)) (hraw : C.marshalPKIX key = .ok raw)
    (hpem : P.decode file = some (str "PUBLIC KEY", raw)) (hostname : Bytes) :
    ∃ fetcher, pemFetcher P (.ok file) = .ok fetcher ∧ GetsReply C privateKey key fetcher hostname := by
  refine ⟨inMemoryFetch key, ?_, getsReply hC rfl⟩
  rw [pemFetcher, (C73_matching_files_partial hC P file raw privateKey algorithm key hk hraw hpem).1]
  rfl

end

/-! ## Examples -/

namespace ProductionExample

/-- The environment of `QuickStartExample`, with the key fetcher `fetcher`. -/
def envWith (fetcher : Fetcher) : FlowEnv Toy.crypto :=
  { server := QuickStartExample.env.server
    client := fun o => match o with
      | .fetch host => fetcher host
      | o => QuickStartExample.env.client o }

/-- The hypotheses about the client can be met, with any fetcher. -/
example (fetcher : Fetcher) :
    ProductionClient fetcher ⟨List.replicate 16 1, rfl⟩ (5 : BitVec 256) (envWith fetcher) :=
  ⟨rfl, rfl, fun _ => rfl, rfl, rfl, rfl, rfl, fun _ => rfl⟩

/-- A TLS server with the key of the server. -/
def tls : TLSEnv :=
  { dial := fun _ => none, verifyHostname := fun host => if host = str "example.com" then none else some (.other "name")
    certs := [⟨0, 100, .ed25519 (beEnc 32 77)⟩], tick := 1, close := none }

def tlsAt (now : Int) : Fetcher :=
  tlsFetcher (fun _ address => if address = str "example.com:443" then none else some (.other "refused")) tls ⟨now, 0, 0⟩

/-- What a client with the fetcher has after 600 steps: errors of the dial or of `Write`, and what `io.ReadAll` returned. -/
def result600 (fetcher : Fetcher) : Nat × List (Bytes × Option Err) :=
  let w := (flowAfter (inMemory Toy.crypto) (.ok []) 16 12
    (quickStart (.ok (str "example.com")) {} (str "hello") (QuickStartExample.grows 5))
    (fun n => (n % 2, envWith fetcher)) 600).world
  (w.written.length, w.got)

/-- DNS, as published in `PublishExample`. -/
example : result600 (defaultFetcher PublishExample.doh) = (0, [(str "hello", none)]) := by decide +kernel

/-- A certificate, and the same after it has expired: the dial fails. -/
example : result600 (tlsAt 50) = (0, [(str "hello", none)]) ∧ result600 (tlsAt 100) = (1, []) := by decide +kernel

/-- A file with the key of another server: the dial fails. -/
example : result600 (inMemoryFetch (.ed25519 (beEnc 32 77))) = (0, [(str "hello", none)]) ∧
    result600 (inMemoryFetch (.ed25519 (beEnc 32 78))) = (1, []) := by decide +kernel

end ProductionExample

end Goe2ee
