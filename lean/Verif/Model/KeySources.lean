import Verif.Model.Keys
import Verif.Model.Prog

/-!
# Where long-term keys come from (`key/client_fetcher.go:135-163, 254-296`, `key/server_manager.go:39-92`)

The TLS fetcher, keys in PEM files, generated keys.  Not modelled: the TLS handshake and certificate
chains (`tls.Dial` succeeds or fails), PEM and ASN.1 (arbitrary functions).
-/

set_option autoImplicit false

namespace Goe2ee

/-! ## TLS -/

/-- What the fetcher reads of an `x509.Certificate`; times are nanoseconds. -/
structure Cert where
  notBefore : Int
  notAfter : Int
  publicKey : PublicKey

/-- Effects of the TLS fetcher. -/
inductive TLSOp where
  /-- `tls.Dial("tcp", address, …)` -/
  | dial (address : Bytes)
  /-- `conn.VerifyHostname(host)` -/
  | verifyHostname (host : Bytes)
  /-- `conn.ConnectionState().PeerCertificates` -/
  | peerCertificates
  /-- `time.Now()` -/
  | now
  /-- `conn.Close()` -/
  | close

/-- Result types. -/
def TLSOp.Ret : TLSOp → Type
  | .dial _ => Option Err
  | .verifyHostname _ => Option Err
  | .peerCertificates => List Cert
  | .now => Int
  | .close => Option Err

/-- Signature of the TLS fetcher. -/
abbrev TLSSig : Sig := ⟨TLSOp, TLSOp.Ret⟩

/-- `strconv.FormatUint(n, 10)` -/
def formatUint (n : Nat) : Bytes := (Nat.toDigits 10 n).map fun c => BitVec.ofNat 8 c.toNat

/-- key/client_fetcher.go:137: `host + ":" + strconv.FormatUint(c.tlsPort, 10)` -/
def tlsAddress (host : Bytes) (port : Nat) : Bytes := host ++ 58#8 :: formatUint port

/-- key/client_fetcher.go:157-162; `t` is the second reading of the clock. -/
def tlsNotBefore (cert : Cert) (t : Int) : Prog TLSSig (PublicKey × Option Err) :=
  if cert.notBefore > t then .ret (.nilIface, some (.other "certificate is not valid yet"))
  else .ret (cert.publicKey, none)

/-- key/client_fetcher.go:153-162; `t` is the first reading of the clock. -/
def tlsNotAfter (cert : Cert) (t : Int) : Prog TLSSig (PublicKey × Option Err) :=
  if cert.notAfter < t then .ret (.nilIface, some (.other "certificate has expired"))
  else .op .now fun (t : Int) => tlsNotBefore cert t

/-- key/client_fetcher.go:148-162: from the host name to the key; the named results. -/
def tlsKey (host : Bytes) : Prog TLSSig (PublicKey × Option Err) :=
  .op (.verifyHostname host) fun (r : Option Err) =>
  match r with
  | some e => .ret (.nilIface, some e)
  | none =>
  .op .peerCertificates fun (certs : List Cert) =>
  match certs with
  | [] => .panic "index out of range"
  | cert :: _ => .op .now fun (t : Int) => tlsNotAfter cert t

/-- key/client_fetcher.go:135-163.  The deferred function closes the connection and joins its error to
the result's; `errors.Join` is represented by its first error.  (A panic of `tlsKey` would run the
deferred function, too; it needs a TLS connection without peer certificate, which `tls.Dial` does not
return.) -/
def tlsFetch (port : Nat) (host : Bytes) : Prog TLSSig (PublicKey × Option Err) :=
  .op (.dial (tlsAddress host port)) fun (r : Option Err) =>
  match r with
  | some e => .ret (.nilIface, some e)
  | none =>
  (tlsKey host).bind fun result =>
  .op .close fun (r : Option Err) =>
  match r with
  | none => .ret result
  | some e => .ret (result.1, some (result.2.getD e))

/-- The environment: what the network and the server do.  `certs` is never empty after a handshake. -/
structure TLSEnv where
  dial : Bytes → Option Err
  /-- does the certificate match the host name? -/
  verifyHostname : Bytes → Option Err
  certs : List Cert
  /-- how much time passes before each reading of the clock -/
  tick : Nat
  close : Option Err

/-- The process: the clock, connections opened and calls of `Close`. -/
structure TLSState where
  now : Int
  opened : Nat
  closed : Nat
  deriving DecidableEq, Repr

/-- What the effects do. -/
def tlsExec (env : TLSEnv) : Interp TLSSig TLSState
  | .dial address, s =>
    (env.dial address, if (env.dial address).isSome then s else { s with opened := s.opened + 1 })
  | .verifyHostname host, s => (env.verifyHostname host, s)
  | .peerCertificates, s => (env.certs, s)
  | .now, s => (s.now + (env.tick : Int), { s with now := s.now + (env.tick : Int) })
  | .close, s => (env.close, { s with closed := s.closed + 1 })

/-! ## Host and port -/

/-- Go `net.SplitHostPort` (the Go library is not part of /repo; written after its published source).
Dialling an address starts with it.  The octets: 58 `:`, 91 `[`, 93 `]`. -/
def splitHostPort (hostport : Bytes) : Except Err (Bytes × Bytes) :=
  match hostport.reverse.idxOf? 58#8 with
  | none => .error (.other "missing port in address")
  | some r =>
    let i := hostport.length - 1 - r
    let port := hostport.drop (i + 1)
    if hostport.head? = some 91#8 then
      match hostport.idxOf? 93#8 with
      | none => .error (.other "missing ']' in address")
      | some e =>
        if e + 1 = hostport.length then .error (.other "missing port in address")
        else if e + 1 ≠ i then
          if hostport[e + 1]? = some 58#8 then .error (.other "too many colons in address")
          else .error (.other "missing port in address")
        else if (hostport.drop 1).contains 91#8 then .error (.other "unexpected '[' in address")
        else if (hostport.drop (e + 1)).contains 93#8 then .error (.other "unexpected ']' in address")
        else .ok ((hostport.take e).drop 1, port)
    else if (hostport.take i).contains 58#8 then .error (.other "too many colons in address")
    else if hostport.contains 91#8 then .error (.other "unexpected '[' in address")
    else if hostport.contains 93#8 then .error (.other "unexpected ']' in address")
    else .ok (hostport.take i, port)

/-! ## PEM -/

section
variable {C : Crypto}

/-- `pem.Decode` (type and contents of the first block) and `x509.ParsePKCS8PrivateKey`. -/
structure Pem (C : Crypto) where
  decode : Bytes → Option (Bytes × Bytes)
  parsePKCS8 : Bytes → Except Err (PrivateKey C)

/-- key/client_fetcher.go:272-291; `input` is the result of `io.ReadAll`.  The fetcher is the key that
its `Fetch` returns. -/
def parseClientFetcherPEM (P : Pem C) (input : Except Err Bytes) : Except Err PublicKey :=
  match input with
  | .error e => .error e
  | .ok data =>
  match P.decode data with
  | none => .error (.other "failed to decode PEM block containing public key")
  | some (type, der) =>
  if type ≠ str "PUBLIC KEY" then .error (.other "failed to decode PEM block containing public key")
  else
  match C.parsePKIX der with
  | .error e => .error (.wrap "failed to parse DER encoded public key" e)
  | .ok (.inl _) => .ok (.otherType 0)
  | .ok (.inr key) => .ok key

/-- key/client_fetcher.go:294-296 -/
def inMemoryFetch (publicKey : PublicKey) (_host : Bytes) : Except Err PublicKey := .ok publicKey

/-- key/server_manager.go:41-67; the manager is its private key. -/
def serverManagerParsePEM (P : Pem C) (input : Except Err Bytes) : Except Err (PrivateKey C) :=
  match input with
  | .error e => .error e
  | .ok data =>
  match P.decode data with
  | none => .error (.other "failed to decode PEM block containing private key")
  | some (type, der) =>
  if type ≠ str "PRIVATE KEY" then .error (.other "failed to decode PEM block containing private key")
  else
  match P.parsePKCS8 der with
  | .error e => .error (.wrap "failed to parse DER encoded private key" e)
  | .ok (.otherType _) => .error (.other "unsupported private key type")
  | .ok key => .ok key

/-- What the key generators of the Go library return: `rsa.GenerateKey` for a number of bits, `ecdsa.GenerateKey` for a
curve, `ed25519.GenerateKey`. -/
structure KeyGen (C : Crypto) where
  rsa : Nat → Except Err C.RSAPriv
  ecdsa : Curve → Except Err C.ECDSAPriv
  ed25519 : Except Err C.EdPriv

/-- `elliptic.P521()`, which the code does not tell apart from other curves that DNSKEY records cannot hold. -/
def curveP521 : Curve := .otherCurve

/-- key/server_manager.go:70-91 -/
def generateOnTheFly (G : KeyGen C) (algorithm : KeyAlgorithm) : Except Err (PrivateKey C) :=
  if algorithm = keyAlgorithmRSA then (G.rsa 2048).map .rsa
  else if algorithm = keyAlgorithmECDSA then (G.ecdsa curveP521).map .ecdsa
  else if algorithm = keyAlgorithmED25519 then G.ed25519.map .ed25519
  else .error (.other "unsupported algorithm")

end

end Goe2ee
