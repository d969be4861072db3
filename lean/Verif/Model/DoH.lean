import Verif.Model.Dns
import Verif.Model.URL
import Verif.Model.Prog

/-!
# The DNS key fetcher with its HTTP exchange (`internal/dns/doh/doh.go:56-130`, `key/client_fetcher.go:79-87`)

`Model/Dns` has what `RetrievePublicKey` makes of an answer.  Here are the calls around it: the request, the response
and its body.  Not modelled: HTTP itself (redirects, TLS, the timeout of the HTTP client: `client.Do` succeeds or
fails) and the syntax of JSON (decoding succeeds or fails).
-/

set_option autoImplicit false

namespace Goe2ee

/-- What `RetrievePublicKey` determines of an `http.Request`. -/
structure HTTPRequest where
  method : Bytes
  /-- the URL of the provider without its query -/
  url : Bytes
  query : Bytes
  accept : Bytes
  deriving DecidableEq, Repr

/-- One record in a JSON answer (RFC 8427): the owner's name, the type of the record, and its data as text. -/
structure DnsRecord where
  name : Bytes
  type : Nat
  data : Bytes
  deriving DecidableEq, Repr

/-- A JSON answer, as the provider sends it. -/
structure DnsAnswer where
  authenticatedData : Bool
  records : List DnsRecord
  deriving DecidableEq, Repr

/-- internal/dns/doh/doh.go:123-130: the fields of `dnsOverHTTPSJSONAPI`, which are all that decoding keeps. -/
def DnsAnswer.decoded (a : DnsAnswer) : DnsJSON :=
  { authenticatedData := a.authenticatedData, answers := a.records.map (·.data) }

/-- Effects of `RetrievePublicKey`. -/
inductive DoHOp where
  /-- `http.NewRequest(method, provider, nil)`; the result is the query of the provider's URL -/
  | newRequest (method provider : Bytes)
  /-- `d.client.Do(request)`; the result is the status code -/
  | send (request : HTTPRequest)
  /-- `jsonDecoder.Decode(&jsonAPI)` -/
  | decode
  /-- `response.Body.Close()` -/
  | closeBody

/-- Result types. -/
def DoHOp.Ret : DoHOp → Type
  | .newRequest _ _ => Except Err Bytes
  | .send _ => Except Err Nat
  | .decode => Except Err DnsJSON
  | .closeBody => Option Err

/-- Signature. -/
abbrev DoHSig : Sig := ⟨DoHOp, DoHOp.Ret⟩

/-- internal/dns/doh/doh.go:90-120: from the decoded answer to the results. -/
def dohAnswers (json : DnsJSON) : Prog DoHSig (Except Err PublicKey) :=
  if json.answers.length = 0 then .ret (.error (.other "returned no answers"))
  else if !json.authenticatedData then .ret (.error (.other "not DNSSEC-validated"))
  else
    match dnskeyLoop json.answers .nilIface none with
    | .panic m => .panic m
    | .val (_, some e) => .ret (.error e)
    | .val (publicKey, none) =>
      if publicKey = .nilIface then .ret (.error (.other "no valid DNSKEY found"))
      else .ret (.ok publicKey)

/-- internal/dns/doh/doh.go:78-120: from the status code to the results. -/
def dohStatus (status : Nat) : Prog DoHSig (Except Err PublicKey) :=
  if status ≠ 200 then .ret (.error (.other "DNS over HTTPS request returned status code"))
  else
    .op .decode fun (r : Except Err DnsJSON) =>
    match r with
    | .error e => .ret (.error (.wrap "failed to decode DNS over HTTPS response" e))
    | .ok json => dohAnswers json

/-- internal/dns/doh/doh.go:57-121.  The deferred function closes the body and drops the error.  (It would run after a
panic, too; there is none: `C38_no_panic`.) -/
def dohFetch (provider domain : Bytes) : Prog DoHSig (Except Err PublicKey) :=
  .op (.newRequest (str "GET") provider) fun (r : Except Err Bytes) =>
  match r with
  | .error e => .ret (.error (.wrap "failed to create DNS over HTTPS" e))
  | .ok providerQuery =>
  .op (.send { method := str "GET", url := provider, query := dohQuery providerQuery domain,
               accept := str "application/dns-json" }) fun (r : Except Err Nat) =>
  match r with
  | .error e => .ret (.error (.wrap "failed to send DNS over HTTPS request" e))
  | .ok status =>
  (dohStatus status).bind fun result =>
  .op .closeBody fun (_ : Option Err) => .ret result

/-- A response: the status, and the body if it is the JSON of an answer. -/
structure DoHResponse where
  status : Nat
  body : Except Err DnsAnswer

/-- The environment: what the HTTP library and the provider do. -/
structure DoHEnv where
  /-- the query of a URL, or why it is not a URL -/
  parseURL : Bytes → Except Err Bytes
  provider : HTTPRequest → Except Err DoHResponse
  closeBody : Option Err

/-- The process: the requests sent, the response received last, how many responses were received, how many bodies were
read and how many closed. -/
structure DoHState where
  sent : List HTTPRequest := []
  current : Option DoHResponse := none
  received : Nat := 0
  read : Nat := 0
  closed : Nat := 0

/-- What the effects do. -/
def dohExec (env : DoHEnv) : Interp DoHSig DoHState
  | .newRequest _ provider, s => (env.parseURL provider, s)
  | .send request, s =>
    match env.provider request with
    | .error e => (.error e, { s with sent := s.sent ++ [request] })
    | .ok response =>
      (.ok response.status,
        { s with sent := s.sent ++ [request], current := some response, received := s.received + 1 })
  | .decode, s =>
    match s.current with
    | none => (.error (.other "no response"), s)
    | some response =>
      match response.body with
      | .error e => (.error e, { s with read := s.read + 1 })
      | .ok answer => (.ok answer.decoded, { s with read := s.read + 1 })
  | .closeBody, s => (env.closeBody, { s with closed := s.closed + 1 })

end Goe2ee
