import Verif.Model.ClientExec

/-!
# The key fetcher that asks the server (`key/client_fetcher.go:167-252`)
-/

set_option autoImplicit false

namespace Goe2ee

section
variable {C : Crypto}

/-- key/client_fetcher.go:224-251: the request and the evaluation of the answer.  The number of octets
that `Write` accepted is ignored.  `x509.ParsePKIXPublicKey` may also return an X25519 key; it is
returned as a key of another type. -/
def protocolExchange : CProg C (Except Err PublicKey) :=
  .op (.write fetchKeyRequest.bytes) fun (r : Nat × Option Err) =>
  match r with
  | (_, some e) => .ret (.error e)
  | (_, none) =>
  (onClientConn parseResponseCommon).bind fun parsed =>
  match parsed with
  | .error e => .ret (.error e)
  | .ok responseCommon =>
  if !responseCommon.success then
    (onClientConn (parseErrorResponse responseCommon)).bind fun parsed =>
    match parsed with
    | .error e => .ret (.error e)
    | .ok responseError => .ret (.error (.remote "error response" responseError.code responseError.message))
  else
  (onClientConn (parseFetchKeyResponse responseCommon)).bind fun parsed =>
  match parsed with
  | .error e => .ret (.error e)
  | .ok response =>
  match C.parsePKIX response.publicKey with
  | .error e => .ret (.error (.wrap "error parsing public key" e))
  | .ok (.inl _) => .ret (.ok (.otherType 0))
  | .ok (.inr publicKey) => .ret (.ok publicKey)

/-- key/client_fetcher.go:186-252.  The deferred `Close` runs when the exchange is over (when it
panics, too; but it does not, see C64). -/
def protocolFetch (network : Bytes) : CProg C (Except Err PublicKey) :=
  if network = str "tcp" ∨ network = str "udp" then
    .op .connect fun (r : Option Err) =>
    match r with
    | some e => .ret (.error e)
    | none =>
    protocolExchange.bind fun result =>
    .op .closeSocket fun _ =>
    .ret result
  else .ret (.error (.other "network not supported"))

end

end Goe2ee
