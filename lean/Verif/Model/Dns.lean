import Verif.Model.Base64
import Verif.Model.Crypto

/-!
# DNSKEY records (`internal/dns/dnssec`) and their retrieval (`internal/dns/doh`)
-/

set_option autoImplicit false

namespace Goe2ee

/-! ### Standard library -/

/-- `strings.Split(s, " ")` -/
def splitSpace : Bytes → List Bytes
  | [] => [[]]
  | b :: bs =>
    if b = 32#8 then [] :: splitSpace bs
    else
      match splitSpace bs with
      | [] => [[b]]
      | p :: ps => (b :: p) :: ps

/-- The digits of `strconv.ParseUint(s, 10, _)`, most significant first. -/
def decDigits (v : Nat) : Bytes → Option Nat
  | [] => some v
  | b :: bs => if 48 ≤ b.toNat ∧ b.toNat ≤ 57 then decDigits (v * 10 + (b.toNat - 48)) bs else none

/-- `strconv.ParseUint(s, 10, bits)`; the kinds of error are not distinguished. -/
def parseUint (s : Bytes) (bits : Nat) : Option Nat :=
  match s with
  | [] => none
  | _ =>
    match decDigits 0 s with
    | some v => if v < 2 ^ bits then some v else none
    | none => none

/-- The value of a character of the standard alphabet. -/
def b64Value (c : Byte) : Option Nat :=
  let n := c.toNat
  if 65 ≤ n ∧ n ≤ 90 then some (n - 65)
  else if 97 ≤ n ∧ n ≤ 122 then some (n - 71)
  else if 48 ≤ n ∧ n ≤ 57 then some (n + 4)
  else if n = 43 then some 62
  else if n = 47 then some 63
  else none

/-- The quanta of `base64.StdEncoding.DecodeString`, line breaks removed.  Not strict: the unused bits
of the last quantum are ignored. -/
def b64Quanta : Bytes → Option Bytes
  | [] => some []
  | a :: b :: c :: d :: rest =>
    match b64Value a, b64Value b with
    | some x, some y =>
      if c = 61#8 ∧ d = 61#8 ∧ rest = [] then some [BitVec.ofNat 8 ((x * 64 + y) / 16)]
      else
        match b64Value c with
        | some z =>
          if d = 61#8 ∧ rest = [] then
            some [BitVec.ofNat 8 ((x * 64 + y) / 16), BitVec.ofNat 8 ((y * 64 + z) / 4)]
          else
            match b64Value d, b64Quanta rest with
            | some w, some out =>
              some (BitVec.ofNat 8 ((x * 64 + y) / 16) :: BitVec.ofNat 8 ((y * 64 + z) / 4) ::
                BitVec.ofNat 8 (z * 64 + w) :: out)
            | _, _ => none
        | none => none
    | _, _ => none
  | _ => none

/-- `base64.StdEncoding.DecodeString`: line breaks anywhere are ignored. -/
def b64Decode (s : Bytes) : Option Bytes := b64Quanta (s.filter fun c => c ≠ 10#8 ∧ c ≠ 13#8)

/-- `big.Int.Bytes`: big-endian without leading zeros. -/
def natBytes (n : Nat) : Bytes :=
  if h : n = 0 then [] else natBytes (n / 256) ++ [BitVec.ofNat 8 n]
  termination_by n
  decreasing_by omega

/-! ### Parsing -/

/-- internal/dns/dnssec/dnssec.go:125-170.  Out-of-range indexing panics. -/
def publicKeyRSA (keybuf : Bytes) : Res (Option RSAPub) :=
  if keybuf.length < 1 + 1 + 64 then .val none
  else
    match keybuf[0]?, keybuf[1]?, keybuf[2]? with
    | some b0, some b1, some b2 =>
      let explen := if b0.toNat = 0 then b1.toNat * 256 + b2.toNat else b0.toNat
      let keyoff := if b0.toNat = 0 then 3 else 1
      match keybuf[keyoff]? with
      | none => .panic "index out of range"
      | some k =>
        if explen > 4 ∨ explen = 0 ∨ k.toNat = 0 then .val none
        else
          let modoff := keyoff + explen
          let modlen : Int := (keybuf.length : Int) - modoff
          if modlen < 64 ∨ modlen > 512 then .val none
          else
            match keybuf[modoff]? with
            | none => .panic "index out of range"
            | some m =>
              if m.toNat = 0 then .val none
              else
                let expo := beDec ((keybuf.take modoff).drop keyoff)
                if expo > 2 ^ 31 - 1 then .val none
                else .val (some { n := some (beDec (keybuf.drop modoff)), e := expo })
    | _, _, _ => .panic "index out of range"

/-- internal/dns/dnssec/dnssec.go:175-194, for the two algorithms it is called with. -/
def publicKeyECDSA (keybuf : Bytes) (algorithm : Nat) : Option ECDSAPub :=
  if algorithm = 13 then
    if keybuf.length ≠ 64 then none
    else some { curve := .p256, x := some (beDec (keybuf.take (keybuf.length / 2))),
                y := some (beDec (keybuf.drop (keybuf.length / 2))) }
  else
    if keybuf.length ≠ 96 then none
    else some { curve := .p384, x := some (beDec (keybuf.take (keybuf.length / 2))),
                y := some (beDec (keybuf.drop (keybuf.length / 2))) }

/-- internal/dns/dnssec/dnssec.go:199-204; nil and the empty slice are the same value here. -/
def publicKeyED25519 (keybuf : Bytes) : Bytes :=
  if keybuf.length ≠ 32 then [] else keybuf

/-- internal/dns/dnssec/dnssec.go:99-119: the key of a zone signing record.  The results of the three
functions have pointer and slice types, so the interface value compared with nil is never nil. -/
def dnskeyMaterial (algorithm : Nat) (rawPublicKey : Bytes) : Res (Except Err PublicKey) :=
  if algorithm = 5 ∨ algorithm = 7 ∨ algorithm = 8 ∨ algorithm = 10 then
    match publicKeyRSA rawPublicKey with
    | .panic m => .panic m
    | .val k => .val (.ok (.rsa k))
  else if algorithm = 13 ∨ algorithm = 14 then
    .val (.ok (.ecdsa (publicKeyECDSA rawPublicKey algorithm)))
  else if algorithm = 15 then .val (.ok (.ed25519 (publicKeyED25519 rawPublicKey)))
  else .val (.error (.other "unsupported DNSKEY algorithm"))

/-- internal/dns/dnssec/dnssec.go:76-120.  `nilIface` is the result `nil, nil`. -/
def parseDNSKEY (key : Bytes) : Res (Except Err PublicKey) :=
  match splitSpace key with
  | [p0, p1, p2, p3] =>
    match parseUint p0 16 with
    | none => .val (.error (.other "invalid DNSKEY flags"))
    | some flags =>
      if flags ≠ 256 then .val (.ok .nilIface)
      else
        match parseUint p1 8 with
        | none => .val (.error (.other "invalid DNSKEY protocol"))
        | some protocol =>
          if protocol ≠ 3 then .val (.error (.other "invalid DNSKEY protocol"))
          else
            match parseUint p2 8 with
            | none => .val (.error (.other "invalid DNSKEY algorithm"))
            | some algorithm =>
              match b64Decode p3 with
              | none => .val (.error (.other "invalid DNSKEY public key"))
              | some rawPublicKey => dnskeyMaterial algorithm rawPublicKey
  | _ => .val (.error (.other "invalid DNSKEY format"))

/-! ### Building -/

/-- internal/dns/dnssec/dnssec.go:246-260 -/
def exponentToBuf (e : Int) : Bytes :=
  let i := natBytes e.natAbs
  if i.length < 256 then BitVec.ofNat 8 i.length :: i
  else 0#8 :: BitVec.ofNat 8 (i.length / 256) :: BitVec.ofNat 8 i.length :: i

/-- internal/dns/dnssec/dnssec.go:271-279 -/
def intToBytes (i length : Nat) : Bytes :=
  let buf := natBytes i
  if buf.length < length then List.replicate (length - buf.length) 0#8 ++ buf else buf

/-- internal/dns/dnssec/dnssec.go:264-268 -/
def curveToBuf (x y intlen : Nat) : Bytes := intToBytes x intlen ++ intToBytes y intlen

/-- internal/dns/dnssec/dnssec.go:209-242.  A nil pointer is dereferenced. -/
def buildDNSKEY (publicKey : PublicKey) : Res (Except Err Bytes) :=
  match publicKey with
  | .rsa none => .panic "nil pointer dereference"
  | .rsa (some p) =>
    match p.n with
    | none => .val (.error (.other "invalid RSA public key"))
    | some n =>
      if p.e = 0 then .val (.error (.other "invalid RSA public key"))
      else .val (.ok (str "256 3 10 " ++ b64Encode (exponentToBuf p.e ++ natBytes n)))
  | .ecdsa none => .panic "nil pointer dereference"
  | .ecdsa (some p) =>
    match p.x, p.y with
    | some x, some y =>
      match p.curve with
      | .p256 => .val (.ok (str "256 3 13 " ++ b64Encode (curveToBuf x y 32)))
      | .p384 => .val (.ok (str "256 3 14 " ++ b64Encode (curveToBuf x y 48)))
      | .otherCurve => .val (.error (.other "unsupported ECDSA curve"))
    | _, _ => .val (.error (.other "invalid ECDSA public key"))
  | .ed25519 p =>
    if p.length ≠ 32 then .val (.error (.other "invalid Ed25519 public key"))
    else .val (.ok (str "256 3 15 " ++ b64Encode p))
  | .nilIface => .val (.error (.other "unsupported public key type"))
  | .otherType _ => .val (.error (.other "unsupported public key type"))

/-! ### Retrieval -/

/-- internal/dns/doh/doh.go:123-130: the decoded JSON of a provider's answer. -/
structure DnsJSON where
  authenticatedData : Bool
  answers : List Bytes

/-- What comes back from the provider: an HTTP status and the decoded body.  Simplified: HTTP and JSON
are not modelled, both may fail. -/
structure DnsReply where
  status : Nat
  body : Except Err DnsJSON

/-- internal/dns/doh/doh.go:103-112: the loop over the answers; returns `publicKey` and `err`. -/
def dnskeyLoop : List Bytes → PublicKey → Option Err → Res (PublicKey × Option Err)
  | [], publicKey, err => .val (publicKey, err)
  | answer :: answers, _, _ =>
    match parseDNSKEY answer with
    | .panic m => .panic m
    | .val (.error e) => dnskeyLoop answers .nilIface (some e)
    | .val (.ok key) => if key ≠ .nilIface then .val (key, none) else dnskeyLoop answers .nilIface none

/-- internal/dns/doh/doh.go:58-120 and key/client_fetcher.go:79-87 (`ClientFetcherDNSKEY.Fetch`
returns the same result).  `reply` is an error if the request cannot be made. -/
def retrievePublicKey (reply : Except Err DnsReply) : Res (Except Err PublicKey) :=
  match reply with
  | .error e => .val (.error (.wrap "failed to send DNS over HTTPS request" e))
  | .ok reply =>
    if reply.status ≠ 200 then .val (.error (.other "DNS over HTTPS request returned status code"))
    else
      match reply.body with
      | .error e => .val (.error (.wrap "failed to decode DNS over HTTPS response" e))
      | .ok json =>
        if json.answers.length = 0 then .val (.error (.other "returned no answers"))
        else if !json.authenticatedData then .val (.error (.other "not DNSSEC-validated"))
        else
          match dnskeyLoop json.answers .nilIface none with
          | .panic m => .panic m
          | .val (_, some e) => .val (.error e)
          | .val (publicKey, none) =>
            if publicKey = .nilIface then .val (.error (.other "no valid DNSKEY found"))
            else .val (.ok publicKey)

end Goe2ee
