import Verif.Model.Crypto
import Verif.Model.Protocol
import Verif.Spec.Wire

/-!
# Vocabulary for statements about the server: requests and their responses
-/

set_option autoImplicit false

namespace Goe2ee

/-- A well-formed request with a known action. -/
inductive Req (C : Crypto) where
  | hello
  | setup (id : ID) (clientKey : C.EPub)
  | process (expectReply : Bool) (id : ID) (counter : BitVec 64) (ciphertext : Bytes)
  | fetchKey

namespace Req
variable {C : Crypto}

/-- The octets of a request. -/
def wire : Req C → Bytes
  | .hello => Wire.helloRequest
  | .setup id clientKey => Wire.setupRequest id.val (C.marshalEPub clientKey)
  | .process expectReply id counter ciphertext =>
    Wire.processRequest expectReply id.val counter.toNat ciphertext
  | .fetchKey => Wire.fetchKeyRequest

/-- Ciphertexts are at most 1 GiB long. -/
def fits : Req C → Prop
  | .process _ _ _ ciphertext => ciphertext.length ≤ 2 ^ 30
  | _ => True

/-- Does the sender expect a response? -/
def answered : Req C → Bool
  | .process expectReply _ _ _ => expectReply
  | _ => true

end Req

/-- The octets of an error response. -/
def IsError (r : Bytes) : Prop := ∃ code text, r = Wire.errorResponse code text

/-- The octets of a successful response to the request.  (A setup response without signature fields
is what the server sends if its key manager returns an empty signature.) -/
def IsSuccess {C : Crypto} : Req C → Bytes → Prop
  | .hello, r => r = Wire.helloResponse
  | .setup _ _, r => ∃ serverKey signature,
      (signature ≠ [] ∧ r = Wire.setupResponse (C.marshalEPub serverKey) 4 signature) ∨
      (signature = [] ∧ r = [0x80#8] ++ Wire.be32 (C.marshalEPub serverKey).length ++
        C.marshalEPub serverKey)
  | .process _ _ counter _, r => ∃ ciphertext, r = Wire.processResponse counter.toNat ciphertext
  | .fetchKey, r => ∃ algorithm key, r = Wire.fetchKeyResponse algorithm key

/-- One complete response to the request: its success response or an error response. -/
def IsResponse {C : Crypto} (q : Req C) (r : Bytes) : Prop := (q.answered ∧ IsSuccess q r) ∨ IsError r

/-- A `Write` call: the octets, how many of them the transport accepted, and the error. -/
abbrev WRec := Bytes × Nat × Option Err

/-- The transport accepted everything and reported no error. -/
def WRec.Complete (w : WRec) : Prop := w.2 = (w.1.length, none)

/-- The transport accepted some, but not all. -/
def WRec.Part (w : WRec) : Prop := 0 < w.2.1 ∧ w.2.1 < w.1.length

/-- The write deadline expired. -/
def WRec.TimedOut (w : WRec) : Prop := ∃ e, w.2.2 = some e ∧ e.isDeadline

/-- `out` is what a server may have written for a sequence of requests: one response per request, in
order — nothing for a request that expects no reply and succeeds.  If `complete` is false the
connection broke while it was answering one of them: the rest is a beginning of its response. -/
inductive Served {C : Crypto} : List (Req C) → (out : Bytes) → (complete : Bool) → Prop where
  | nil : Served [] [] true
  | response {q : Req C} {qs : List (Req C)} {r out : Bytes} {b : Bool} :
      IsResponse q r → Served qs out b → Served (q :: qs) (r ++ out) b
  | silent {q : Req C} {qs : List (Req C)} {out : Bytes} {b : Bool} :
      q.answered = false → Served qs out b → Served (q :: qs) out b
  | broken {q : Req C} {qs : List (Req C)} {r part : Bytes} :
      IsResponse q r → part <+: r → Served (q :: qs) part false

end Goe2ee
