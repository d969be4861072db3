import Verif.Model.Reader
import Verif.Model.Crypto

/-!
# Package `protocol`: messages on the wire

Every message type with its constructor, its `Bytes` method and its parser.
-/

set_option autoImplicit false

namespace Goe2ee

/-! ## Constants -/

/-- protocol/request.go:14 -/
def version1 : Byte := 1
/-- protocol/action.go:8 -/
def actionHello : Byte := 1
/-- protocol/action.go:9 -/
def actionSetup : Byte := 2
/-- protocol/action.go:10 -/
def actionProcess : Byte := 3
/-- protocol/action.go:11 -/
def actionFetchKey : Byte := 4

/-- protocol/limits.go:11 -/
def maxKeySize : Nat := 2 ^ 16
/-- protocol/limits.go:15 -/
def maxSignatureSize : Nat := 2 ^ 16
/-- protocol/limits.go:19 -/
def maxMessageSize : Nat := 2 ^ 30

/-- protocol/error.go:15-19 -/
abbrev ErrorCode := BitVec 32
def codeMalformedRequest : ErrorCode := 1
def codeServerError : ErrorCode := 2
def codeUnknownClient : ErrorCode := 3
def codeUnsupportedVersion : ErrorCode := 4
def codeReplayDetected : ErrorCode := 5

/-- Session identifier `[16]byte`. -/
abbrev ID := { bs : Bytes // bs.length = 16 }

/-! ## Reading helpers -/

/-- The idiom `if err := binary.Read(r, _, &field); err != nil { if err == io.ErrUnexpectedEOF
{ return _, err }; return _, fmt.Errorf("failed to read …: %w", err) }` that every parser of the
package repeats (for instance protocol/action_003_process.go:87-92).  `n` is the size of the field;
`binary.Read` is `io.ReadFull` followed by an infallible decoding. -/
def readField {α : Type} (n : Nat) (what : String) (k : Bytes → RProg (Except Err α)) :
    RProg (Except Err α) :=
  .op (.readFull n) fun
    | .ok bs => k bs
    | .error .unexpectedEOF => .ret (.error .unexpectedEOF)
    | .error e => .ret (.error (.wrap ("failed to read " ++ what) e))

/-- `make([]byte, n)` before reading a length-prefixed field. -/
def allocThen {α : Type} (n : Nat) (k : RProg α) : RProg α := .op (.alloc n) fun _ => k

/-- The idiom `io.Copy(&buf, io.LimitReader(r, 1))` with its three-way `switch`
(protocol/request.go:29-37, protocol/response.go:21-29, protocol/action_003_process.go:73-82). -/
def readOctet {α : Type} (what : String) (k : Byte → RProg (Except Err α)) :
    RProg (Except Err α) :=
  .op (.copyLimit 1) fun r =>
    match r with
    | (bs, some e) =>
      if e ≠ .eof then .ret (.error (.wrap ("failed to read " ++ what) e))
      else match bs with
        | [] => .ret (.error .unexpectedEOF)
        | [b] => k b
        | _ => .ret (.error (.other ("failed to read " ++ what)))
    | ([], none) => .ret (.error .unexpectedEOF)
    | ([b], none) => k b
    | (_, none) => .ret (.error (.other ("failed to read " ++ what)))

/-! ## Common parts -/

/-- protocol/request.go:18-21 -/
structure RequestCommon where
  version : Byte
  action : Byte
  deriving DecidableEq, Repr

/-- protocol/request.go:25-42 (`b & 0xF0 >> 4` is `(b & 0xF0) >> 4` in Go). -/
def parseRequestCommon : RProg (Except Err RequestCommon) :=
  readOctet "action" fun b => .ret (.ok { version := (b &&& 0xF0#8) >>> 4, action := b &&& 0x0F#8 })

/-- protocol/request.go:45-49 -/
def RequestCommon.bytes (r : RequestCommon) : Bytes := [(r.version <<< 4) ||| r.action]

/-- protocol/response.go:10-13 -/
structure ResponseCommon where
  success : Bool
  reserved : Byte
  deriving DecidableEq, Repr

/-- protocol/response.go:17-34 -/
def parseResponseCommon : RProg (Except Err ResponseCommon) :=
  readOctet "flags" fun b => .ret (.ok { success := (b >>> 7) == 1#8, reserved := (b <<< 1) >>> 1 })

/-- protocol/response.go:37-45 -/
def ResponseCommon.bytes (r : ResponseCommon) : Bytes :=
  if r.success then [(1#8 <<< 7) ||| r.reserved] else [0#8 ||| r.reserved]

/-! ## Errors -/

/-- protocol/error.go:24-29 -/
structure ErrorResponse where
  common : ResponseCommon
  code : ErrorCode
  message : Bytes
  deriving DecidableEq, Repr

/-- protocol/error.go:32-40 -/
def newErrorResponse (code : ErrorCode) (message : Bytes) : ErrorResponse :=
  { common := { success := false, reserved := 0 }, code, message }

/-- protocol/error.go:43-76.  `int64(errorMessageSize)` is two's complement: sizes of `2^63` and
more become negative limits. -/
def parseErrorResponse (common : ResponseCommon) : RProg (Except Err ErrorResponse) :=
  readField 4 "error code" fun codeBs =>
  readField 8 "size" fun sizeBs =>
    let code : ErrorCode := BitVec.ofNat 32 (beDec codeBs)
    let size : BitVec 64 := BitVec.ofNat 64 (beDec sizeBs)
    if size = 0 then .ret (.ok { common, code, message := [] })
    else
      .op (.copyLimit size.toInt) fun r =>
        match r with
        | (bs, err) =>
          match err with
          | some e =>
            if e ≠ .eof then .ret (.error (.wrap "failed to read error message" e))
            else if (bs.length : Int) ≠ size.toInt then
              .ret (.error (.other "failed to read error message"))
            else .ret (.ok { common, code, message := bs })
          | none =>
            if (bs.length : Int) ≠ size.toInt then
              .ret (.error (.other "failed to read error message"))
            else .ret (.ok { common, code, message := bs })

/-- protocol/error.go:79-85 -/
def ErrorResponse.bytes (e : ErrorResponse) : Bytes :=
  e.common.bytes ++ beEnc 4 e.code.toNat ++ beEnc 8 e.message.length ++ e.message

/-! ## Hello (action 1) -/

/-- protocol/action_001_hello.go:10-17 -/
def helloRequest : RequestCommon := { version := version1, action := actionHello }
/-- protocol/action_001_hello.go:26-32 -/
def helloResponse : ResponseCommon := { success := true, reserved := 0 }

/-! ## Setup (action 2) -/

/-- protocol/action_002_setup.go:12-21: `HashType` is a `uint8`. -/
abbrev HashType := Byte
def hashTypeSHA256 : HashType := 2
def hashTypeSHA384 : HashType := 3
def hashTypeSHA512 : HashType := 4

/-- protocol/action_002_setup.go:24-35; panics on anything but the three hashes. -/
def newHashType (h : Nat) : Res HashType :=
  if h = cryptoSHA256 then .val hashTypeSHA256
  else if h = cryptoSHA384 then .val hashTypeSHA384
  else if h = cryptoSHA512 then .val hashTypeSHA512
  else .panic "unsupported hash type"

/-- protocol/action_002_setup.go:51-61; panics on an unknown hash type. -/
def HashType.cryptoHash (h : HashType) : Res Nat :=
  if h = hashTypeSHA256 then .val cryptoSHA256
  else if h = hashTypeSHA384 then .val cryptoSHA384
  else if h = hashTypeSHA512 then .val cryptoSHA512
  else .panic "unsupported hash type"

section Setup
variable (C : Crypto)

/-- protocol/action_002_setup.go:67-84.  Encoding an X25519 key never fails (see
`Crypto.marshalEPub`), so the error results are not modelled. -/
def setupTranscript (clientKey serverKey : C.EPub) (id : ID) : Bytes :=
  let clientBytes := C.marshalEPub clientKey
  let serverBytes := C.marshalEPub serverKey
  beEnc 4 clientBytes.length ++ clientBytes ++ beEnc 4 serverBytes.length ++ serverBytes ++ id.val

/-- protocol/action_002_setup.go:88-93 -/
structure SetupRequest where
  common : RequestCommon
  id : ID
  publicKey : C.EPub

/-- protocol/action_002_setup.go:96-105 -/
def newSetupRequest (id : ID) (publicKey : C.EPub) : SetupRequest C :=
  { common := { version := version1, action := actionSetup }, id, publicKey }

/-- Reads `[16]byte` with `binary.Read(r, binary.LittleEndian, &id)`: the raw 16 bytes. -/
def toID (bs : Bytes) : ID :=
  if h : bs.length = 16 then ⟨bs, h⟩ else ⟨List.replicate 16 0, by simp⟩

/-- The PKIX decoding and the type assertion to `*ecdh.PublicKey`
(protocol/action_002_setup.go:140-148 and 223-231). -/
def parseEPub {α : Type} (bs : Bytes) (k : C.EPub → RProg (Except Err α)) : RProg (Except Err α) :=
  match C.parsePKIX bs with
  | .error e => .ret (.error (.wrap "failed to parse public key" e))
  | .ok (.inr _) => .ret (.error (.other "failed to parse public key: expected *ecdh.PublicKey"))
  | .ok (.inl pk) => k pk

/-- protocol/action_002_setup.go:109-151 -/
def parseSetupRequest (common : RequestCommon) : RProg (Except Err (SetupRequest C)) :=
  readField 16 "id" fun idBs =>
  readField 4 "public key size" fun sizeBs =>
    let size : BitVec 32 := BitVec.ofNat 32 (beDec sizeBs)
    if size.toNat > maxKeySize then .ret (.error (.other "public key size exceeds maximum"))
    else allocThen size.toNat <|
      readField size.toNat "public key" fun pkBs =>
      parseEPub C pkBs fun pk =>
      .ret (.ok { common, id := toID idBs, publicKey := pk })

/-- protocol/action_002_setup.go:154-165 -/
def SetupRequest.bytes {C : Crypto} (s : SetupRequest C) : Bytes :=
  let pk := C.marshalEPub s.publicKey
  s.common.bytes ++ s.id.val ++ beEnc 4 pk.length ++ pk

/-- protocol/action_002_setup.go:179-185 -/
structure SetupResponse where
  common : ResponseCommon
  publicKey : C.EPub
  hashType : HashType
  signature : Bytes

/-- protocol/action_002_setup.go:188-195 -/
def newSetupResponse (publicKey : C.EPub) : SetupResponse C :=
  { common := { success := true, reserved := 0 }, publicKey, hashType := 0, signature := [] }

/-- protocol/action_002_setup.go:291-294 -/
def SetupResponse.setSignature {C : Crypto} (s : SetupResponse C) (hashType : HashType)
    (signature : Bytes) : SetupResponse C :=
  { s with hashType, signature }

/-- protocol/action_002_setup.go:199-260 -/
def parseSetupResponse (common : ResponseCommon) : RProg (Except Err (SetupResponse C)) :=
  readField 4 "public key size" fun sizeBs =>
    let size : BitVec 32 := BitVec.ofNat 32 (beDec sizeBs)
    if size.toNat > maxKeySize then .ret (.error (.other "public key size exceeds maximum"))
    else allocThen size.toNat <|
      readField size.toNat "public key" fun pkBs =>
      parseEPub C pkBs fun pk =>
      readField 1 "hash type" fun hashBs =>
      readField 4 "signature size" fun sigSizeBs =>
        let sigSize : BitVec 32 := BitVec.ofNat 32 (beDec sigSizeBs)
        if sigSize.toNat > maxSignatureSize then
          .ret (.error (.other "signature size exceeds maximum"))
        else allocThen sigSize.toNat <|
          readField sigSize.toNat "signature" fun sig =>
          .ret (.ok { common, publicKey := pk, hashType := BitVec.ofNat 8 (beDec hashBs),
                      signature := sig })

/-- protocol/action_002_setup.go:263-278 -/
def SetupResponse.bytes {C : Crypto} (s : SetupResponse C) : Bytes :=
  let pk := C.marshalEPub s.publicKey
  s.common.bytes ++ beEnc 4 pk.length ++ pk ++
    (if s.signature.length > 0 then
      [s.hashType] ++ beEnc 4 s.signature.length ++ s.signature
    else [])

end Setup

/-! ## Process (action 3) -/

/-- protocol/action_003_process.go:26-35 (the size field always equals the message length in
values built by the constructor or by the parser; kept separate as in the code). -/
structure ProcessRequest where
  common : RequestCommon
  expectReply : Bool
  reserved : Byte
  id : ID
  counter : BitVec 64
  messageSize : BitVec 64
  message : Bytes
  deriving DecidableEq, Repr

/-- protocol/action_003_process.go:40-63 with the single option
`WithProcessRequestExpectReply(expectReply)`. -/
def newProcessRequest (id : ID) (counter : BitVec 64) (message : Bytes) (expectReply : Bool := true) :
    ProcessRequest :=
  { common := { version := version1, action := actionProcess }, expectReply, reserved := 0, id,
    counter, messageSize := BitVec.ofNat 64 message.length, message }

/-- protocol/action_003_process.go:68-120 (`b & 0xF0 >> 7` is `(b & 0xF0) >> 7` in Go). -/
def parseProcessRequest (common : RequestCommon) : RProg (Except Err ProcessRequest) :=
  readOctet "flags" fun b =>
  readField 16 "id" fun idBs =>
  readField 8 "counter" fun ctrBs =>
  readField 8 "size" fun sizeBs =>
    let size : BitVec 64 := BitVec.ofNat 64 (beDec sizeBs)
    if size.toNat > maxMessageSize then .ret (.error (.other "message size exceeds maximum"))
    else allocThen size.toNat <|
      readField size.toNat "message" fun msg =>
      .ret (.ok { common, expectReply := ((b &&& 0xF0#8) >>> 7) == 1#8,
                  reserved := ((b <<< 1) >>> 1) &&& 0xFF#8, id := toID idBs,
                  counter := BitVec.ofNat 64 (beDec ctrBs), messageSize := size, message := msg })

/-- protocol/action_003_process.go:123-135 -/
def ProcessRequest.bytes (g : ProcessRequest) : Bytes :=
  let flags := (g.reserved <<< 1) >>> 1
  let flags := if g.expectReply then flags ||| (1#8 <<< 7) else flags
  g.common.bytes ++ [flags] ++ g.id.val ++ beEnc 8 g.counter.toNat ++ beEnc 8 g.messageSize.toNat ++
    g.message

/-- protocol/action_003_process.go:160-166 -/
structure ProcessResponse where
  common : ResponseCommon
  counter : BitVec 64
  messageSize : BitVec 64
  message : Bytes
  deriving DecidableEq, Repr

/-- protocol/action_003_process.go:170-179 -/
def newProcessResponse (counter : BitVec 64) (message : Bytes) : ProcessResponse :=
  { common := { success := true, reserved := 0 }, counter,
    messageSize := BitVec.ofNat 64 message.length, message }

/-- protocol/action_003_process.go:183-214 -/
def parseProcessResponse (common : ResponseCommon) : RProg (Except Err ProcessResponse) :=
  readField 8 "counter" fun ctrBs =>
  readField 8 "size" fun sizeBs =>
    let size : BitVec 64 := BitVec.ofNat 64 (beDec sizeBs)
    if size.toNat > maxMessageSize then .ret (.error (.other "message size exceeds maximum"))
    else allocThen size.toNat <|
      readField size.toNat "message" fun msg =>
      .ret (.ok { common, counter := BitVec.ofNat 64 (beDec ctrBs), messageSize := size,
                  message := msg })

/-- protocol/action_003_process.go:217-223 -/
def ProcessResponse.bytes (g : ProcessResponse) : Bytes :=
  g.common.bytes ++ beEnc 8 g.counter.toNat ++ beEnc 8 g.messageSize.toNat ++ g.message

/-! ## Fetch key (action 4) -/

/-- protocol/action_004_fetch_key.go:10-17: `KeyAlgorithm` is a `uint8`. -/
abbrev KeyAlgorithm := Byte
def keyAlgorithmRSA : KeyAlgorithm := 1
def keyAlgorithmECDSA : KeyAlgorithm := 2
def keyAlgorithmED25519 : KeyAlgorithm := 3

/-- protocol/action_004_fetch_key.go:39-46 -/
def fetchKeyRequest : RequestCommon := { version := version1, action := actionFetchKey }

/-- protocol/action_004_fetch_key.go:50-56 -/
structure FetchKeyResponse where
  common : ResponseCommon
  keyAlgorithm : KeyAlgorithm
  publicKeySize : BitVec 64
  publicKey : Bytes
  deriving DecidableEq, Repr

/-- protocol/action_004_fetch_key.go:59-68 -/
def newFetchKeyResponse (keyAlgorithm : KeyAlgorithm) (publicKey : Bytes) : FetchKeyResponse :=
  { common := { success := true, reserved := 0 }, keyAlgorithm,
    publicKeySize := BitVec.ofNat 64 publicKey.length, publicKey }

/-- protocol/action_004_fetch_key.go:71-102 -/
def parseFetchKeyResponse (common : ResponseCommon) : RProg (Except Err FetchKeyResponse) :=
  readField 1 "algorithm" fun algBs =>
  readField 8 "size" fun sizeBs =>
    let size : BitVec 64 := BitVec.ofNat 64 (beDec sizeBs)
    if size.toNat > maxKeySize then .ret (.error (.other "public key size exceeds maximum"))
    else allocThen size.toNat <|
      readField size.toNat "public key" fun pk =>
      .ret (.ok { common, keyAlgorithm := BitVec.ofNat 8 (beDec algBs), publicKeySize := size,
                  publicKey := pk })

/-- protocol/action_004_fetch_key.go:105-111 -/
def FetchKeyResponse.bytes (g : FetchKeyResponse) : Bytes :=
  g.common.bytes ++ [g.keyAlgorithm] ++ beEnc 8 g.publicKeySize.toNat ++ g.publicKey

/-! ## Nonces -/

/-- protocol/nonce.go:9 -/
def directionClientToServer : Byte := 0
/-- protocol/nonce.go:10 -/
def directionServerToClient : Byte := 1

/-- protocol/nonce.go:18-23.  `nonce[size-8:]` panics for `size < 8` and `nonce[0]` for
`size = 0`; for `size = 8` the counter overwrites the direction. -/
def nonce (direction : Byte) (counter : BitVec 64) (size : Nat) : Res Bytes :=
  if size < 8 then .panic "slice bounds out of range"
  else
    let buf := (List.replicate size (0 : Byte)).set 0 direction
    .val (buf.take (size - 8) ++ beEnc 8 counter.toNat)

end Goe2ee
