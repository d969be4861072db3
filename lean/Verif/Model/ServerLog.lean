import Verif.Model.Server

/-!
# What the server writes to its log

The programs of `Verif.Model.Server` once more, with the calls of the logger (`log.Logger.Printf`, `log.Logger.Print`) as
effects.  `Verif.Props.ServerLog` proves that without these calls they are the programs of `Verif.Model.Server`.

Simplifications: a line is kept as format and arguments, not as text; the logger itself (prefix, time, where lines go) is not
modelled; nil loggers are the subject of C88.
-/

set_option autoImplicit false

namespace Goe2ee

/-- Arguments of a line. -/
inductive LogArg where
  | err (e : Err)
  | num (n : Nat)
  /-- a `protocol.Action` -/
  | action (a : Byte)
  /-- `conn.RemoteAddr()` of a TCP connection -/
  | remoteAddr
  /-- `conn.LocalAddr()` of the packet connection -/
  | localAddr
  /-- what `recover()` returned -/
  | panicked (msg : String)
  deriving DecidableEq, Repr

/-- The effects of server code that logs. -/
inductive LOp where
  | base (o : SOp)
  /-- `logger.Printf(format, args...)` -/
  | log (format : String) (args : List LogArg)
  /-- `if err := …; err != nil { logger.Printf(format, err) }` after an effect whose error `Verif.Model.Server` ignores: the
  environment decides whether there is a line. -/
  | logIfFailed (format : String)

/-- Result types of the effects. -/
def LOp.Ret (C : Crypto) : LOp → Type
  | .base o => o.Ret C
  | .log _ _ => Unit
  | .logIfFailed _ => Unit

abbrev LSig (C : Crypto) : Sig := ⟨LOp, LOp.Ret C⟩

/-- Server programs that log. -/
abbrev LProg (C : Crypto) (α : Type) := Prog (LSig C) α

section
variable {C : Crypto}

/-- A part of the server that does not log. -/
def emb {α : Type} (p : SProg C α) : LProg C α := p.lift (T := LSig C) fun o => .op (.base o) .ret

/-- internal/server/handler.go:92-105 -/
def writeErrorResponseL (errResponse : Bytes) : LProg C Bool :=
  .op (.base (.write errResponse)) fun (r : Nat × Option Err) =>
    match r with
    | (_, some err) =>
      if err.isDeadline then .ret false
      else .op (.log "failed to send error response: %v" [.err err]) fun _ => .ret false
    | (n, none) =>
      if n ≠ errResponse.length then
        .op (.log "failed to send full error response, expected %d and sent %d" [.num errResponse.length, .num n])
          fun _ => .ret false
      else .ret true

/-- internal/server/handler.go:61-90 -/
def writeResponseL (action : Byte) (response : Bytes) : LProg C Bool :=
  .op (.base (.write response)) fun (r : Nat × Option Err) =>
    match r with
    | (n, none) =>
      if n ≠ response.length then
        .op (.log "failed to send %s action response: partial response sent, expected %d and sent %d"
          [.action action, .num response.length, .num n]) fun _ => .ret false
      else .ret true
    | (n, some err) =>
      if err.isDeadline then .ret false
      else
      .op (.log "failed to send %s action response: %v" [.action action, .err err]) fun _ =>
      if n > 0 then .ret false
      else writeErrorResponseL (errorBytes codeServerError "failed to send back action response")

/-- Without a line: internal/server/action_process.go:91-98. -/
def refuse (code : ErrorCode) (text : String) : LProg C (Option Err) :=
  (writeErrorResponseL (errorBytes code text)).bind fun ok =>
    if ok then .ret none else .ret (some .shortWrite)

/-- The idiom `h.logger.Printf(…); errResponse := …; if !h.writeErrorResponse(conn, errResponse) { return io.ErrShortWrite };
return nil` (for instance internal/server/action_process.go:19-27). -/
def failWithL (format : String) (arg : LogArg) (code : ErrorCode) (text : String) : LProg C (Option Err) :=
  .op (.log format [arg]) fun _ => refuse code text

/-- The idiom `if !h.writeResponse(conn, action, response) { return io.ErrShortWrite }; return nil`. -/
def respondWithL (action : Byte) (response : Bytes) : LProg C (Option Err) :=
  (writeResponseL action response).bind fun ok =>
    if ok then .ret none else .ret (some .shortWrite)

/-- internal/server/action_setup.go:16-165 -/
def setupHandlerL (M : Manager C) (host : Except Err Bytes) (common : RequestCommon) : LProg C (Option Err) :=
  (emb (onConn (parseSetupRequest C common))).bind fun parsed =>
  match parsed with
  | .error err =>
    failWithL "failed to parse setup action request: %v" (.err err) codeMalformedRequest "failed to parse data of the request"
  | .ok request =>
  .op (.base .genKey) fun (generated : Except Err C.EPriv) =>
  match generated with
  | .error err => failWithL "failed to generate private key: %v" (.err err) codeMalformedRequest "failed to generate private key"
  | .ok serverPrivateKey =>
  match C.ecdh serverPrivateKey request.publicKey with
  | .error err =>
    failWithL "failed to generate shared secret: %v" (.err err) codeMalformedRequest "failed to generate shared secret"
  | .ok sharedSecret =>
  match host with
  | .error err => failWithL "failed to split host and port: %v" (.err err) codeServerError "failed to split host and port"
  | .ok host =>
  .op (.base (.newSession sharedSecret host request.id.val)) fun (session : Ref) =>
  (emb (M.store (sessionKey C host request.id) session)).bind fun stored =>
  match stored with
  | .error err => failWithL "failed to store shared secret: %v" (.err err) codeServerError "failed to store shared secret"
  | .ok () =>
  .op (.base (.sign cryptoSHA512
      (setupTranscript C request.publicKey (C.epub serverPrivateKey) request.id)))
    fun (signed : Except Err Bytes) =>
  match signed with
  | .error err => failWithL "failed to sign response: %v" (.err err) codeServerError "failed to sign response"
  | .ok signature =>
  (emb (ofRes (newHashType cryptoSHA512))).bind fun hashType =>
  respondWithL common.action ((newSetupResponse C (C.epub serverPrivateKey)).setSignature hashType signature).bytes

/-- internal/server/action_process.go:169-201 -/
def runHandlerL (session : Ref) (host : Bytes) (common : RequestCommon) (request : ProcessRequest) (gcm message : Bytes) :
    LProg C (Option Err) :=
  .op (.base (.invoke session request.counter host request.id.val message)) fun (handled : HRes) =>
  match handled with
  | .panic m => .panic m
  | .error err => failWithL "failed to handle message: %v" (.err err) codeServerError "failed to handle message"
  | .reply written =>
  if request.expectReply then
    (emb (ofRes (nonce directionServerToClient request.counter gcmNonceSize))).bind fun responseNonce =>
    .op (.base (.aead session gcm responseNonce written)) fun (sealed : Bytes) =>
    respondWithL common.action (newProcessResponse request.counter sealed).bytes
  else .ret none

/-- internal/server/action_process.go:16-202 -/
def processHandlerL (M : Manager C) (host : Except Err Bytes) (common : RequestCommon) : LProg C (Option Err) :=
  (emb (onConn (parseProcessRequest common))).bind fun parsed =>
  match parsed with
  | .error err =>
    failWithL "failed to parse process action request: %v" (.err err) codeMalformedRequest "failed to parse data of the request"
  | .ok request =>
  match host with
  | .error err => failWithL "failed to split host and port: %v" (.err err) codeServerError "failed to split host and port"
  | .ok host =>
  (emb (M.load (sessionKey C host request.id))).bind fun loaded =>
  match loaded with
  | none => refuse codeUnknownClient "could not find a shared secret matching the given ID"
  | some session =>
  .op (.base (.check session request.counter)) fun (fresh : Bool) =>
  if fresh then
    .op (.base (.secretOf session)) fun (secret : Bytes) =>
    match deriveKey C secret kdfInfo aesKeySize with
    | .error err => failWithL "failed to derive encryption key: %v" (.err err) codeServerError "failed to derive encryption key"
    | .ok aesKey =>
    match aesNewCipher aesKey with
    | .error err => failWithL "failed to create AES cipher: %v" (.err err) codeServerError "failed to create AES cipher"
    | .ok block =>
    match cipherNewGCM block with
    | .error err => failWithL "failed to create GCM cipher: %v" (.err err) codeServerError "failed to create GCM cipher"
    | .ok gcm =>
    (emb (ofRes (nonce directionClientToServer request.counter gcmNonceSize))).bind fun nonce =>
    match C.aeadOpen gcm nonce request.message with
    | none =>
      failWithL "failed to decrypt message: %v" (.err (.other "cipher: message authentication failed")) codeServerError
        "failed to decrypt message"
    | some message => runHandlerL session host common request gcm message
  else
    failWithL "replay detected for counter %d" (.num request.counter.toNat) codeReplayDetected
      "message counter was already seen or is too old"

/-- internal/server/action_fetch_key.go:10-43 -/
def fetchKeyHandlerL (common : RequestCommon) : LProg C (Option Err) :=
  .op (.base .fetchKey) fun (fetched : Except Err (KeyAlgorithm × PublicKey)) =>
  match fetched with
  | .error err => failWithL "failed to fetch public key: %v" (.err err) codeServerError "failed to fetch public key"
  | .ok (keyAlgorithm, publicKey) =>
  match C.marshalPKIX publicKey with
  | .error err => failWithL "failed to encode public key: %v" (.err err) codeServerError "failed to encode public key"
  | .ok publicKeyRaw => respondWithL common.action (newFetchKeyResponse keyAlgorithm publicKeyRaw).bytes

/-- internal/server/handler.go:44-59 -/
def handleL (M : Manager C) (host : Except Err Bytes) (common : RequestCommon) : LProg C (Option Err) :=
  if common.action = actionHello then respondWithL common.action helloResponse.bytes
  else if common.action = actionSetup then setupHandlerL M host common
  else if common.action = actionProcess then processHandlerL M host common
  else if common.action = actionFetchKey then fetchKeyHandlerL common
  else .ret none

/-- server.go:206-232 and 306-332.  The two differ in the error that is taken for the end of the connection (`closed`) and in
the address that is named then. -/
def serveRequestL (M : Manager C) (host : Except Err Bytes) (closed : Err) (addr : LogArg) : LProg C Bool :=
  (emb (onConn parseRequestCommon)).bind fun parsed =>
  match parsed with
  | .error err =>
    if err = closed then .op (.log "connection closed by client (%s)" [addr]) fun _ => .ret false
    else .op (.log "failed to parse request common: %v" [.err err]) fun _ => .ret false
  | .ok common =>
  if common.version ≠ version1 then
    .op (.log "unsupported version: %d" [.num common.version.toNat]) fun _ => .ret false
  else
    (handleL M host common).bind fun err =>
    match err with
    | some err =>
      if err = .eof ∨ err = .shortWrite ∨ err = .unexpectedEOF then
        .op (.log "connection closed by client (%s)" [addr]) fun _ => .ret false
      else .op (.log "failed to handle request: %v" [.err err]) fun _ => .ret false
    | none => .ret true

/-- server.go:187-233 -/
def connPassL (M : Manager C) (host : Except Err Bytes) : LProg C Bool :=
  .op (.base .quitClosed) fun (closed : Bool) =>
  if closed then .ret false
  else
    .op (.base .setDeadlines) fun _ =>
    .op (.logIfFailed "failed to set connection read deadline: %v") fun _ =>
    .op (.logIfFailed "failed to set connection write deadline: %v") fun _ =>
    serveRequestL M host .unexpectedEOF .remoteAddr

/-- The deferred functions print what `recover()` returned, if there was a panic. -/
def logRecovered {α : Type} (panicked : Option String) (p : LProg C α) : LProg C α :=
  match panicked with
  | some m => .op (.log "" [.panicked m]) fun _ => p
  | none => p

/-- server.go:175-183 -/
def connDeferredL (panicked : Option String) : LProg C Bool :=
  logRecovered panicked <|
  .op (.base .closeConn) fun _ =>
  .op (.logIfFailed "failed to close connection: %v") fun _ =>
  .op (.base .wgDone) fun _ => .ret false

/-- server.go:286-332 -/
def packetBodyL (M : Manager C) (host : Except Err Bytes) : LProg C Bool :=
  .op (.base .setDeadlines) fun _ =>
  .op (.logIfFailed "failed to set connection write deadline: %v") fun _ =>
  (serveRequestL M host .eof .localAddr).bind fun _ => .ret false

/-- server.go:287-297: the connection is closed before the panic is recovered from. -/
def packetDeferredL (panicked : Option String) : LProg C Bool :=
  .op (.base .flush) fun _ =>
  .op (.logIfFailed "failed to close connection: %v") fun _ =>
  logRecovered panicked (.ret false)

/-- server.go:153-168 -/
def acceptPassL : LProg C Bool :=
  .op (.base .quitClosed) fun (closed : Bool) =>
  if closed then .ret false
  else
    .op (.base .accept) fun (accepted : Except Err Peer) =>
    match accepted with
    | .error err => .op (.log "failed to accept connection: %v" [.err err]) fun _ => .ret true
    | .ok peer =>
      .op (.base .wgAdd) fun _ =>
      .op (.base (.spawn peer)) fun _ =>
      .ret true

/-- server.go:266-334 -/
def packetPassL : LProg C Bool :=
  .op (.base .quitClosed) fun (closed : Bool) =>
  if closed then .ret false
  else
    .op (.logIfFailed "failed to set connection read deadline: %v") fun _ =>
    .op (.base .receive) fun (received : Except Err Peer) =>
    match received with
    | .error err => .op (.log "failed to read from connection: %v" [.err err]) fun _ => .ret true
    | .ok peer => .op (.base (.spawn peer)) fun _ => .ret true

/-- Leave out the lines. -/
def Prog.unlogged {α : Type} : LProg C α → SProg C α
  | .ret a => .ret a
  | .panic m => .panic m
  | .op (.base o) k => .op o fun r => (k r).unlogged
  | .op (.log _ _) k => (k ()).unlogged
  | .op (.logIfFailed _) k => (k ()).unlogged

end

end Goe2ee
