import Verif.Model.Protocol
import Verif.Model.Kdf
import Verif.Model.Base64
import Verif.Model.Replay

/-!
# The server (`server.go`, `internal/server`, `secret/secret.go`)

Every goroutine of the server is a program over the effects `SOp`.  What the effects do is defined
in `Verif.Model.ServerExec`.
-/

set_option autoImplicit false

namespace Goe2ee

/-- What a call of the application handler did: it returned nil after writing `bs`, it returned an
error, or it panicked. -/
inductive HRes where
  | reply (bs : Bytes)
  | error (e : Err)
  | panic (msg : String)
  deriving DecidableEq, Repr

/-- A `*secret.Session` pointer. -/
abbrev Ref := Nat

/-- What a goroutine is started on: a TCP connection (its remote host as
`net.SplitHostPort(conn.RemoteAddr().String())` returns it, and what the network will deliver), or a
received UDP datagram (sender, contents). -/
inductive Peer where
  | tcp (host : Except Err Bytes) (input : List Ev)
  | udp (host : Except Err Bytes) (datagram : Bytes)

/-- The effects of server code. -/
inductive SOp where
  /-- a read of the goroutine's connection -/
  | read (o : ROp)
  /-- `conn.Write(bs)` -/
  | write (bs : Bytes)
  /-- `conn.SetReadDeadline`, `conn.SetWriteDeadline` relative to now (server.go:194-204); for a datagram
  `conn.SetWriteDeadline` of the shared packet connection (server.go:299-304) -/
  | setDeadlines
  /-- `ecdh.X25519().GenerateKey(rand.Reader)` -/
  | genKey
  /-- `keyManager.Sign(hash, content)` -/
  | sign (hash : Nat) (content : Bytes)
  /-- `keyManager.FetchKey()` -/
  | fetchKey
  /-- `time.Now()` -/
  | now
  /-- `sync.Map` operations on the session table -/
  | mapLoad (key : Bytes)
  | mapStore (key : Bytes) (value : Ref × Nat)
  | mapDelete (key : Bytes)
  /-- the next key that `sync.Map.Range` of the garbage collector visits (any key) -/
  | pickKey
  /-- `secret.NewSession(secret)`; `host` and `id` annotate the session for the log: whose setup
  request it comes from. -/
  | newSession (secret host id : Bytes)
  /-- `session.Secret` -/
  | secretOf (r : Ref)
  /-- `session.Replay.CheckAndUpdate(counter)`; atomic because it holds a mutex -/
  | check (r : Ref) (counter : BitVec 64)
  /-- `handler.Handle(writer, reader, remoteAddr)` with `message` in the reader.  `r`, `counter`,
  `host` and `id` annotate the call for the log: the session and counter the code has just checked,
  and whose process request it is. -/
  | invoke (r : Ref) (counter : BitVec 64) (host id message : Bytes)
  /-- `gcm.Seal(nil, nonce, plaintext, nil)`; `r` annotates whose key it is. -/
  | aead (r : Ref) (key nonce plaintext : Bytes)
  /-- `select { case <-s.quit: …; default: }`: is the channel closed? -/
  | quitClosed
  /-- `close(s.quit)`; false if it was closed already (the program then panics) -/
  | closeQuit
  /-- `listen.Accept()`, `udpConn.Receive()` -/
  | accept
  | receive
  /-- `s.wg.Add(1)`, `s.wg.Done()`, `s.wg.Wait()`; simplified: single steps that do not panic, see
  `Verif.Model.WaitGroup` -/
  | wgAdd
  | wgDone
  | wgWait
  /-- `go s.handleConnection(…)` / `go func(udpConn …)` -/
  | spawn (p : Peer)
  /-- `conn.Close()` of a TCP connection -/
  | closeConn
  /-- `udpConn.Close()`: send what was buffered in one datagram -/
  | flush
  /-- marks the return of `Server.Close` -/
  | closeReturned
  /-- a value chosen by the environment (for user-supplied managers) -/
  | choose

/-- Result types of the effects. -/
def SOp.Ret (C : Crypto) : SOp → Type
  | .read o => o.Ret
  | .write _ => Nat × Option Err
  | .setDeadlines => Unit
  | .genKey => Except Err C.EPriv
  | .sign _ _ => Except Err Bytes
  | .fetchKey => Except Err (KeyAlgorithm × PublicKey)
  | .now => Nat
  | .mapLoad _ => Option (Ref × Nat)
  | .mapStore _ _ => Unit
  | .mapDelete _ => Unit
  | .pickKey => Bytes
  | .newSession _ _ _ => Ref
  | .secretOf _ => Bytes
  | .check _ _ => Bool
  | .invoke _ _ _ _ _ => HRes
  | .aead _ _ _ _ => Bytes
  | .quitClosed => Bool
  | .closeQuit => Bool
  | .accept => Except Err Peer
  | .receive => Except Err Peer
  | .wgAdd => Unit
  | .wgDone => Unit
  | .wgWait => Unit
  | .spawn _ => Unit
  | .closeConn => Unit
  | .flush => Unit
  | .closeReturned => Unit
  | .choose => Nat

/-- Signature of server programs. -/
abbrev SSig (C : Crypto) : Sig := ⟨SOp, SOp.Ret C⟩

/-- Server programs. -/
abbrev SProg (C : Crypto) (α : Type) := Prog (SSig C) α

section
variable {C : Crypto}

/-- Use a parser on the goroutine's connection. -/
def onConn {α : Type} (p : RProg α) : SProg C α :=
  p.lift (T := SSig C) (fun o => .op (.read o) .ret)

/-- A Go function that may panic. -/
def ofRes {α : Type} : Res α → SProg C α
  | .val a => .ret a
  | .panic m => .panic m

/-! ## Session table -/

/-- A `secret.Manager` (secret/secret.go:82-85), user-supplied or the in-memory one. -/
structure Manager (C : Crypto) where
  store : Bytes → Ref → SProg C (Except Err Unit)
  load : Bytes → SProg C (Option Ref)

/-- secret/secret.go:162-168 -/
def inMemoryStore (id : Bytes) (session : Ref) : SProg C (Except Err Unit) :=
  .op .now fun (t : Nat) =>
  .op (.mapStore id (session, t)) fun _ =>
  .ret (.ok ())

/-- secret/secret.go:171-180: the entry is read, then written back with a new access time (two
separate `sync.Map` operations). -/
def inMemoryLoad (id : Bytes) : SProg C (Option Ref) :=
  .op (.mapLoad id) fun (value : Option (Ref × Nat)) =>
    match value with
    | none => .ret none
    | some (session, _) =>
      .op .now fun (t : Nat) =>
      .op (.mapStore id (session, t)) fun _ =>
      .ret (some session)

/-- secret/secret.go:119-189 -/
def inMemory (C : Crypto) : Manager C := { store := inMemoryStore, load := inMemoryLoad }

/-- The collector's `Range` callback (secret/secret.go:147-153) for one key.  `Range` reads the entry
and calls back; deleting is a separate `sync.Map` operation. -/
def gcVisitKey (ttl : Nat) (key : Bytes) : SProg C Bool :=
  .op (.mapLoad key) fun (value : Option (Ref × Nat)) =>
    match value with
    | none => .ret true
    | some (_, lastAccessAt) =>
      .op .now fun (t : Nat) =>
        if t - lastAccessAt > ttl then .op (.mapDelete key) fun _ => .ret true
        else .ret true

/-- One visit of the collector.  Simplified: the order of `Range` and the ticker are not modelled; a
visit may happen at any time for any key, and visits repeat forever. -/
def gcVisit (ttl : Nat) : SProg C Bool :=
  .op .pickKey fun (key : Bytes) => gcVisitKey ttl key

/-! ## Responses -/

/-- `protocol.NewErrorResponse(code, text).Bytes()` -/
def errorBytes (code : ErrorCode) (text : String) : Bytes := (newErrorResponse code (str text)).bytes

/-- internal/server/handler.go:92-105 -/
def writeErrorResponse (errResponse : Bytes) : SProg C Bool :=
  .op (.write errResponse) fun (r : Nat × Option Err) =>
    match r with
    | (_, some _) => .ret false
    | (n, none) => if n ≠ errResponse.length then .ret false else .ret true

/-- internal/server/handler.go:61-90 -/
def writeResponse (response : Bytes) : SProg C Bool :=
  .op (.write response) fun (r : Nat × Option Err) =>
    match r with
    | (n, none) => if n ≠ response.length then .ret false else .ret true
    | (n, some err) =>
      if err.isDeadline then .ret false
      else if n > 0 then .ret false
      else writeErrorResponse (errorBytes codeServerError "failed to send back action response")

/-- The idiom `if !h.writeErrorResponse(conn, errResponse) { return io.ErrShortWrite }; return nil`
of all handlers (for instance internal/server/action_process.go:20-27). -/
def failWith (code : ErrorCode) (text : String) : SProg C (Option Err) :=
  (writeErrorResponse (errorBytes code text)).bind fun ok =>
    if ok then .ret none else .ret (some .shortWrite)

/-- The idiom `if !h.writeResponse(conn, action, response) { return io.ErrShortWrite }; return nil`. -/
def respondWith (response : Bytes) : SProg C (Option Err) :=
  (writeResponse response).bind fun ok =>
    if ok then .ret none else .ret (some .shortWrite)

/-! ## Actions -/

/-- The session table key `base64(sha256(host ‖ id))` (internal/server/action_setup.go:57-115,
action_process.go:31-89).  Writing to a hash never fails and never is short (Go standard library:
`hash.Hash`), so those error branches are not modelled. -/
def sessionKey (C : Crypto) (host : Bytes) (id : ID) : Bytes := b64Encode (C.sha256 (host ++ id.val))

/-- internal/server/action_setup.go:16-165.  `host` is what
`net.SplitHostPort(conn.RemoteAddr().String())` returns.  Building the transcript never fails
(see `setupTranscript`). -/
def setupHandler (M : Manager C) (host : Except Err Bytes) (common : RequestCommon) :
    SProg C (Option Err) :=
  (onConn (parseSetupRequest C common)).bind fun parsed =>
  match parsed with
  | .error _ => failWith codeMalformedRequest "failed to parse data of the request"
  | .ok request =>
  .op .genKey fun (generated : Except Err C.EPriv) =>
  match generated with
  | .error _ => failWith codeMalformedRequest "failed to generate private key"
  | .ok serverPrivateKey =>
  match C.ecdh serverPrivateKey request.publicKey with
  | .error _ => failWith codeMalformedRequest "failed to generate shared secret"
  | .ok sharedSecret =>
  match host with
  | .error _ => failWith codeServerError "failed to split host and port"
  | .ok host =>
  .op (.newSession sharedSecret host request.id.val) fun (session : Ref) =>
  (M.store (sessionKey C host request.id) session).bind fun stored =>
  match stored with
  | .error _ => failWith codeServerError "failed to store shared secret"
  | .ok () =>
  .op (.sign cryptoSHA512
      (setupTranscript C request.publicKey (C.epub serverPrivateKey) request.id))
    fun (signed : Except Err Bytes) =>
  match signed with
  | .error _ => failWith codeServerError "failed to sign response"
  | .ok signature =>
  (ofRes (newHashType cryptoSHA512)).bind fun hashType =>
  respondWith ((newSetupResponse C (C.epub serverPrivateKey)).setSignature hashType signature).bytes

/-- internal/server/action_process.go:169-201: call the application handler and reply. -/
def runHandler (session : Ref) (host : Bytes) (request : ProcessRequest) (gcm message : Bytes) :
    SProg C (Option Err) :=
  .op (.invoke session request.counter host request.id.val message) fun (handled : HRes) =>
  match handled with
  | .panic m => .panic m
  | .error _ => failWith codeServerError "failed to handle message"
  | .reply written =>
  if request.expectReply then
    (ofRes (nonce directionServerToClient request.counter gcmNonceSize)).bind fun responseNonce =>
    .op (.aead session gcm responseNonce written) fun (sealed : Bytes) =>
    respondWith (newProcessResponse request.counter sealed).bytes
  else .ret none

/-- internal/server/action_process.go:16-202 -/
def processHandler (M : Manager C) (host : Except Err Bytes) (common : RequestCommon) :
    SProg C (Option Err) :=
  (onConn (parseProcessRequest common)).bind fun parsed =>
  match parsed with
  | .error _ => failWith codeMalformedRequest "failed to parse data of the request"
  | .ok request =>
  match host with
  | .error _ => failWith codeServerError "failed to split host and port"
  | .ok host =>
  (M.load (sessionKey C host request.id)).bind fun loaded =>
  match loaded with
  | none => failWith codeUnknownClient "could not find a shared secret matching the given ID"
  | some session =>
  .op (.check session request.counter) fun (fresh : Bool) =>
  if fresh then
    .op (.secretOf session) fun (secret : Bytes) =>
    match deriveKey C secret kdfInfo aesKeySize with
    | .error _ => failWith codeServerError "failed to derive encryption key"
    | .ok aesKey =>
    match aesNewCipher aesKey with
    | .error _ => failWith codeServerError "failed to create AES cipher"
    | .ok block =>
    match cipherNewGCM block with
    | .error _ => failWith codeServerError "failed to create GCM cipher"
    | .ok gcm =>
    (ofRes (nonce directionClientToServer request.counter gcmNonceSize)).bind fun nonce =>
    match C.aeadOpen gcm nonce request.message with
    | none => failWith codeServerError "failed to decrypt message"
    | some message => runHandler session host request gcm message
  else failWith codeReplayDetected "message counter was already seen or is too old"

/-- internal/server/action_fetch_key.go:10-43 -/
def fetchKeyHandler : SProg C (Option Err) :=
  .op .fetchKey fun (fetched : Except Err (KeyAlgorithm × PublicKey)) =>
  match fetched with
  | .error _ => failWith codeServerError "failed to fetch public key"
  | .ok (keyAlgorithm, publicKey) =>
  match C.marshalPKIX publicKey with
  | .error _ => failWith codeServerError "failed to encode public key"
  | .ok publicKeyRaw => respondWith (newFetchKeyResponse keyAlgorithm publicKeyRaw).bytes

/-- internal/server/handler.go:44-59.  Actions other than the four known ones return nil without a
response. -/
def handle (M : Manager C) (host : Except Err Bytes) (common : RequestCommon) : SProg C (Option Err) :=
  if common.action = actionHello then respondWith helloResponse.bytes
  else if common.action = actionSetup then setupHandler M host common
  else if common.action = actionProcess then processHandler M host common
  else if common.action = actionFetchKey then fetchKeyHandler
  else .ret none

/-! ## Goroutines -/

/-- Parse the common part, check the version, call the handler; the result says whether to go on
(server.go:206-232 and 306-332). -/
def serveRequest (M : Manager C) (host : Except Err Bytes) : SProg C Bool :=
  (onConn parseRequestCommon).bind fun parsed =>
  match parsed with
  | .error _ => .ret false
  | .ok common =>
  if common.version ≠ version1 then .ret false
  else
    (handle M host common).bind fun err =>
    match err with
    | some _ => .ret false
    | none => .ret true

/-- server.go:187-233: one pass of the loop of `handleConnection`. -/
def connPass (M : Manager C) (host : Except Err Bytes) : SProg C Bool :=
  .op .quitClosed fun (closed : Bool) =>
  if closed then .ret false
  else
    .op .setDeadlines fun _ =>
    serveRequest M host

/-- server.go:175-183: the deferred function of `handleConnection` (runs after a panic too). -/
def connDeferred : SProg C Bool :=
  .op .closeConn fun _ => .op .wgDone fun _ => .ret false

/-- server.go:286-332: the goroutine for one datagram.  It sets the write deadline of the packet
connection that all of them share. -/
def packetBody (M : Manager C) (host : Except Err Bytes) : SProg C Bool :=
  .op .setDeadlines fun _ =>
  (serveRequest M host).bind fun _ => .ret false

/-- server.go:287-297: its deferred functions. -/
def packetDeferred : SProg C Bool := .op .flush fun _ => .ret false

/-- server.go:153-168: one pass of the accept loop. -/
def acceptPass : SProg C Bool :=
  .op .quitClosed fun (closed : Bool) =>
  if closed then .ret false
  else
    .op .accept fun (accepted : Except Err Peer) =>
    match accepted with
    | .error _ => .ret true
    | .ok peer =>
      .op .wgAdd fun _ =>
      .op (.spawn peer) fun _ =>
      .ret true

/-- server.go:266-334: one pass of the packet loop. -/
def packetPass : SProg C Bool :=
  .op .quitClosed fun (closed : Bool) =>
  if closed then .ret false
  else
    .op .receive fun (received : Except Err Peer) =>
    match received with
    | .error _ => .ret true
    | .ok peer => .op (.spawn peer) fun _ => .ret true

/-- server.go:338-347.  Closing the secret manager stops its collector (secret/secret.go:184-189);
not modelled (the collector may go on in the model). -/
def closeServer : SProg C Bool :=
  .op .closeQuit fun (ok : Bool) =>
  if ok then
    .op .wgWait fun _ =>
    .op .closeReturned fun _ =>
    .ret false
  else .panic "close of closed channel"

end

end Goe2ee
