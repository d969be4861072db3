import Verif.Model.Protocol
import Verif.Model.Kdf
import Verif.Model.UUID
import Verif.Model.Keys

/-!
# The client (`client.go`)

Every call of the API is a program over the effects `COp`.  What the effects do is defined in
`Verif.Model.ClientExec`.
-/

set_option autoImplicit false

namespace Goe2ee

/-- The effects of client code. -/
inductive COp where
  /-- resolving the address and connecting (client.go:158-167, 206-214) -/
  | connect
  /-- `conn.SetKeepAlive(options.keepAlive)` -/
  | setKeepAlive
  /-- a read of the connection -/
  | read (o : ROp)
  /-- `c.conn.Write(bs)` -/
  | write (bs : Bytes)
  /-- `c.conn.SetReadDeadline`, `c.conn.SetWriteDeadline` relative to now -/
  | setReadDeadline
  | setWriteDeadline
  /-- `c.conn.Close()` -/
  | close
  /-- `Close()` of the operating system's socket itself (key/client_fetcher.go:199-201, 214-216) -/
  | closeSocket
  /-- `c.keyFetcher.Fetch(host)` -/
  | fetch (host : Bytes)
  /-- `io.ReadFull(rand.Reader, uuid[:])` -/
  | random
  /-- `ecdh.X25519().GenerateKey(rand.Reader)` -/
  | genKey
  /-- `&clientSession{…}`: a new send counter, zero -/
  | newCounter
  /-- `c.session.sendCounter.Add(1)` -/
  | addCounter (counter : Nat)
  /-- `gcm.Seal(nil, nonce, plaintext, nil)` -/
  | aead (key nonce plaintext : Bytes)

/-- Result types of the effects. -/
def COp.Ret (C : Crypto) : COp → Type
  | .connect => Option Err
  | .setKeepAlive => Option Err
  | .read o => o.Ret
  | .write _ => Nat × Option Err
  | .setReadDeadline => Option Err
  | .setWriteDeadline => Option Err
  | .close => Option Err
  | .closeSocket => Option Err
  | .fetch _ => Except Err PublicKey
  | .random => Except Err ID
  | .genKey => Except Err C.EPriv
  | .newCounter => Nat
  | .addCounter _ => BitVec 64
  | .aead _ _ _ => Bytes

/-- Signature of client programs. -/
abbrev CSig (C : Crypto) : Sig := ⟨COp, COp.Ret C⟩

/-- Client programs. -/
abbrev CProg (C : Crypto) (α : Type) := Prog (CSig C) α

/-- client.go:114-118; `sendCounter` is the address of the counter, which all connections using the
session share. -/
structure ClientSession where
  secret : Bytes
  id : ID
  sendCounter : Nat
  deriving DecidableEq, Repr

/-- client.go:122-133 without the connection (see `Verif.Model.ClientExec`), the pool (see
`Verif.Model.Pool`) and the key fetcher (the effect `fetch`).  `host` is what
`net.SplitHostPort(c.hostport)` returns. -/
structure Client where
  host : Except Err Bytes
  readTimeout : Int
  writeTimeout : Int
  expectReply : Bool
  session : Option ClientSession
  lastSentCounter : BitVec 64
  buffer : Bytes

section
variable {C : Crypto}

/-- Use a parser on the client's connection. -/
def onClientConn {α : Type} (p : RProg α) : CProg C α :=
  p.lift (T := CSig C) (fun o => .op (.read o) .ret)

/-- A Go function that may panic. -/
def ofClientRes {α : Type} : Res α → CProg C α
  | .val a => .ret a
  | .panic m => .panic m

variable (C) in
/-- client.go:26-40; the AEAD is represented by its key. -/
def newGCM (secret : Bytes) : Except Err Bytes :=
  match deriveKey C secret kdfInfo aesKeySize with
  | .error e => .error (.wrap "failed to derive encryption key" e)
  | .ok aesKey =>
  match aesNewCipher aesKey with
  | .error e => .error (.wrap "failed to create AES cipher" e)
  | .ok block =>
  match cipherNewGCM block with
  | .error e => .error (.wrap "failed to create GCM cipher" e)
  | .ok gcm => .ok gcm

/-- client.go:227-307.  The result is the session on success.  Building the transcript never fails
(see `setupTranscript`). -/
def handshake (host : Except Err Bytes) : CProg C (Except Err ClientSession) :=
  match host with
  | .error e => .ret (.error (.wrap "failed to split host and port" e))
  | .ok host =>
  .op (.fetch host) fun (fetched : Except Err PublicKey) =>
  match fetched with
  | .error e => .ret (.error e)
  | .ok serverPublicKey =>
  .op .random fun (random : Except Err ID) =>
  match uuid random with
  | .error e => .ret (.error e)
  | .ok id =>
  .op .genKey fun (generated : Except Err C.EPriv) =>
  match generated with
  | .error e => .ret (.error (.wrap "failed to generate private key" e))
  | .ok clientPrivateKey =>
  let setupRequest := newSetupRequest C id (C.epub clientPrivateKey)
  .op (.write setupRequest.bytes) fun (r : Nat × Option Err) =>
  match r with
  | (_, some e) => .ret (.error (.wrap "failed to send setup request" e))
  | (n, none) =>
  if n ≠ setupRequest.bytes.length then
    .ret (.error (.other "failed to send setup request: expected sending more bytes"))
  else
  (onClientConn parseResponseCommon).bind fun parsed =>
  match parsed with
  | .error e => .ret (.error (.wrap "failed to parse response" e))
  | .ok responseCommon =>
  if !responseCommon.success then
    (onClientConn (parseErrorResponse responseCommon)).bind fun parsed =>
    match parsed with
    | .error e => .ret (.error (.wrap "failed to parse error response" e))
    | .ok errorResponse =>
      .ret (.error (.remote "failed to set shared secret" errorResponse.code errorResponse.message))
  else
  (onClientConn (parseSetupResponse C responseCommon)).bind fun parsed =>
  match parsed with
  | .error e => .ret (.error (.wrap "failed to parse setup response" e))
  | .ok setupResponse =>
  let transcript := setupTranscript C (C.epub clientPrivateKey) setupResponse.publicKey id
  (ofClientRes (HashType.cryptoHash setupResponse.hashType)).bind fun hash =>
  (ofClientRes (verifySignature C serverPublicKey hash transcript setupResponse.signature)).bind
    fun verified =>
  match verified with
  | .error e => .ret (.error (.wrap "failed to verify signature of setup response" e))
  | .ok false => .ret (.error (.other "failed to verify signature of setup response"))
  | .ok true =>
  match C.ecdh clientPrivateKey setupResponse.publicKey with
  | .error e => .ret (.error (.wrap "failed to generate shared secret" e))
  | .ok secret =>
  .op .newCounter fun (sendCounter : Nat) =>
  .ret (.ok { secret, id, sendCounter })

/-- client.go:45-64: the options; the key fetcher is the effect `fetch`. -/
structure ClientOptions where
  readTimeout : Int := 5000000000
  writeTimeout : Int := 5000000000
  expectReply : Bool := true

/-- client.go:173-180 and 215-224: the client built by `dialTCP` and `dialUDP`. -/
def newClient (host : Except Err Bytes) (options : ClientOptions) : Client :=
  { host, readTimeout := options.readTimeout, writeTimeout := options.writeTimeout,
    expectReply := options.expectReply, session := none, lastSentCounter := 0, buffer := [] }

/-- client.go:426-433: an error of `conn.Close()` keeps the buffer. -/
def Client.close (c : Client) : CProg C (Option Err × Client) :=
  .op .close fun (r : Option Err) =>
  match r with
  | some e => .ret (some (.wrap "failed to close connection" e), c)
  | none => .ret (none, { c with buffer := [] })

/-- client.go:142-148 and 190-196: handshake; on failure close the connection.  (`errors.Join` is
represented by its first error.) -/
def handshakeOrClose (c : Client) : CProg C (Except Err Client) :=
  (handshake c.host).bind fun result =>
  match result with
  | .error e => c.close.bind fun _ => .ret (.error e)
  | .ok session => .ret (.ok { c with session := some session })

/-- client.go:137-181 -/
def dialTCP (host : Except Err Bytes) (options : ClientOptions) : CProg C (Except Err Client) :=
  .op .connect fun (r : Option Err) =>
  match r with
  | some e => .ret (.error (.wrap "failed to connect to server" e))
  | none =>
  .op .setKeepAlive fun (r : Option Err) =>
  match r with
  | some e => .ret (.error (.wrap "failed to set keep-alive option" e))
  | none => handshakeOrClose (newClient host options)

/-- client.go:185-225 -/
def dialUDP (host : Except Err Bytes) (options : ClientOptions) : CProg C (Except Err Client) :=
  .op .connect fun (r : Option Err) =>
  match r with
  | some e => .ret (.error (.wrap "failed to connect to server" e))
  | none => handshakeOrClose (newClient host options)

/-- `c.buffer.Read(p)` with `len(p) = n` (Go `bytes.Buffer.Read`) and the end of `Read`
(client.go:320-329 and 377-386). -/
def readBuffer (c : Client) (n : Nat) : (Bytes × Option Err) × Client :=
  if c.buffer = [] ∧ 0 < n then (([], some (.wrap "failed to read data from buffer" .eof)), c)
  else
    let c' := { c with buffer := c.buffer.drop n }
    ((c.buffer.take n, if c'.buffer = [] then some .eof else none), c')

/-- client.go:310-387 with `len(p) = n`: the bytes put in `p` and the error. -/
def Client.read (c : Client) (n : Nat) : CProg C ((Bytes × Option Err) × Client) :=
  (if c.readTimeout > 0 then .op .setReadDeadline .ret else .ret none : CProg C (Option Err)).bind
    fun (r : Option Err) =>
  match r with
  | some e => .ret (([], some (.wrap "failed to set connection read deadline" e)), c)
  | none =>
  if c.buffer ≠ [] then .ret (readBuffer c n)
  else
  (onClientConn parseResponseCommon).bind fun parsed =>
  match parsed with
  | .error e => .ret (([], some (.wrap "failed to parse response" e)), c)
  | .ok responseCommon =>
  if !responseCommon.success then
    (onClientConn (parseErrorResponse responseCommon)).bind fun parsed =>
    match parsed with
    | .error e => .ret (([], some (.wrap "failed to parse error response" e)), c)
    | .ok errorResponse =>
      .ret (([], some (.remote "failed to read data" errorResponse.code errorResponse.message)), c)
  else
  (onClientConn (parseProcessResponse responseCommon)).bind fun parsed =>
  match parsed with
  | .error e => .ret (([], some (.wrap "failed to parse success response" e)), c)
  | .ok response =>
  if response.counter ≠ c.lastSentCounter then
    .ret (([], some (.other "unexpected response counter")), c)
  else
  match c.session with
  | none => .panic "nil pointer dereference"
  | some session =>
  match newGCM C session.secret with
  | .error e => .ret (([], some e), c)
  | .ok gcm =>
  (ofClientRes (nonce directionServerToClient response.counter gcmNonceSize)).bind fun nonce =>
  match C.aeadOpen gcm nonce response.message with
  | none => .ret (([], some (.wrap "failed to decrypt data from server" (.other "authentication"))), c)
  | some message => .ret (readBuffer { c with buffer := c.buffer ++ message } n)

/-- client.go:390-416 -/
def Client.write (c : Client) (p : Bytes) : CProg C ((Nat × Option Err) × Client) :=
  (if c.writeTimeout > 0 then .op .setWriteDeadline .ret else .ret none : CProg C (Option Err)).bind
    fun (r : Option Err) =>
  match r with
  | some e => .ret ((0, some (.wrap "failed to set connection write deadline" e)), c)
  | none =>
  match c.session with
  | none => .panic "nil pointer dereference"
  | some session =>
  match newGCM C session.secret with
  | .error e => .ret ((0, some e), c)
  | .ok gcm =>
  .op (.addCounter session.sendCounter) fun (counter : BitVec 64) =>
  if counter = 0 then .ret ((0, some (.other "message counter exhausted")), c)
  else
  (ofClientRes (nonce directionClientToServer counter gcmNonceSize)).bind fun nonce =>
  .op (.aead gcm nonce p) fun (sealed : Bytes) =>
  .op (.write (newProcessRequest session.id counter sealed c.expectReply).bytes)
    fun (r : Nat × Option Err) =>
  .ret (r, { c with lastSentCounter := counter })

end

end Goe2ee
