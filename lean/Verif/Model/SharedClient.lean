import Verif.Model.ClientExec
import Verif.Model.Loops

/-!
# One client used by several goroutines (client.go:310-416)

`Client` implements `net.Conn`, whose methods several goroutines may call at the same time.  Here the
accesses to the fields that `Read` and `Write` change (`lastSentCounter`, `buffer`), the reads and writes of
the connection and the increments of the counter are effects, and the scheduler may switch between any two of
them.  Simplified: each access is atomic (Go promises less where accesses overlap without synchronisation, see
C109); TCP only; the client is not closed meanwhile.
-/

set_option autoImplicit false

namespace Goe2ee

/-- The effects. -/
inductive DOp where
  /-- `c.conn.SetReadDeadline`, `c.conn.SetWriteDeadline` -/
  | setReadDeadline
  | setWriteDeadline
  /-- `c.conn.Read` with a buffer of `k > 0` octets; waits until something has arrived -/
  | connRead (k : Nat)
  /-- `c.conn.Write(bs)` -/
  | connWrite (bs : Bytes)
  /-- `c.session.sendCounter.Add(1)` -/
  | addCounter
  /-- `gcm.Seal(nil, nonce, plaintext, nil)` -/
  | aead (key nonce plaintext : Bytes)
  /-- reading and setting `c.lastSentCounter` -/
  | loadLast
  | storeLast (counter : BitVec 64)
  /-- `c.buffer.Len()`, `c.buffer.Read(p)` with `len(p) = n`, `c.buffer.Write(bs)` -/
  | bufLen
  | bufRead (n : Nat)
  | bufWrite (bs : Bytes)
  /-- does nothing: marks the end of a call in the log, with what it returned -/
  | returned (call : CCall) (data : Bytes) (err : Option Err)

/-- Result types of the effects. -/
def DOp.Ret : DOp → Type
  | .setReadDeadline => Option Err
  | .setWriteDeadline => Option Err
  | .connRead _ => Bytes × Option Err
  | .connWrite _ => Nat × Option Err
  | .addCounter => BitVec 64
  | .aead _ _ _ => Bytes
  | .loadLast => BitVec 64
  | .storeLast _ => Unit
  | .bufLen => Nat
  | .bufRead _ => Bytes × Option Err
  | .bufWrite _ => Unit
  | .returned _ _ _ => Unit

abbrev DSig : Sig := ⟨DOp, DOp.Ret⟩
abbrev DProg (α : Type) := Prog DSig α

/-- `io.ReadFull` as in `readFullLoop`, by single calls of the connection's `Read`. -/
def readFullFrom : (fuel remaining : Nat) → (acc : Bytes) → DProg (Except Err Bytes)
  | _, 0, acc => .ret (.ok acc)
  | 0, _ + 1, _ => .ret (.error (.other "no progress"))
  | fuel + 1, r + 1, acc =>
    .op (.connRead (r + 1)) fun (got : Bytes × Option Err) =>
    if r + 1 ≤ got.1.length then .ret (.ok (acc ++ got.1))
    else match got.2 with
      | none => readFullFrom fuel (r + 1 - got.1.length) (acc ++ got.1)
      | some e => .ret (.error (if acc ++ got.1 ≠ [] ∧ e = .eof then .unexpectedEOF else e))

/-- `io.Copy(&buf, io.LimitReader(r, n))` as in `copyLoop`, by single calls of the connection's `Read`. -/
def copyFrom : (fuel remaining : Nat) → (acc : Bytes) → DProg (Bytes × Option Err)
  | _, 0, acc => .ret (acc, none)
  | 0, _ + 1, acc => .ret (acc, some (.other "no progress"))
  | fuel + 1, r + 1, acc =>
    .op (.connRead (r + 1)) fun (got : Bytes × Option Err) =>
    match got.2 with
    | none => copyFrom fuel (r + 1 - got.1.length) (acc ++ got.1)
    | some .eof => .ret (acc ++ got.1, none)
    | some e => .ret (acc ++ got.1, some e)

/-- What the read effects of the parsers are. -/
def sharedReads : (o : ROp) → DProg o.Ret
  | .alloc _ => .ret ()
  | .readFull n => readFullFrom n n []
  | .copyLimit n => copyFrom n.toNat n.toNat []

/-- Use a parser on the client's connection. -/
def onSharedConn {α : Type} (p : RProg α) : DProg α := p.lift (T := DSig) sharedReads

/-- A Go function that may panic. -/
def ofSharedRes {α : Type} : Res α → DProg α
  | .val a => .ret a
  | .panic m => .panic m

/-- client.go:320-329 and 377-386: read from the buffer, then look whether it is empty. -/
def sharedReadBuffer (n : Nat) : DProg (Bytes × Option Err) :=
  .op (.bufRead n) fun (got : Bytes × Option Err) =>
  match got.2 with
  | some e => .ret ([], some (.wrap "failed to read data from buffer" e))
  | none =>
    .op .bufLen fun (left : Nat) =>
    .ret (got.1, if left = 0 then some .eof else none)

section
variable (C : Crypto)

/-- client.go:310-387.  Of `c` only the fields that never change are used. -/
def sharedRead (c : Client) (n : Nat) : DProg (Bytes × Option Err) :=
  (if c.readTimeout > 0 then .op .setReadDeadline .ret else .ret none : DProg (Option Err)).bind
    fun (r : Option Err) =>
  match r with
  | some e => .ret ([], some (.wrap "failed to set connection read deadline" e))
  | none =>
  .op .bufLen fun (len : Nat) =>
  if len > 0 then sharedReadBuffer n
  else
  (onSharedConn parseResponseCommon).bind fun parsed =>
  match parsed with
  | .error e => .ret ([], some (.wrap "failed to parse response" e))
  | .ok responseCommon =>
  if !responseCommon.success then
    (onSharedConn (parseErrorResponse responseCommon)).bind fun parsed =>
    match parsed with
    | .error e => .ret ([], some (.wrap "failed to parse error response" e))
    | .ok errorResponse =>
      .ret ([], some (.remote "failed to read data" errorResponse.code errorResponse.message))
  else
  (onSharedConn (parseProcessResponse responseCommon)).bind fun parsed =>
  match parsed with
  | .error e => .ret ([], some (.wrap "failed to parse success response" e))
  | .ok response =>
  .op .loadLast fun (last : BitVec 64) =>
  if response.counter ≠ last then .ret ([], some (.other "unexpected response counter"))
  else
  match c.session with
  | none => .panic "nil pointer dereference"
  | some session =>
  match newGCM C session.secret with
  | .error e => .ret ([], some e)
  | .ok gcm =>
  (ofSharedRes (nonce directionServerToClient response.counter gcmNonceSize)).bind fun nonce =>
  match C.aeadOpen gcm nonce response.message with
  | none => .ret ([], some (.wrap "failed to decrypt data from server" (.other "authentication")))
  | some message =>
    .op (.bufWrite message) fun _ => sharedReadBuffer n

/-- client.go:390-416 -/
def sharedWrite (c : Client) (p : Bytes) : DProg (Nat × Option Err) :=
  (if c.writeTimeout > 0 then .op .setWriteDeadline .ret else .ret none : DProg (Option Err)).bind
    fun (r : Option Err) =>
  match r with
  | some e => .ret (0, some (.wrap "failed to set connection write deadline" e))
  | none =>
  match c.session with
  | none => .panic "nil pointer dereference"
  | some session =>
  match newGCM C session.secret with
  | .error e => .ret (0, some e)
  | .ok gcm =>
  .op .addCounter fun (counter : BitVec 64) =>
  if counter = 0 then .ret (0, some (.other "message counter exhausted"))
  else
  .op (.storeLast counter) fun _ =>
  (ofSharedRes (nonce directionClientToServer counter gcmNonceSize)).bind fun nonce =>
  .op (.aead gcm nonce p) fun (sealed : Bytes) =>
  .op (.connWrite (newProcessRequest session.id counter sealed c.expectReply).bytes) .ret

/-- A goroutine: the calls it still has to make. -/
def sharedCalls (c : Client) : List CCall → DProg (List CCall)
  | [] => .ret []
  | .read n :: rest => (sharedRead C c n).bind fun r => .op (.returned (.read n) r.1 r.2) fun _ => .ret rest
  | .write p :: rest => (sharedWrite C c p).bind fun r => .op (.returned (.write p) [] r.2) fun _ => .ret rest

end

/-- The client's fields that change, its connection and the log. -/
structure DWorld where
  counter : BitVec 64
  last : BitVec 64
  buffer : Bytes
  /-- what has arrived and was not read yet -/
  input : List Ev
  /-- all that has arrived -/
  arrived : List Ev
  writes : List (Bytes × Nat × Option Err)
  /-- the counters given out -/
  issued : List (BitVec 64)
  /-- calls that have returned: goroutine, call, data, error -/
  returns : List (Nat × CCall × Bytes × Option Err)

/-- The environment's choices: what arrives before the step, whether deadlines can be set, the outcome of a
write (as in `CEnv`). -/
structure DEnv where
  arrives : List Ev := []
  deadline : Option Err := none
  write : Nat × Option Err := (0, none)

/-- `bytes.Buffer.Read` with `len(p) = n`. -/
def takeBuffer (buffer : Bytes) (n : Nat) : (Bytes × Option Err) × Bytes :=
  if buffer = [] ∧ 0 < n then (([], some .eof), buffer) else ((buffer.take n, none), buffer.drop n)

/-- One effect of goroutine `i`, or nothing if it has to wait. -/
def dexec (C : Crypto) (e : DEnv) (i : Nat) (o : DOp) (s : DWorld) : Option (o.Ret × DWorld) :=
  let w := { s with input := s.input ++ e.arrives, arrived := s.arrived ++ e.arrives }
  match o with
  | .setReadDeadline => some (e.deadline, w)
  | .setWriteDeadline => some (e.deadline, w)
  | .connRead k =>
    if flatten w.input = [] then none
    else
      let r := readEv w.input k
      some (r.1, { w with input := r.2 })
  | .connWrite bs =>
    let r := (bs.length - e.write.1, e.write.2)
    some (r, { w with writes := w.writes ++ [(bs, r)] })
  | .addCounter =>
    some (w.counter + 1, { w with counter := w.counter + 1, issued := w.issued ++ [w.counter + 1] })
  | .aead key nonce plaintext => some (C.aeadSeal key nonce plaintext, w)
  | .loadLast => some (w.last, w)
  | .storeLast counter => some ((), { w with last := counter })
  | .bufLen => some (w.buffer.length, w)
  | .bufRead n =>
    let r := takeBuffer w.buffer n
    some (r.1, { w with buffer := r.2 })
  | .bufWrite bs => some ((), { w with buffer := w.buffer ++ bs })
  | .returned call data err => some ((), { w with returns := w.returns ++ [(i, call, data, err)] })

/-- Several goroutines using one client. -/
abbrev DSys := Loops DSig (List CCall) DWorld

/-- Run a schedule. -/
def DSys.run (C : Crypto) (c : Client) (s : DSys) (acts : List (Nat × DEnv)) : DSys :=
  Loops.run (sharedCalls C c) (dexec C) s acts

/-- The goroutines begin; the client has unread data `c.buffer` and sent its last message with
`c.lastSentCounter`. -/
def DSys.start (c : Client) (counter : BitVec 64) (calls : List (List CCall)) : DSys :=
  { world := { counter, last := c.lastSentCounter, buffer := c.buffer, input := [], arrived := [], writes := [],
               issued := [], returns := [] },
    threads := calls.map .ret }

end Goe2ee
