import Verif.Model.Client

/-!
# Functions of Go's standard library applied to a client

README.md:97-113 shows how a client is meant to be used: `client.Write`, then `io.ReadAll(client)`.
Here are `io.ReadAll` as README.md:109 calls it, and the functions that write to an `io.Writer`.
Modelled after the documentation and the code of Go's package `io`; this is part of the trusted base
like the other standard library functions.
-/

set_option autoImplicit false

namespace Goe2ee

section
variable {C : Crypto}

/-- `io.ReadAll(c)`: read until an error; `io.EOF` itself (not an error that wraps it) means the end.
`rooms` are the free octets of the buffer in each round (it starts with 512 and grows when it is
full); `none` stands for "still reading after these rounds". -/
def Client.readAll : List Nat → Bytes → Client →
    CProg C (Option (Bytes × Option Err) × Client)
  | [], _, c => .ret (none, c)
  | room :: rooms, data, c =>
    (c.read room).bind fun r =>
    match r.1.2 with
    | none => Client.readAll rooms (data ++ r.1.1) r.2
    | some e => .ret (some (data ++ r.1.1, if e = .eof then none else some e), r.2)

/-- `io.errInvalidWrite`. -/
def errInvalidWrite : Err := .other "invalid write result"

/-- `io.Copy(c, src)` for a source without `WriteTo`: `chunks` are what the calls of `src.Read`
return until the end of the source; `written` octets are copied already.  The result is the number
of octets copied and the error. -/
def Client.copyFrom : List Bytes → Nat → Client → CProg C ((Nat × Option Err) × Client)
  | [], written, c => .ret ((written, none), c)
  | chunk :: chunks, written, c =>
    if chunk = [] then Client.copyFrom chunks written c
    else
    (c.write chunk).bind fun r =>
    if chunk.length < r.1.1 then .ret ((written, some (r.1.2.getD errInvalidWrite)), r.2)
    else
    match r.1.2 with
    | some e => .ret ((written + r.1.1, some e), r.2)
    | none =>
    if r.1.1 ≠ chunk.length then .ret ((written + r.1.1, some .shortWrite), r.2)
    else Client.copyFrom chunks (written + r.1.1) r.2

/-- One round of `io.MultiWriter(…, c, …).Write(p)`: the call for this writer, the number of octets
and the error that make the whole call stop here; `none` if the next writer gets its turn. -/
def Client.multiWrite (c : Client) (p : Bytes) : CProg C (Option (Nat × Err) × Client) :=
  (c.write p).bind fun r =>
  match r.1.2 with
  | some e => .ret (some (r.1.1, e), r.2)
  | none => if r.1.1 ≠ p.length then .ret (some (r.1.1, .shortWrite), r.2) else .ret (none, r.2)

/-- A writer that looks at errors only, such as `json.Encoder` or `io.TeeReader`: each element of
`chunks` is written by one call, until an error. -/
def Client.writeEach : List Bytes → Client → CProg C (Option Err × Client)
  | [], c => .ret (none, c)
  | chunk :: chunks, c =>
    (c.write chunk).bind fun r =>
    match r.1.2 with
    | some e => .ret (some e, r.2)
    | none => Client.writeEach chunks r.2

end

end Goe2ee
