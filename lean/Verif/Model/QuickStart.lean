import Verif.Model.Flow
import Verif.Model.Handler
import Verif.Model.StdIO
import Verif.Model.ProtocolFetcher

/-!
# The quick start of README.md (lines 60-113)

A server whose application sends back what it received, and a client that fetches the server's key with the protocol
itself, dials, writes one message and reads the reply with `io.ReadAll`.

Simplifications:
* those of `Verif.Model.Flow`; in particular deadlines are set as the options say, but none passes;
* `server.Close` and `client.Close` of README.md:73-77 and 99-103 are left out;
* how the buffer of `io.ReadAll` grows is left open: `rooms` are the free octets for each call of `Read`.
-/

set_option autoImplicit false

namespace Goe2ee

/-- README.md:64-71: the handler of the server: `io.ReadAll`, then one `Write`; an error of either is returned.  If
`rooms` is used up, it is still reading; this is an error here. -/
def echoAll : List Nat → Bytes → HProg
  | [], _ => .ret (some (.other "still reading"))
  | room :: rooms, data =>
    .op (.read room) fun (r : Bytes × Option Err) =>
    match r.2 with
    | none => echoAll rooms (data ++ r.1)
    | some e =>
      if e = .eof then .op (.write (data ++ r.1)) fun (w : Nat × Option Err) => .ret w.2
      else .ret (some e)

section
variable {C : Crypto}

/-- README.md:105-113: `client.Write`, then `io.ReadAll(client)`.  The result of `io.ReadAll` is recorded; so is an
error of `Write`, which ends the program. -/
def writeThenReadAll (c : Client) (message : Bytes) (rooms : List Nat) : FlowProg C FlowLoop :=
  (clientFlow (c.write message)).bind fun r =>
  match r.1.2 with
  | some e => .op (.wrote (r.1.1, some e)) fun _ => .ret .ended
  | none =>
  (clientFlow (Client.readAll rooms [] r.2)).bind fun q =>
  match q.1 with
  | none => .ret .ended
  | some result => .op (.gotData result) fun _ => .ret .ended

/-- README.md:91-113.  An error of the dial is recorded like that of a `Write`. -/
def quickStart (host : Except Err Bytes) (options : ClientOptions) (message : Bytes) (rooms : List Nat) :
    FlowProg C FlowLoop :=
  (clientFlow (dialTCP host options)).bind fun r =>
  match r with
  | .error e => .op (.wrote (0, some e)) fun _ => .ret .ended
  | .ok c => writeThenReadAll c message rooms

/-- README.md:93: the key fetcher of the client, on a connection of its own; the client goes on with `next`. -/
def fetchOver (network : Bytes) (next : Except Err PublicKey → FlowProg C FlowLoop) : FlowProg C FlowLoop :=
  (clientFlow (protocolFetch network)).bind next

end

end Goe2ee
