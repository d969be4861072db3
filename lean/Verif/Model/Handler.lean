import Verif.Model.Prog
import Verif.Model.Server

/-!
# The application handler as a program

For the server (`Verif.Model.Server`) a call of the application handler is one effect with any result.  Here is
what the handler itself sees: a reader with the message and a writer for the reply
(internal/server/action_process.go:169-188).

Not modelled: a handler that uses more of `*bytes.Buffer` than `io.Reader` and `io.Writer` offer, that goes on
using them after it has returned, or that never returns.
-/

set_option autoImplicit false

namespace Goe2ee

/-- What a handler does with the reader (`Read` with a buffer of `n` octets) and the writer. -/
inductive HOp where
  | read (n : Nat)
  | write (bs : Bytes)
  deriving DecidableEq, Repr

def HSig : Sig where
  Op := HOp
  Ret
    | .read _ => Bytes × Option Err
    | .write _ => Nat × Option Err

/-- server.go:19-22: `Handle(w, r, remoteAddr) error`; the address is not modelled. -/
abbrev HProg := Prog HSig (Option Err)

/-- What is left to read, and what was written. -/
structure HBuffers where
  reader : Bytes
  writer : Bytes

/-- internal/server/action_process.go:169-175 with Go's `bytes.Buffer` and `io.Discard`: reading from an empty
buffer is `io.EOF`, except into no space; writing always succeeds (it panics without memory, which is not
modelled). -/
def handlerExec (expectReply : Bool) : Interp HSig HBuffers
  | .read n, s =>
    if s.reader = [] then (([], if n = 0 then none else some .eof), s)
    else ((s.reader.take n, none), { s with reader := s.reader.drop n })
  | .write bs, s => ((bs.length, none), if expectReply then { s with writer := s.writer ++ bs } else s)

/-- internal/server/action_process.go:169-188: what the call did, as the server sees it. -/
def outcomeOf (expectReply : Bool) (h : HProg) (message : Bytes) : HRes :=
  match h.run (handlerExec expectReply) { reader := message, writer := [] } with
  | (.val none, s) => .reply s.writer
  | (.val (some e), _) => .error e
  | (.panic m, _) => .panic m

end Goe2ee
