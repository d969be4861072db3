import Verif.Model.Handler
import Verif.Spec.Conversation

/-!
# Vocabulary for statements about the application handler
-/

set_option autoImplicit false

namespace Goe2ee

/-- The data a handler has read, call by call. -/
def dataRead : List ((o : HSig.Op) × HSig.Ret o) → Bytes
  | [] => []
  | ⟨.read _, result⟩ :: calls => result.1 ++ dataRead calls
  | ⟨.write _, _⟩ :: calls => dataRead calls

/-- The data a handler has written, call by call. -/
def dataWritten : List ((o : HSig.Op) × HSig.Ret o) → Bytes
  | [] => []
  | ⟨.read _, _⟩ :: calls => dataWritten calls
  | ⟨.write bs, _⟩ :: calls => bs ++ dataWritten calls

/-- What reading after `Write` gives: the reply and `io.EOF`; if the handler has written nothing, no data and an
error that is not `io.EOF` itself; if it has returned an error, the code and the message of the server's
response.  (A panic is not answered.) -/
def seenFor : HRes → Bytes × Option Err
  | .reply written =>
    if written = [] then ([], some (.wrap "failed to read data from buffer" .eof)) else (written, some .eof)
  | .error _ => ([], some (.remote "failed to read data" 2 (str "failed to handle message")))
  | .panic _ => ([], none)

/-- The handler returned, and what it wrote can be sent and fits into the buffers of the reader. -/
def Answerable (sizes : List Nat) : HRes → Prop
  | .reply written => written.length + 16 ≤ 2 ^ 30 ∧ written.length ≤ sizes.sum
  | .error _ => True
  | .panic _ => False

end Goe2ee
