import Verif.Model.ServerLog
import Verif.Spec.Wire

/-!
# What a server's log says
-/

set_option autoImplicit false

namespace Goe2ee

/-- A line: format and arguments. -/
abbrev Line := String × List LogArg

section
variable {C : Crypto}

/-- What a goroutine did: effects with their results. -/
abbrev LTrace (C : Crypto) := List ((o : LOp) × o.Ret C)

/-- The lines a goroutine wrote to the log (without those about deadlines that could not be set and connections that could
not be closed). -/
def logLines : LTrace C → List Line
  | [] => []
  | ⟨.log format args, _⟩ :: rest => (format, args) :: logLines rest
  | _ :: rest => logLines rest

/-- The line that says that the client closed its connection. -/
def closedByClient : Line := ("connection closed by client (%s)", [.remoteAddr])

/-- The error responses of the server and the lines that give the reason: code and text of the response, format of the line. -/
def reasons : List (Nat × String × String) :=
  [(1, "failed to parse data of the request", "failed to parse setup action request: %v"),
   (1, "failed to parse data of the request", "failed to parse process action request: %v"),
   (1, "failed to generate private key", "failed to generate private key: %v"),
   (1, "failed to generate shared secret", "failed to generate shared secret: %v"),
   (2, "failed to split host and port", "failed to split host and port: %v"),
   (2, "failed to store shared secret", "failed to store shared secret: %v"),
   (2, "failed to sign response", "failed to sign response: %v"),
   (2, "failed to derive encryption key", "failed to derive encryption key: %v"),
   (2, "failed to create AES cipher", "failed to create AES cipher: %v"),
   (2, "failed to create GCM cipher", "failed to create GCM cipher: %v"),
   (2, "failed to decrypt message", "failed to decrypt message: %v"),
   (2, "failed to handle message", "failed to handle message: %v"),
   (2, "failed to fetch public key", "failed to fetch public key: %v"),
   (2, "failed to encode public key", "failed to encode public key: %v"),
   (2, "failed to send back action response", "failed to send %s action response: %v"),
   (5, "message counter was already seen or is too old", "replay detected for counter %d")]

/-- The response to a message of an unknown session. -/
def unknownSession : Bytes := Wire.errorResponse 3 (str "could not find a shared secret matching the given ID")

/-- An interpreter of the server's effects, with a log. -/
def withLog {τ : Type} (I : Interp (SSig C) τ) : Interp (LSig C) τ
  | .base o, s => I o s
  | .log _ _, s => ((), s)
  | .logIfFailed _, s => ((), s)

end

end Goe2ee
