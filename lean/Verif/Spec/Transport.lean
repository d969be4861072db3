import Verif.Model.Protocol

/-!
# Vocabulary for statements about connections
-/

set_option autoImplicit false

namespace Goe2ee

/-- The connection `evs` delivers exactly the octets `bs`, split into reads in an arbitrary way,
and then `rest` (octets or errors). -/
def Delivers (evs : List Ev) (bs : Bytes) (rest : List (Byte ⊕ Err)) : Prop :=
  flatten evs = bs.map Sum.inl ++ rest

/-- Running the parser `p` on the connection `evs` gives the result `r` and leaves `rest` unread. -/
def Parses {α : Type} (p : RProg (Except Err α)) (evs : List Ev) (r : Except Err α)
    (rest : List (Byte ⊕ Err)) : Prop :=
  ∃ evs', runEv p evs = (.val r, evs') ∧ flatten evs' = rest

/-- Parse one part, then the next (`server.go:206-225`, `client.go:332-346`: common part first). -/
def andThen {α β : Type} (p : RProg (Except Err α)) (q : α → RProg (Except Err β)) :
    RProg (Except Err β) :=
  p.bind fun
    | .ok a => q a
    | .error e => .ret (.error e)

/-- The reads a receiver of a setup request performs. -/
def recvSetupRequest (C : Crypto) : RProg (Except Err (SetupRequest C)) :=
  andThen parseRequestCommon (parseSetupRequest C)

/-- The reads a receiver of a process request performs. -/
def recvProcessRequest : RProg (Except Err ProcessRequest) :=
  andThen parseRequestCommon parseProcessRequest

/-- The reads a receiver of a setup response performs. -/
def recvSetupResponse (C : Crypto) : RProg (Except Err (SetupResponse C)) :=
  andThen parseResponseCommon (parseSetupResponse C)

/-- The reads a receiver of a process response performs. -/
def recvProcessResponse : RProg (Except Err ProcessResponse) :=
  andThen parseResponseCommon parseProcessResponse

/-- The reads a receiver of a fetch-key response performs. -/
def recvFetchKeyResponse : RProg (Except Err FetchKeyResponse) :=
  andThen parseResponseCommon parseFetchKeyResponse

/-- The reads a receiver of an error response performs. -/
def recvErrorResponse : RProg (Except Err ErrorResponse) :=
  andThen parseResponseCommon parseErrorResponse

/-- Sizes of the buffers that parsing `p` allocates while reading `evs`: `make([]byte, n)` in the
parser and the buffer of the same kind inside `binary.Read`. -/
def allocations {α : Type} (p : RProg α) (evs : List Ev) : List Nat :=
  (p.trace (readInterp readEv) evs).filterMap fun
    | ⟨.alloc n, _⟩ => some n
    | ⟨.readFull n, _⟩ => some n
    | ⟨.copyLimit _, _⟩ => none

end Goe2ee
