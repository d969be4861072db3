/-!
# Basic vocabulary of the model

Go values used throughout: bytes, byte strings, errors, big-endian integers.
-/

namespace Goe2ee

/-- Go `byte` / `uint8`. -/
abbrev Byte := BitVec 8

/-- Go `[]byte` and `string` (Go strings are byte strings). -/
abbrev Bytes := List Byte

/-- Go `error` values that the code distinguishes.
`eof`, `unexpectedEOF`, `shortWrite` are `io.EOF`, `io.ErrUnexpectedEOF`, `io.ErrShortWrite`;
`timeout` is an error matching `os.ErrDeadlineExceeded`; `other` is any other error;
`wrap m e` is `fmt.Errorf("m: %w", e)` (a different value for `==`, transparent for `errors.Is`);
`remote m code text` is an error with the code and the message of an error response in its text
(client.go:271,342, key/client_fetcher.go:239).
Simplified: the formatted text of `wrap` and `remote` keeps only its fixed part, not the address. -/
inductive Err where
  | eof
  | unexpectedEOF
  | shortWrite
  | timeout
  | other (msg : String)
  | wrap (msg : String) (e : Err)
  | remote (msg : String) (code : BitVec 32) (text : Bytes)
  deriving DecidableEq, Repr, Inhabited

/-- `errors.Is(err, os.ErrDeadlineExceeded)` (used in internal/server/handler.go:69,95). -/
def Err.isDeadline : Err → Bool
  | .timeout => true
  | .wrap _ e => e.isDeadline
  | _ => false

/-- Result of a Go computation: it returns, or it panics. -/
inductive Res (α : Type) where
  | val (a : α)
  | panic (msg : String)
  deriving DecidableEq, Repr

/-- Big-endian encoding of `v` in `n` bytes, higher bits dropped
(`binary.BigEndian.AppendUint32/64`, `PutUint64` after the Go integer conversion). -/
def beEnc : Nat → Nat → Bytes
  | 0, _ => []
  | n + 1, v => BitVec.ofNat 8 (v / 256 ^ n) :: beEnc n v

/-- Big-endian decoding (`binary.Read` with `binary.BigEndian`, `big.Int.SetBytes`). -/
def beDec (bs : Bytes) : Nat :=
  bs.foldl (fun a b => a * 256 + b.toNat) 0

/-- A Go string literal as bytes (the literals used by the code are ASCII). -/
def str (s : String) : Bytes := s.toUTF8.toList.map (fun b => b.toBitVec)

end Goe2ee
