import Verif.Model.Basic
import Verif.Model.Prog

/-!
# Readers

`io.Reader`, `io.ReadFull`, `io.Copy(&buf, io.LimitReader(r, n))` (Go standard library) as the
parsers of `protocol/` use them, and the transport under a TCP connection.
-/

namespace Goe2ee

/-- The read effects of the parsers.
* `alloc n`: `make([]byte, n)` with a size that came from the peer;
* `readFull n`: `io.ReadFull` into a buffer of `n` bytes (what `binary.Read` does first);
* `copyLimit n`: `io.Copy(&buf, io.LimitReader(r, n))`, returning what was put in the buffer and
  the error. -/
inductive ROp where
  | alloc (n : Nat)
  | readFull (n : Nat)
  | copyLimit (n : Int)
  deriving DecidableEq, Repr

/-- Result types of the read effects. -/
def ROp.Ret : ROp → Type
  | .alloc _ => Unit
  | .readFull _ => Except Err Bytes
  | .copyLimit _ => Bytes × Option Err

/-- Signature of parser programs. -/
abbrev RSig : Sig := ⟨ROp, ROp.Ret⟩

/-- Parser programs. -/
abbrev RProg (α : Type) := Prog RSig α

/-- One call of `Read` with a buffer of `k > 0` bytes: bytes put in the buffer, error, new state. -/
abbrev ReadFn (σ : Type) := σ → Nat → (Bytes × Option Err) × σ

/-- `io.ReadFull` (Go io.go, `ReadAtLeast` with `min = len(buf)`): read until the buffer is full
or an error occurs; `io.EOF` after at least one byte becomes `io.ErrUnexpectedEOF`; an error
together with the last needed byte is dropped.  `fuel` bounds the number of `Read` calls; `n` is
enough because the readers modelled return at least one byte or an error per call. -/
def readFullLoop {σ : Type} (rd : ReadFn σ) : (fuel remaining : Nat) → (acc : Bytes) → σ →
    Except Err Bytes × σ
  | _, 0, acc, s => (.ok acc, s)
  | 0, _ + 1, _, s => (.error (.other "no progress"), s)
  | fuel + 1, r + 1, acc, s =>
    match rd s (r + 1) with
    | ((bs, err), s') =>
      if r + 1 ≤ bs.length then (.ok (acc ++ bs), s')
      else match err with
        | none => readFullLoop rd fuel (r + 1 - bs.length) (acc ++ bs) s'
        | some e =>
          (.error (if acc ++ bs ≠ [] ∧ e = .eof then .unexpectedEOF else e), s')

/-- `io.ReadFull(r, make([]byte, n))`. -/
def readFull {σ : Type} (rd : ReadFn σ) (n : Nat) (s : σ) : Except Err Bytes × σ :=
  readFullLoop rd n n [] s

/-- `io.Copy(&buf, io.LimitReader(r, n))`: `bytes.Buffer.ReadFrom` over `io.LimitedReader.Read`:
a non-positive remaining limit reads as EOF without touching `r`; EOF ends the copy without error.
Simplified: each `Read` asks for the whole remaining limit (the growth policy of `bytes.Buffer` is
not modelled; by `C11_segmentation_independent` the split does not matter). -/
def copyLoop {σ : Type} (rd : ReadFn σ) : (fuel remaining : Nat) → (acc : Bytes) → σ →
    (Bytes × Option Err) × σ
  | _, 0, acc, s => ((acc, none), s)
  | 0, _ + 1, acc, s => ((acc, some (.other "no progress")), s)
  | fuel + 1, r + 1, acc, s =>
    match rd s (r + 1) with
    | ((bs, err), s') =>
      match err with
      | none => copyLoop rd fuel (r + 1 - bs.length) (acc ++ bs) s'
      | some .eof => ((acc ++ bs, none), s')
      | some e => ((acc ++ bs, some e), s')

/-- `io.Copy(&buf, io.LimitReader(r, n))` with Go's `int64` limit. -/
def copyLimit {σ : Type} (rd : ReadFn σ) (n : Int) (s : σ) : (Bytes × Option Err) × σ :=
  copyLoop rd n.toNat n.toNat [] s

/-- Meaning of the read effects over a reader. -/
def readInterp {σ : Type} (rd : ReadFn σ) : Interp RSig σ
  | .alloc _, s => ((), s)
  | .readFull n, s => readFull rd n s
  | .copyLimit n, s => copyLimit rd n s

/-- What the network delivers to a TCP connection: chunks of data and errors (for instance an
expired read deadline).  When the list is exhausted the peer has closed: `Read` returns `io.EOF`. -/
inductive Ev where
  | data (bs : Bytes)
  | fail (e : Err)
  deriving DecidableEq, Repr

/-- `net.TCPConn.Read` with a buffer of `k > 0` bytes: at most one pending chunk, or an error, or
EOF.  (`TCPConn.Read` never returns `0, nil` for a non-empty buffer, so empty chunks are skipped.) -/
def readEv : ReadFn (List Ev)
  | [], _ => (([], some .eof), [])
  | .fail e :: r, _ => (([], some e), r)
  | .data [] :: r, k => readEv r k
  | .data (b :: bs) :: r, k =>
    (((b :: bs).take k, none),
      if (b :: bs).length ≤ k then r else .data ((b :: bs).drop k) :: r)

/-- Result of running a parser over a TCP connection. -/
abbrev runEv {α : Type} (p : RProg α) (evs : List Ev) : Res α × List Ev := p.run (readInterp readEv) evs

/-- The bytes and errors a connection will deliver, forgetting how they are segmented. -/
def flatten : List Ev → List (Byte ⊕ Err)
  | [] => []
  | .data bs :: r => bs.map Sum.inl ++ flatten r
  | .fail e :: r => .inr e :: flatten r

end Goe2ee
