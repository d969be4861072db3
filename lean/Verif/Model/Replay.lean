import Verif.Model.Basic

/-!
# Replay protection (`secret/secret.go`)
-/

set_option autoImplicit false

namespace Goe2ee

/-- secret/secret.go:16 -/
def replayWindowSize : BitVec 64 := 64

/-- secret/secret.go:20-24 (the mutex makes `CheckAndUpdate` atomic; it is not part of the value). -/
structure ReplayWindow where
  highest : BitVec 64
  bitmap : BitVec 64
  deriving DecidableEq, Repr

/-- secret/secret.go:76: the zero value. -/
def ReplayWindow.fresh : ReplayWindow := { highest := 0, bitmap := 0 }

/-- secret/secret.go:30-61.  `uint64` arithmetic is modulo `2^64`; `x << s` with `s ≥ 64` is zero in
Go as in `BitVec`. -/
def ReplayWindow.checkAndUpdate (w : ReplayWindow) (counter : BitVec 64) : Bool × ReplayWindow :=
  if counter = 0 then (false, w)
  else if counter > w.highest then
    let shift := counter - w.highest
    let bitmap := if shift ≥ replayWindowSize then 1 else (w.bitmap <<< shift) ||| 1
    (true, { highest := counter, bitmap })
  else
    let diff := w.highest - counter
    if diff ≥ replayWindowSize then (false, w)
    else
      let mask := (1 : BitVec 64) <<< diff
      if w.bitmap &&& mask ≠ 0 then (false, w)
      else (true, { w with bitmap := w.bitmap ||| mask })

end Goe2ee
