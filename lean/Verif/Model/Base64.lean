import Verif.Model.Basic

/-!
# Base64 (`encoding/base64`, `StdEncoding`)
-/

set_option autoImplicit false

namespace Goe2ee

/-- The standard alphabet `A-Z a-z 0-9 + /`. -/
def b64Char (v : Nat) : Byte :=
  if v < 26 then BitVec.ofNat 8 (65 + v)
  else if v < 52 then BitVec.ofNat 8 (97 + (v - 26))
  else if v < 62 then BitVec.ofNat 8 (48 + (v - 52))
  else if v = 62 then 43#8
  else 47#8

/-- `base64.StdEncoding.EncodeToString` (Go standard library): groups of three bytes, `=` padding. -/
def b64Encode : Bytes → Bytes
  | [] => []
  | [a] =>
    let v := a.toNat * 65536
    [b64Char (v / 262144), b64Char (v / 4096 % 64), 61#8, 61#8]
  | [a, b] =>
    let v := a.toNat * 65536 + b.toNat * 256
    [b64Char (v / 262144), b64Char (v / 4096 % 64), b64Char (v / 64 % 64), 61#8]
  | a :: b :: c :: r =>
    let v := a.toNat * 65536 + b.toNat * 256 + c.toNat
    b64Char (v / 262144) :: b64Char (v / 4096 % 64) :: b64Char (v / 64 % 64) :: b64Char (v % 64) ::
      b64Encode r

end Goe2ee
