import Verif.Model.Basic

/-!
# Parameters in the query of a URL

The `application/x-www-form-urlencoded` parser of the URL standard (WHATWG, section 5.1), which providers implement.
-/

set_option autoImplicit false

namespace Goe2ee.Form

/-- The value of a hexadecimal digit. -/
def hexDigit? (c : Byte) : Option Nat :=
  if 48 ≤ c.toNat ∧ c.toNat ≤ 57 then some (c.toNat - 48)
  else if 65 ≤ c.toNat ∧ c.toNat ≤ 70 then some (c.toNat - 55)
  else if 97 ≤ c.toNat ∧ c.toNat ≤ 102 then some (c.toNat - 87)
  else none

/-- `%` and two hexadecimal digits stand for an octet, `+` for a space; any other `%` stands for itself. -/
def decode : Bytes → Bytes
  | 0x25#8 :: a :: b :: rest =>
    match hexDigit? a, hexDigit? b with
    | some x, some y => BitVec.ofNat 8 (16 * x + y) :: decode rest
    | _, _ => 0x25#8 :: decode (a :: b :: rest)
  | c :: rest => (if c = 0x2B#8 then 0x20#8 else c) :: decode rest
  | [] => []

/-- The parts between the separators. -/
def split (sep : Byte) : Bytes → List Bytes
  | [] => [[]]
  | c :: rest =>
    match split sep rest with
    | [] => [[]]
    | part :: parts => if c = sep then [] :: part :: parts else (c :: part) :: parts

/-- Name and value: what comes before and after the first `=`. -/
def pair (part : Bytes) : Bytes × Bytes :=
  (decode (part.takeWhile (· ≠ 0x3D#8)), decode ((part.dropWhile (· ≠ 0x3D#8)).drop 1))

/-- The parameters of a query. -/
def pairs (query : Bytes) : List (Bytes × Bytes) := ((split 0x26#8 query).filter (· ≠ [])).map pair

/-- The values of one parameter, in order. -/
def valuesIn (ps : List (Bytes × Bytes)) (name : Bytes) : List Bytes := (ps.filter (·.1 = name)).map (·.2)

/-- Every `%` is followed by two hexadecimal digits, and there is no semicolon (which some read as a separator). -/
def WellFormed : Bytes → Prop
  | [] => True
  | c :: rest =>
    c ≠ 0x3B#8 ∧ (c = 0x25#8 → ∃ a b r, rest = a :: b :: r ∧ (hexDigit? a).isSome ∧ (hexDigit? b).isSome) ∧ WellFormed rest

end Goe2ee.Form
