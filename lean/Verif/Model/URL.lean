import Verif.Model.Basic

/-!
# The URLs that the code builds

`net/url` (Go standard library) as far as `internal/dns/doh` and `examples/chat` use it.
-/

set_option autoImplicit false

namespace Goe2ee

/-- `shouldEscape(c, encodeQueryComponent)` is false for letters, digits and these marks only (net/url/url.go). -/
def unreserved (c : Byte) : Bool :=
  (97#8 ≤ c && c ≤ 122#8) || (65#8 ≤ c && c ≤ 90#8) || (48#8 ≤ c && c ≤ 57#8) ||
    c == 45#8 || c == 95#8 || c == 46#8 || c == 126#8

/-- `"0123456789ABCDEF"[n]` -/
def upperHex (n : Nat) : Byte := if n < 10 then BitVec.ofNat 8 (48 + n) else BitVec.ofNat 8 (55 + n)

/-- `unhex`, for the octets that `ishex` accepts. -/
def unhex (c : Byte) : Option Nat :=
  if 48#8 ≤ c ∧ c ≤ 57#8 then some (c.toNat - 48)
  else if 97#8 ≤ c ∧ c ≤ 102#8 then some (c.toNat - 87)
  else if 65#8 ≤ c ∧ c ≤ 70#8 then some (c.toNat - 55)
  else none

/-- `url.QueryEscape` -/
def queryEscape : Bytes → Bytes
  | [] => []
  | c :: cs =>
    (if unreserved c then [c]
     else if c = 32#8 then [43#8]
     else [37#8, upperHex (c.toNat / 16), upperHex (c.toNat % 16)]) ++ queryEscape cs

/-- `unescape(s, mode)`: in a query, a plus sign is a space; an error for `%` without two hexadecimal digits. -/
def unescapeURL (query : Bool) : Bytes → Option Bytes
  | [] => some []
  | c :: cs =>
    if c = 37#8 then
      match cs with
      | a :: b :: rest =>
        match unhex a, unhex b with
        | some x, some y => (unescapeURL query rest).map (BitVec.ofNat 8 (16 * x + y) :: ·)
        | _, _ => none
      | _ => none
    else (unescapeURL query cs).map ((if query = true ∧ c = 43#8 then 32#8 else c) :: ·)

/-- `strings.Cut(s, sep)` for a separator of one octet: before and after; if it is not there, all and nothing. -/
def cutAt (sep : Byte) : Bytes → Bytes × Bytes
  | [] => ([], [])
  | c :: cs => if c = sep then ([], cs) else (c :: (cutAt sep cs).1, (cutAt sep cs).2)

/-- `url.Values`: the entries of the map.  (Their order does not matter, `Encode` sorts them.) -/
abbrev Values := List (Bytes × List Bytes)

/-- `v[key] = append(v[key], value)` -/
def Values.add (v : Values) (key value : Bytes) : Values :=
  match v with
  | [] => [(key, [value])]
  | (k, vs) :: rest => if k = key then (k, vs ++ [value]) :: rest else (k, vs) :: Values.add rest key value

/-- One pass of the loop of `parseQuery` with what comes before the next `&`: nothing happens if it is empty, has a
semicolon or does not unescape. -/
def parsePair (v : Values) (s : Bytes) : Values :=
  if s.contains 59#8 then v
  else if s = [] then v
  else
    match unescapeURL true (cutAt 61#8 s).1 with
    | none => v
    | some key =>
      match unescapeURL true (cutAt 61#8 s).2 with
      | none => v
      | some value => v.add key value

/-- The loop of `parseQuery`.  Simplified: no limit for the number of parameters (recent versions of Go have one, of
10000).  Every pass but the last takes at least the `&`; so `fuel`, the length of the query, is enough. -/
def parseQueryLoop : (fuel : Nat) → Bytes → Values → Values
  | 0, _, v => v
  | fuel + 1, query, v =>
    if query = [] then v else parseQueryLoop fuel (cutAt 38#8 query).2 (parsePair v (cutAt 38#8 query).1)

/-- `(*url.URL).Query`: errors are ignored. -/
def parseQuery (query : Bytes) : Values := parseQueryLoop query.length query []

/-- Strings are compared octet by octet. -/
def bytesLe : Bytes → Bytes → Bool
  | [], _ => true
  | _ :: _, [] => false
  | a :: as, b :: bs => if a = b then bytesLe as bs else decide (a < b)

def insertKey (e : Bytes × List Bytes) : Values → Values
  | [] => [e]
  | h :: rest => if bytesLe e.1 h.1 then e :: h :: rest else h :: insertKey e rest

/-- The entries in the order of their keys. -/
def sortKeys : Values → Values
  | [] => []
  | e :: rest => insertKey e (sortKeys rest)

def encodeValues (key : Bytes) : List Bytes → Bytes → Bytes
  | [], buf => buf
  | value :: rest, buf =>
    encodeValues key rest
      ((if buf.length > 0 then buf ++ [38#8] else buf) ++ queryEscape key ++ [61#8] ++ queryEscape value)

def encodeEntries : Values → Bytes → Bytes
  | [], buf => buf
  | (key, values) :: rest, buf => encodeEntries rest (encodeValues key values buf)

/-- `Values.Encode` -/
def Values.encode (v : Values) : Bytes := encodeEntries (sortKeys v) []

/-- internal/dns/doh/doh.go:63-67: the query of the request, from the one in the URL of the provider. -/
def dohQuery (providerQuery domain : Bytes) : Bytes :=
  (((parseQuery providerQuery).add (str "name") domain).add (str "type") (str "DNSKEY")).encode

end Goe2ee
