import Verif.Model.Basic

/-!
# SHA-256 and HMAC

FIPS 180-4 and RFC 2104.  Only used to run the model of the key derivation on the published test vectors
(`Verif.Props.Conformance`); the theorems hold for any hash function.
-/

set_option autoImplicit false

namespace Goe2ee

namespace Sha256

/-- FIPS 180-4, section 4.2.2 -/
def roundConstants : List (BitVec 32) :=
  [0x428a2f98#32, 0x71374491#32, 0xb5c0fbcf#32, 0xe9b5dba5#32, 0x3956c25b#32, 0x59f111f1#32, 0x923f82a4#32, 0xab1c5ed5#32,
   0xd807aa98#32, 0x12835b01#32, 0x243185be#32, 0x550c7dc3#32, 0x72be5d74#32, 0x80deb1fe#32, 0x9bdc06a7#32, 0xc19bf174#32,
   0xe49b69c1#32, 0xefbe4786#32, 0x0fc19dc6#32, 0x240ca1cc#32, 0x2de92c6f#32, 0x4a7484aa#32, 0x5cb0a9dc#32, 0x76f988da#32,
   0x983e5152#32, 0xa831c66d#32, 0xb00327c8#32, 0xbf597fc7#32, 0xc6e00bf3#32, 0xd5a79147#32, 0x06ca6351#32, 0x14292967#32,
   0x27b70a85#32, 0x2e1b2138#32, 0x4d2c6dfc#32, 0x53380d13#32, 0x650a7354#32, 0x766a0abb#32, 0x81c2c92e#32, 0x92722c85#32,
   0xa2bfe8a1#32, 0xa81a664b#32, 0xc24b8b70#32, 0xc76c51a3#32, 0xd192e819#32, 0xd6990624#32, 0xf40e3585#32, 0x106aa070#32,
   0x19a4c116#32, 0x1e376c08#32, 0x2748774c#32, 0x34b0bcb5#32, 0x391c0cb3#32, 0x4ed8aa4a#32, 0x5b9cca4f#32, 0x682e6ff3#32,
   0x748f82ee#32, 0x78a5636f#32, 0x84c87814#32, 0x8cc70208#32, 0x90befffa#32, 0xa4506ceb#32, 0xbef9a3f7#32, 0xc67178f2#32]

/-- FIPS 180-4, section 5.3.3 -/
def initial : List (BitVec 32) :=
  [0x6a09e667#32, 0xbb67ae85#32, 0x3c6ef372#32, 0xa54ff53a#32, 0x510e527f#32, 0x9b05688c#32, 0x1f83d9ab#32, 0x5be0cd19#32]

/-- The message schedule, latest word first (section 6.2.2, step 1). -/
def schedule : Nat → List (BitVec 32) → List (BitVec 32)
  | 0, ws => ws
  | n + 1, ws =>
    let a := ws.getD 1 0
    let b := ws.getD 14 0
    let s1 := a.rotateRight 17 ^^^ a.rotateRight 19 ^^^ (a >>> 10)
    let s0 := b.rotateRight 7 ^^^ b.rotateRight 18 ^^^ (b >>> 3)
    schedule n ((s1 + ws.getD 6 0 + s0 + ws.getD 15 0) :: ws)

/-- Step 3. -/
def rounds : List (BitVec 32 × BitVec 32) → List (BitVec 32) → List (BitVec 32)
  | (k, w) :: rest, [a, b, c, d, e, f, g, h] =>
    let t1 := h + (e.rotateRight 6 ^^^ e.rotateRight 11 ^^^ e.rotateRight 25) + ((e &&& f) ^^^ (~~~e &&& g)) + k + w
    let t2 := (a.rotateRight 2 ^^^ a.rotateRight 13 ^^^ a.rotateRight 22) + ((a &&& b) ^^^ (a &&& c) ^^^ (b &&& c))
    rounds rest [t1 + t2, a, b, c, d + t1, e, f, g]
  | _, state => state

def words : Nat → Bytes → List (BitVec 32)
  | 0, _ => []
  | n + 1, bs => BitVec.ofNat 32 (beDec (bs.take 4)) :: words n (bs.drop 4)

/-- The blocks of a padded message. -/
def blocks : Nat → Bytes → List (BitVec 32) → List (BitVec 32)
  | 0, _, state => state
  | n + 1, bs, state =>
    let ws := (schedule 48 (words 16 (bs.take 64)).reverse).reverse
    blocks n (bs.drop 64) (List.zipWith (· + ·) state (rounds (roundConstants.zip ws) state))

/-- Section 5.1.1. -/
def pad (bs : Bytes) : Bytes :=
  bs ++ [0x80#8] ++ List.replicate ((119 - bs.length % 64) % 64) 0 ++ beEnc 8 (8 * bs.length)

def hash (bs : Bytes) : Bytes :=
  let padded := pad bs
  (blocks (padded.length / 64) padded initial).flatMap fun w => beEnc 4 w.toNat

/-- RFC 2104 -/
def hmac (key text : Bytes) : Bytes :=
  let key := if key.length > 64 then hash key else key
  let key := key ++ List.replicate (64 - key.length) 0
  hash (key.map (· ^^^ 0x5c#8) ++ hash (key.map (· ^^^ 0x36#8) ++ text))

end Sha256

end Goe2ee
