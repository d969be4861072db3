import Verif.Model.Crypto

/-!
# HKDF as in RFC 5869
-/

set_option autoImplicit false

namespace Goe2ee

/-- RFC 5869 section 2.3: `T(0) = ""`, `T(i) = HMAC(PRK, T(i-1) | info | i)`. -/
def hkdfT (hmac : Bytes → Bytes → Bytes) (prk info : Bytes) : Nat → Bytes
  | 0 => []
  | i + 1 => hmac prk (hkdfT hmac prk info i ++ info ++ [BitVec.ofNat 8 (i + 1)])

/-- `T(1) | T(2) | … | T(n)`. -/
def hkdfBlocks (hmac : Bytes → Bytes → Bytes) (prk info : Bytes) : Nat → Bytes
  | 0 => []
  | n + 1 => hkdfBlocks hmac prk info n ++ hkdfT hmac prk info (n + 1)

/-- RFC 5869 sections 2.2 and 2.3 with SHA-256 and without salt (32 zero octets): the first `length`
octets of the blocks. -/
def hkdfRFC (hmac : Bytes → Bytes → Bytes) (secret info : Bytes) (length : Nat) : Bytes :=
  (hkdfBlocks hmac (hmac (List.replicate 32 0) secret) info 255).take length

end Goe2ee
