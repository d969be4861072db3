import Verif.Model.Dns

/-!
# What a DNSKEY record is

RFC 4034 section 2.2 (presentation format), RFC 3110 (RSA), RFC 6605 (ECDSA), RFC 8080 (Ed25519).
-/

set_option autoImplicit false

namespace Goe2ee

/-- A key that can be used to verify signatures. -/
def Usable : PublicKey → Prop
  | .rsa (some k) => k.n.isSome
  | .ecdsa (some k) => k.x.isSome ∧ k.y.isSome
  | .ed25519 k => k.length = 32
  | _ => False

/-- RFC 3110 section 2: the length of the exponent in one octet, or in two after a zero octet; the
exponent; the modulus.  Neither has leading zeros.  The implementation supports exponents of at most
31 bits and moduli of 64 to 512 octets. -/
def RsaMaterial (raw : Bytes) (n e : Nat) : Prop :=
  ∃ exp modulus : Bytes,
    (raw = [BitVec.ofNat 8 exp.length] ++ exp ++ modulus ∨
      raw = [0, 0, BitVec.ofNat 8 exp.length] ++ exp ++ modulus) ∧
    1 ≤ exp.length ∧ exp.length ≤ 4 ∧ exp.head? ≠ some 0 ∧ beDec exp = e ∧ e < 2 ^ 31 ∧
    64 ≤ modulus.length ∧ modulus.length ≤ 512 ∧ modulus.head? ≠ some 0 ∧ beDec modulus = n

/-- The key material of each supported algorithm. -/
inductive Material : Nat → Bytes → PublicKey → Prop where
  | rsa {alg : Nat} {raw : Bytes} {n e : Nat} (halg : alg ∈ [5, 7, 8, 10]) (h : RsaMaterial raw n e) :
    Material alg raw (.rsa (some ⟨some n, e⟩))
  | p256 {x y : Bytes} (hx : x.length = 32) (hy : y.length = 32) :
    Material 13 (x ++ y) (.ecdsa (some ⟨.p256, some (beDec x), some (beDec y)⟩))
  | p384 {x y : Bytes} (hx : x.length = 48) (hy : y.length = 48) :
    Material 14 (x ++ y) (.ecdsa (some ⟨.p384, some (beDec x), some (beDec y)⟩))
  | ed25519 {raw : Bytes} (h : raw.length = 32) : Material 15 raw (.ed25519 raw)

/-- A decimal numeral. -/
def Numeral (s : Bytes) (v : Nat) : Prop :=
  s ≠ [] ∧ (∀ c ∈ s, 48 ≤ c.toNat ∧ c.toNat ≤ 57) ∧
    s.foldl (fun a c => a * 10 + (c.toNat - 48)) 0 = v

/-- The four fields of a record, separated by one space each. -/
def Fields (text f p a k : Bytes) : Prop :=
  text = f ++ [32] ++ p ++ [32] ++ a ++ [32] ++ k ∧
    (32 : Byte) ∉ f ∧ (32 : Byte) ∉ p ∧ (32 : Byte) ∉ a ∧ (32 : Byte) ∉ k

/-- RFC 4648 table 1: the character of a 6-bit value. -/
def Sextet (c : Byte) (v : Nat) : Prop :=
  (str "ABCDEFGHIJKLMNOPQRSTUVWXYZabcdefghijklmnopqrstuvwxyz0123456789+/")[v]? = some c

/-- RFC 4648 section 4: four characters stand for three octets; the last four may end with one or two `=` and stand for two
octets or one.  The bits that are left over there may have any value. -/
inductive Base64 : Bytes → Bytes → Prop
  | nil : Base64 [] []
  | two {a b : Byte} {x y u : Nat} {p : Byte} (ha : Sextet a x) (hb : Sextet b y) (hu : u < 16)
    (h : x * 64 + y = p.toNat * 16 + u) : Base64 [a, b, 61#8, 61#8] [p]
  | three {a b c : Byte} {x y z u : Nat} {p q : Byte} (ha : Sextet a x) (hb : Sextet b y) (hc : Sextet c z) (hu : u < 4)
    (h : (x * 64 + y) * 64 + z = (p.toNat * 256 + q.toNat) * 4 + u) : Base64 [a, b, c, 61#8] [p, q]
  | four {a b c d : Byte} {x y z w : Nat} {p q r : Byte} {text out : Bytes} (ha : Sextet a x) (hb : Sextet b y)
    (hc : Sextet c z) (hd : Sextet d w)
    (h : ((x * 64 + y) * 64 + z) * 64 + w = (p.toNat * 256 + q.toNat) * 256 + r.toNat) (hrest : Base64 text out) :
    Base64 (a :: b :: c :: d :: text) (p :: q :: r :: out)

/-- Base64 with line breaks, which may be anywhere. -/
def Base64Text (text raw : Bytes) : Prop := Base64 (text.filter fun c => c ∉ str "\r\n") raw

/-- A zone signing key: flags 256, protocol 3, an algorithm number, the material in base64. -/
def ZoneKey (text : Bytes) (alg : Nat) (raw : Bytes) : Prop :=
  ∃ f p a k, Fields text f p a k ∧ Numeral f 256 ∧ Numeral p 3 ∧ Numeral a alg ∧ alg < 256 ∧
    Base64Text k raw

end Goe2ee
