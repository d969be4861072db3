import Verif.Model.Kdf
import Verif.Props.Nonce

/-!
# C12 for the nonces in use

Client and server build their nonces with the size that the cipher asks for.
-/

set_option autoImplicit false

namespace Goe2ee

/-- C12, for the size in use: every direction and counter has a nonce, and different ones have different
nonces. -/
theorem C12_used (d d' : Byte) (c c' : BitVec 64) :
    ∃ n n', nonce d c gcmNonceSize = .val n ∧ nonce d' c' gcmNonceSize = .val n' ∧ n.length = 12 ∧
      (n = n' → d = d' ∧ c = c') := by
  obtain ⟨n, hn, hl⟩ := C12_nonce_size d c gcmNonceSize (by decide)
  obtain ⟨n', hn', -⟩ := C12_nonce_size d' c' gcmNonceSize (by decide)
  refine ⟨n, n', hn, hn', hl, ?_⟩
  rintro rfl
  exact C12_nonce_injective d d' c c' gcmNonceSize (by decide) n hn hn'

/-- The nonces of request and reply number 7. -/
example : nonce 0 7 gcmNonceSize = .val [0, 0, 0, 0, 0, 0, 0, 0, 0, 0, 0, 7] ∧
    nonce 1 7 gcmNonceSize = .val [1, 0, 0, 0, 0, 0, 0, 0, 0, 0, 0, 7] := by decide

end Goe2ee
