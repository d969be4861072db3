import Verif.Model.Protocol

/-!
# Session identifiers (`internal/client/uuid.go`)
-/

set_option autoImplicit false

namespace Goe2ee

/-- internal/client/uuid.go:47-48, applied to the 16 bytes read from the random source. -/
def uuidOf (random : ID) : ID :=
  let u₁ := random.val.set 6 ((random.val.getD 6 0 &&& 0x0f#8) ||| 0x40#8)
  let u₂ := u₁.set 8 ((u₁.getD 8 0 &&& 0x3f#8) ||| 0x80#8)
  ⟨u₂, by simp [u₁, u₂, random.property]⟩

/-- internal/client/uuid.go:39-50.  The argument is the outcome of
`io.ReadFull(rand.Reader, uuid[:])`; a short read without error is impossible for `io.ReadFull`. -/
def uuid (random : Except Err ID) : Except Err ID :=
  match random with
  | .error e => .error (.wrap "failed to generate id" e)
  | .ok r => .ok (uuidOf r)

end Goe2ee
