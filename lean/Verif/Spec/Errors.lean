import Verif.Model.Basic

/-!
# Vocabulary for statements about errors
-/

set_option autoImplicit false

namespace Goe2ee

/-- `errors.Is(err, target)`: `err` is `target`, or wraps it (Go `errors`). -/
inductive Err.Is : Err → Err → Prop where
  | self (e : Err) : Err.Is e e
  | wrap (m : String) (e target : Err) : Err.Is e target → Err.Is (.wrap m e) target

/-- `err.(net.Error)` succeeds and `Timeout()` returns true.  The errors of Go's sockets have that method; what
`fmt.Errorf` returns has not (Go `fmt`, type `wrapError`: methods `Error` and `Unwrap`), whatever it wraps. -/
def Err.timeoutMethod : Err → Bool
  | .timeout => true
  | _ => false

end Goe2ee
