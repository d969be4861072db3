import Verif.Model.Basic

/-!
# The value of a parameter
-/

set_option autoImplicit false

namespace Goe2ee

/-- The value of a parameter after the options: what the last option of its kind says, or else the default. -/
def lastGiven {O V : Type} (kind : O → Option V) (opts : List O) (default : V) : V :=
  ((opts.filterMap kind).getLast?).getD default

end Goe2ee
