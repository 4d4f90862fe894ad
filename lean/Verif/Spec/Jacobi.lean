import Verif.Spec.Coords
import Verif.Spec.Elligator
import Verif.Model.Elligator

/-!
# Points of the Jacobi quartic

`OnJac s t` and `OfJac s t P` are in Spec/Elligator.lean: `(s, t)` satisfies the equation of the quartic, and `P` is the
point of the curve that belongs to it.
-/

namespace Ristretto
set_option autoImplicit false
open Model

/-- The coordinates are `s` and `t`, with limbs as the package keeps them. -/
structure IsJacobi (q : JacPt Fe51) (s t : Fp) : Prop where
  limbS : LimbsLe (2 * (2 ^ 51 + 2 ^ 18)) q.S
  limbT : LimbsLe (3 * (2 ^ 51 + 2 ^ 18)) q.T
  s : feVal q.S = s
  t : feVal q.T = t

end Ristretto
