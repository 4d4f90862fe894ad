import Verif.Spec.Repr

/-!
# The other coordinate systems of the package `edwards25519`
-/

namespace Ristretto
set_option autoImplicit false
open Model

/-- The largest limb of a coordinate of a `CompletedPoint`. -/
def complLimb : ℕ := 6 * (2 ^ 51 + 2 ^ 18)

/-- Completed coordinates of the curve point `P`: `x = X/Z` and `y = Y/T`. -/
structure IsCompleted (q : ComplPt Fe51) (P : EPoint) : Prop where
  limbX : LimbsLe complLimb q.X
  limbY : LimbsLe complLimb q.Y
  limbZ : LimbsLe complLimb q.Z
  limbT : LimbsLe complLimb q.T
  z : feVal q.Z ≠ 0
  t : feVal q.T ≠ 0
  x : P.x = feVal q.X / feVal q.Z
  y : P.y = feVal q.Y / feVal q.T

/-- Projective coordinates of the curve point `P`: `x = X/Z` and `y = Y/Z`. -/
structure IsProjective (q : ProjPt Fe51) (P : EPoint) : Prop where
  limbX : LimbsLe ptLimb q.X
  limbY : LimbsLe ptLimb q.Y
  limbZ : LimbsLe ptLimb q.Z
  z : feVal q.Z ≠ 0
  x : P.x = feVal q.X / feVal q.Z
  y : P.y = feVal q.Y / feVal q.Z

end Ristretto
