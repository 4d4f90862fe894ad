import Verif.Model.EdMachine

/-!
# Programs that only use field elements
-/

namespace Ristretto.Ed
open Model.Ed
set_option autoImplicit false

/-- The call is a method of `FieldElement`. -/
def OnField : Cmd → Prop
  | .fZero _ | .fOne _ | .fI _ | .fSet _ _ | .fAdd _ _ _ | .fSub _ _ _ | .fNeg _ _ | .fMul _ _ _ | .fSquare _ _
  | .fDoubledSquare _ _ | .fInverse _ _ | .fAbs _ _ | .fExp22523 _ _ | .fInvSqrt _ _ | .fSqrt _ _ | .fInvSqrtI _ _
  | .fSetBytes _ _ | .fSetBigInt _ _ | .fCondSet _ _ _ | .fBytes _ | .fBigInt _ | .fIsNegativeI _ | .fIsNonZeroI _
  | .fIsOneI _ | .fEqualsI _ _ | .fEquals _ _ => True
  | _ => False

end Ristretto.Ed
