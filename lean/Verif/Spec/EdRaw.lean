import Mathlib.Data.Nat.Notation
import Verif.Model.EdMachine

/-!
# Which programs over package edwards25519 are safe with the generic field implementation

An `ExtendedPoint` that was just decoded, or whose coordinates `ToJacobiQuarticRistretto` or
`RistrettoElligator2Inverse` have reduced in place, has limbs of full width: it is *raw*.  A raw point
must not be the second operand of an addition or subtraction of two extended points, nor be multiplied by a scalar, nor be
turned into a table.
-/

namespace Ristretto.Ed
open Model.Ed
set_option autoImplicit false

/-- May the call be made when `raw` says which extended points are raw? -/
def mayCall (raw : ℕ → Bool) : Cmd → Bool
  | .eAdd _ _ r | .eSub _ _ r | .cAddExtended _ _ r | .cSubExtended _ _ r => !raw r
  | .eScalarMult _ q _ | .eVarTimeScalarMult _ q _ | .tCompute _ q => !raw q
  | _ => true

/-- Variable `e` gets status `b`. -/
def setFull (raw : ℕ → Bool) (e : ℕ) (b : Bool) : ℕ → Bool := fun k => if k = e then b else raw k

/-- Which extended points may be raw after the call. -/
def fullAfter (raw : ℕ → Bool) : Cmd → ℕ → Bool
  | .eSetRistretto e _ | .eToJacobi e _ | .eInverse e => setFull raw e true
  | .eSet e q | .eNeg e q => setFull raw e (raw q)
  | .eCondSet e q _ => setFull raw e (raw e || raw q)
  | .eZero e | .eBase e | .eTorsion1 e | .eTorsion2 e | .eTorsion3 e | .eAdd e _ _ | .eSub e _ _ | .eDouble e _
  | .eSetCompleted e _ | .eScalarMult e _ _ | .eVarTimeScalarMult e _ _ | .tScalarMult _ e _ | .tVarTimeScalarMult _ e _ =>
    setFull raw e false
  | _ => raw

/-- Every call of the program is allowed. -/
def StepsFine : (ℕ → Bool) → List Cmd → Bool
  | _, [] => true
  | raw, c :: cs => mayCall raw c && StepsFine (fullAfter raw c) cs

/-- Every call of the program is allowed, starting from zero values. -/
def Fine (prog : List Cmd) : Bool := StepsFine (fun _ => false) prog

end Ristretto.Ed
