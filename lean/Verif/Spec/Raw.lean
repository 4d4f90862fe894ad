import Mathlib.Data.Nat.Notation
import Verif.Model.Machine

/-!
# Which programs are safe with the generic field implementation

In the generic build a point variable that was just decoded has coordinates with limbs of full width (it is *raw*),
and a raw point must not be the second operand of an addition or subtraction, nor be multiplied by a scalar, nor be
turned into a table.  `Safe` is a static check of this rule on programs.
-/

namespace Ristretto
open Model
set_option autoImplicit false

/-- May the call be made when `raw` says which point variables are raw? -/
def allowedCall (raw : ℕ → Bool) : Cmd → Bool
  | .pAdd _ _ r | .pSub _ _ r => !raw r
  | .pScalarMult _ q _ | .pPublicScalarMult _ q _ => !raw q
  | .tCompute _ p => !raw p
  | _ => true

/-- Variable `p` gets status `b`. -/
def setRaw (raw : ℕ → Bool) (p : ℕ) (b : Bool) : ℕ → Bool := fun k => if k = p then b else raw k

/-- Which point variables may be raw after the call: the methods that decode into `p`, and the inverse of the Lizard
encoding, which reduces the coordinates of its receiver in place, make it raw; copies, negation and conditional copies pass the
status on; every other method that sets `p` clears it. -/
def rawAfter (raw : ℕ → Bool) : Cmd → ℕ → Bool
  | .pSetBytes p _ | .pUnmarshalBinary p _ | .pUnmarshalText p _ | .pLizard p | .pLizardInto p _ => setRaw raw p true
  | .pSet p q | .pNeg p q => setRaw raw p (raw q)
  | .pCondSet p q _ => setRaw raw p (raw p || raw q)
  | .pZero p | .pBase p | .pAdd p _ _ | .pDouble p _ | .pSub p _ _ | .pSetElligator p _ | .pRand p _ | .pDerive p _
  | .pDeriveDalek p _ | .pSetLizard p _ | .pScalarMult p _ _ | .pPublicScalarMult p _ _ | .pScalarMultBase p _
  | .pPublicScalarMultBase p _ | .pScalarMultTable p _ _ | .pPublicScalarMultTable p _ _ => setRaw raw p false
  | _ => raw

/-- Every call of the program is allowed. -/
def SafeFrom : (ℕ → Bool) → List Cmd → Bool
  | _, [] => true
  | raw, c :: cs => allowedCall raw c && SafeFrom (rawAfter raw c) cs

/-- Every call of the program is allowed, starting from blank variables. -/
def Safe (prog : List Cmd) : Bool := SafeFrom (fun _ => false) prog

end Ristretto
