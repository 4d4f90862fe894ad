import Verif.Spec.Order

/-!
# The Ristretto encoding

A Ristretto element is a coset `P + E[4]` of even points of Edwards25519.  Its encoding is the
field element `s = |sqrt((1-y)/(1+y))|` computed from the representative `(x, y)` of the coset for
which `x` and `x*y` are nonnegative, `y ≠ 0` and `y ≠ -1`; as bytes: `s` in little endian.
-/

namespace Ristretto
set_option autoImplicit false

/-- `s` is the Ristretto encoding of the coset of `P`. -/
def Enc (P : EPoint) (s : Fp) : Prop :=
  ∃ Q : EPoint, Q - P ∈ E4 ∧ ¬ IsNeg Q.x ∧ ¬ IsNeg (Q.x * Q.y) ∧ Q.y ≠ 0 ∧ ¬ IsNeg s ∧
    s * s * (1 + Q.y) = 1 - Q.y

end Ristretto
