import Verif.Spec.Ristretto

/-!
# The Elligator map to the Ristretto group

The one-way map of RFC 9496, section 4.3.4, on a field element `r0`.  With `r = i r0²`,
`N = (1 - d²)(r + 1)` and `D = -(d r + 1)(r + d)` the map picks a point `(s, t)`:

* if `D = 0`: `(0, -1)`;
* otherwise, if `N / D` is a square: `s = |sqrt(N/D)|`, `t = -(r-1)(d-1)²/D - 1`;
* otherwise: `s = -|sqrt(r N/D)|`, `t = r(r-1)(d-1)²/D - 1`

and from it the point of the curve with `x = 2 s / (t sqrt(-d-1))`, `y = (1 - s²)/(1 + s²)`,
where `eC = 1 / sqrt(-d-1)`.
-/

namespace Ristretto
set_option autoImplicit false

/-- Numerator of the square of `s`. -/
def ellN (r : Fp) : Fp := (1 - d * d) * (r + 1)

/-- Denominator of the square of `s`. -/
def ellD (r : Fp) : Fp := -((d * r + 1) * (r + d))

/-- The pair `(s, t)` chosen by Elligator. -/
def ElligatorJac (r0 s t : Fp) : Prop :=
  let r := sqrtM1 * (r0 * r0)
  (ellD r = 0 ∧ s = 0 ∧ t = -1) ∨
  (ellD r ≠ 0 ∧ IsSquare (ellN r / ellD r) ∧ ¬ IsNeg s ∧ s * s = ellN r / ellD r ∧
    t = -((r - 1) * (d - 1) ^ 2) / ellD r - 1) ∨
  (ellD r ≠ 0 ∧ ¬ IsSquare (ellN r / ellD r) ∧ ¬ IsNeg (-s) ∧ s * s = r * ellN r / ellD r ∧
    t = r * ((r - 1) * (d - 1) ^ 2) / ellD r - 1)

/-- The point of the curve belonging to `(s, t)`. -/
def OfJac (s t : Fp) (P : EPoint) : Prop :=
  P.x * t = 2 * s * eC ∧ P.y * (1 + s * s) = 1 - s * s

/-- The Elligator map sends `r0` to the class of `P`. -/
def Elligator (r0 : Fp) (P : EPoint) : Prop := ∃ s t, ElligatorJac r0 s t ∧ OfJac s t P

/-- The Jacobi quartic `(1 + d) t² = d (1 - s²)² + (1 + s²)²`. -/
def OnJac (s t : Fp) : Prop :=
  (1 + d) * (t * t) = d * (1 - s * s) ^ 2 + (1 + s * s) ^ 2

end Ristretto
