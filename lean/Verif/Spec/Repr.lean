import Verif.Spec.Abstract
import Verif.Spec.Proj
import Verif.Model.Curve

/-!
# What the values of the package stand for

The relation between the data structures of the 64-bit build (five 51-bit limbs per coordinate) and
the mathematical objects.
-/

namespace Ristretto
set_option autoImplicit false
open Model

/-- The integer five limbs stand for (field_radix51.go:7-9). -/
def feNat (a : Fe51) : ℕ :=
  a.l0.toNat + 2 ^ 51 * a.l1.toNat + 2 ^ 102 * a.l2.toNat + 2 ^ 153 * a.l3.toNat + 2 ^ 204 * a.l4.toNat

/-- The field element five limbs stand for. -/
def feVal (a : Fe51) : Fp := (feNat a : Fp)

/-- Every limb is at most `B`. -/
def LimbsLe (B : ℕ) (a : Fe51) : Prop :=
  a.l0.toNat ≤ B ∧ a.l1.toNat ≤ B ∧ a.l2.toNat ≤ B ∧ a.l3.toNat ≤ B ∧ a.l4.toNat ≤ B

/-- The largest limb of a coordinate of a point between API calls. -/
def ptLimb : ℕ := 2 ^ 52 + 2 ^ 19

/-- The four coordinates are extended coordinates of the curve point `P`, with small limbs. -/
structure IsPoint (q : ExtPt Fe51) (P : EPoint) : Prop where
  limbX : LimbsLe ptLimb q.X
  limbY : LimbsLe ptLimb q.Y
  limbZ : LimbsLe ptLimb q.Z
  limbT : LimbsLe ptLimb q.T
  proj : Proj P (feVal q.X) (feVal q.Y) (feVal q.Z) (feVal q.T)

/-- `q` is a valid point whose Ristretto class is `g`. -/
def Represents (q : ExtPt Fe51) (g : RGroup) : Prop := ∃ (P : EPoint) (hP : P ∈ Even), IsPoint q P ∧ cls P hP = g

/-- The Niels form `(y-x, y+x, 2dxy)` of the curve point `P`, with small limbs. -/
structure IsNielsPoint (q : NielsPt Fe51) (P : EPoint) : Prop where
  limbM : LimbsLe ptLimb q.YMinusX
  limbP : LimbsLe ptLimb q.YPlusX
  limbD : LimbsLe ptLimb q.XY2D
  m : feVal q.YMinusX = P.y - P.x
  p : feVal q.YPlusX = P.y + P.x
  d : feVal q.XY2D = 2 * d * P.x * P.y

/-- `t` is a `ScalarMultTable` for the curve point `P`: the entry of row `i` and column `j` is the
Niels form of `(j+1) 256^i P`. -/
def IsTableOf (t : Table Fe51) (P : EPoint) : Prop :=
  t.length = 32 ∧ ∀ i row, t[i]? = some row → row.length = 8 ∧
    ∀ j n, row[j]? = some n → IsNielsPoint n (((j + 1) * 256 ^ i) • P)

/-- `t` is a table for a point whose Ristretto class is `g`. -/
def TableOf (t : Table Fe51) (g : RGroup) : Prop := ∃ (P : EPoint) (hP : P ∈ Even), IsTableOf t P ∧ cls P hP = g

end Ristretto
