import Verif.Spec.Repr
import Verif.Model.Field25

/-!
# What the limbs of the generic field implementation stand for
-/

namespace Ristretto
set_option autoImplicit false
open Model

/-- The integer ten limbs stand for: limb `i` has weight `2^⌈25.5 i⌉` (field_generic.go:173-174). -/
def feInt25 (a : Fe25) : ℤ :=
  a.l0.toInt + 2 ^ 26 * a.l1.toInt + 2 ^ 51 * a.l2.toInt + 2 ^ 77 * a.l3.toInt + 2 ^ 102 * a.l4.toInt +
  2 ^ 128 * a.l5.toInt + 2 ^ 153 * a.l6.toInt + 2 ^ 179 * a.l7.toInt + 2 ^ 204 * a.l8.toInt +
  2 ^ 230 * a.l9.toInt

/-- The field element ten limbs stand for. -/
def feVal25 (a : Fe25) : Fp := (feInt25 a : Fp)

/-- The limbs of even index are at most `B` and those of odd index at most `C`, in absolute value. -/
def Limbs25 (B C : ℕ) (a : Fe25) : Prop :=
  (-B ≤ a.l0.toInt ∧ a.l0.toInt ≤ B) ∧ (-C ≤ a.l1.toInt ∧ a.l1.toInt ≤ C) ∧
  (-B ≤ a.l2.toInt ∧ a.l2.toInt ≤ B) ∧ (-C ≤ a.l3.toInt ∧ a.l3.toInt ≤ C) ∧
  (-B ≤ a.l4.toInt ∧ a.l4.toInt ≤ B) ∧ (-C ≤ a.l5.toInt ∧ a.l5.toInt ≤ C) ∧
  (-B ≤ a.l6.toInt ∧ a.l6.toInt ≤ B) ∧ (-C ≤ a.l7.toInt ∧ a.l7.toInt ≤ C) ∧
  (-B ≤ a.l8.toInt ∧ a.l8.toInt ≤ B) ∧ (-C ≤ a.l9.toInt ∧ a.l9.toInt ≤ C)

instance (B C : ℕ) (a : Fe25) : Decidable (Limbs25 B C a) := by unfold Limbs25; infer_instance

/-- What `normalize`, `Mul`, `Square`, `DoubledSquare` and `SetBytes` return: limbs just above 25 and 24 bits
("1.01*2^25" and "1.01*2^24" in field_generic.go:164-165). -/
def Tight25 (a : Fe25) : Prop := Limbs25 (2 ^ 25) (2 ^ 24 + 2 ^ 16) a

instance (a : Fe25) : Decidable (Tight25 a) := by unfold Tight25; infer_instance

/-- The four coordinates are extended coordinates of the curve point `P`, with limbs up to `B` (even) and `C`
(odd). -/
structure IsPoint25 (B C : ℕ) (q : ExtPt Fe25) (P : EPoint) : Prop where
  limbX : Limbs25 B C q.X
  limbY : Limbs25 B C q.Y
  limbZ : Limbs25 B C q.Z
  limbT : Limbs25 B C q.T
  proj : Proj P (feVal25 q.X) (feVal25 q.Y) (feVal25 q.Z) (feVal25 q.T)

/-- The coordinates are extended coordinates of `P` with the small limbs that `Mul` returns. -/
abbrev IsTightPoint (q : ExtPt Fe25) (P : EPoint) : Prop := IsPoint25 (2 ^ 25) (2 ^ 24 + 2 ^ 16) q P

/-- The coordinates are extended coordinates of `P` with limbs of full width, as `BytesInto` leaves them. -/
abbrev IsWidePoint (q : ExtPt Fe25) (P : EPoint) : Prop := IsPoint25 (2 ^ 26) (2 ^ 26) q P

/-- The coordinates are extended coordinates of `P`, as the package `cref` keeps them: the limbs of `X` may be twice as
large as those a multiplication returns. -/
structure IsCrefPoint (q : ExtPt Fe25) (P : EPoint) : Prop where
  limbX : Limbs25 (2 * 2 ^ 25) (2 * (2 ^ 24 + 2 ^ 16)) q.X
  limbY : Tight25 q.Y
  limbZ : Tight25 q.Z
  limbT : Tight25 q.T
  proj : Proj P (feVal25 q.X) (feVal25 q.Y) (feVal25 q.Z) (feVal25 q.T)

/-- The largest limb for which `19 * limb` fits an `int32`: `⌊(2^31-1)/19⌋`. -/
def times19 : ℕ := 113025455

/-- `Y + X` and `Y - X` (as computed by the package) and `Z`, `T` have limbs that can be multiplied by 19. -/
def SecondOperand (q : ExtPt Fe25) : Prop :=
  Limbs25 times19 times19 (Fe25.add q.X q.Y) ∧ Limbs25 times19 times19 (Fe25.add q.Y q.X) ∧
  Limbs25 times19 times19 (Fe25.sub q.Y q.X) ∧ Limbs25 times19 times19 q.Z ∧ Limbs25 times19 times19 q.T

instance (q : ExtPt Fe25) : Decidable (SecondOperand q) := by unfold SecondOperand; infer_instance

/-- The Niels form `(y-x, y+x, 2dxy)` of the curve point `P`. -/
structure IsNielsPoint25 (q : NielsPt Fe25) (P : EPoint) : Prop where
  limbM : Limbs25 times19 times19 q.YMinusX
  limbP : Limbs25 times19 times19 q.YPlusX
  limbD : Limbs25 times19 times19 q.XY2D
  m : feVal25 q.YMinusX = P.y - P.x
  p : feVal25 q.YPlusX = P.y + P.x
  d : feVal25 q.XY2D = 2 * d * P.x * P.y

end Ristretto
