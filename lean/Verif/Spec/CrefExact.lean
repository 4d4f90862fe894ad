import Verif.Spec.CrefMachine
import Verif.Model.CrefCoords

/-!
# cref.c read over the field

The functions of cref.c are written in terms of the functions on `fe25519`.  Here these are the exact operations of
GF(2^255-19), instead of operations on limbs.
-/

namespace Ristretto
set_option autoImplicit false
open Model Model.Cref

/-- Exact field arithmetic. -/
noncomputable instance : CrefOps Fp where
  zero := 0
  one := 1
  sqrtm1 := sqrtM1
  m1 := -1
  ecd := d
  ec2d := 2 * d
  magic := eC
  add a b := a + b
  sub a b := a - b
  neg a := -a
  mul a b := a * b
  square a := a * a
  squareDouble a := 2 * (a * a)
  cmov a b c := if c = 0 then a else b
  pack a := feBytes a
  unpack b := feOfBytes b

/-- Variables that were never set. -/
noncomputable def exactInit : CMem Fp := ⟨fun _ => 0, fun _ => ⟨0, 0, 0, 0⟩, fun _ => Vector.replicate 32 0⟩

end Ristretto
