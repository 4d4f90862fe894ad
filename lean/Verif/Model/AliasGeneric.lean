import Verif.Model.Field25

/-!
# Field operations of the generic build that write through pointers

As in `Verif.Model.Alias`, for field_generic.go: loads and stores of limbs in the order of the statements, on a memory of field elements
whose addresses may coincide.
-/

set_option autoImplicit false

namespace Ristretto.Model.Alias25

/-- The field elements in memory, by address. -/
abbrev Mem25 := Nat → Fe25

/-- Limb `i`. -/
def limb25 (x : Fe25) : Nat → Int32
  | 0 => x.l0
  | 1 => x.l1
  | 2 => x.l2
  | 3 => x.l3
  | 4 => x.l4
  | 5 => x.l5
  | 6 => x.l6
  | 7 => x.l7
  | 8 => x.l8
  | _ => x.l9

/-- A field element with limb `i` replaced. -/
def setLimb25 (x : Fe25) (i : Nat) (v : Int32) : Fe25 :=
  match i with
  | 0 => { x with l0 := v }
  | 1 => { x with l1 := v }
  | 2 => { x with l2 := v }
  | 3 => { x with l3 := v }
  | 4 => { x with l4 := v }
  | 5 => { x with l5 := v }
  | 6 => { x with l6 := v }
  | 7 => { x with l7 := v }
  | 8 => { x with l8 := v }
  | _ => { x with l9 := v }

/-- Load `a[i]`. -/
def rd25 (m : Mem25) (a i : Nat) : Int32 := limb25 (m a) i
/-- Store `a[i] = v`. -/
def wr25 (m : Mem25) (a i : Nat) (v : Int32) : Mem25 := fun x => if x = a then setLimb25 (m x) i v else m x

/-- `FieldElement.Neg` (field_generic.go:101-113). -/
def negI25 (fe a : Nat) (m : Mem25) : Mem25 :=
  let m := wr25 m fe 0 (-rd25 m a 0)
  let m := wr25 m fe 1 (-rd25 m a 1)
  let m := wr25 m fe 2 (-rd25 m a 2)
  let m := wr25 m fe 3 (-rd25 m a 3)
  let m := wr25 m fe 4 (-rd25 m a 4)
  let m := wr25 m fe 5 (-rd25 m a 5)
  let m := wr25 m fe 6 (-rd25 m a 6)
  let m := wr25 m fe 7 (-rd25 m a 7)
  let m := wr25 m fe 8 (-rd25 m a 8)
  wr25 m fe 9 (-rd25 m a 9)

/-- `FieldElement.add` (field_generic.go:116-128). -/
def addI25 (fe a b : Nat) (m : Mem25) : Mem25 :=
  let m := wr25 m fe 0 (rd25 m a 0 + rd25 m b 0)
  let m := wr25 m fe 1 (rd25 m a 1 + rd25 m b 1)
  let m := wr25 m fe 2 (rd25 m a 2 + rd25 m b 2)
  let m := wr25 m fe 3 (rd25 m a 3 + rd25 m b 3)
  let m := wr25 m fe 4 (rd25 m a 4 + rd25 m b 4)
  let m := wr25 m fe 5 (rd25 m a 5 + rd25 m b 5)
  let m := wr25 m fe 6 (rd25 m a 6 + rd25 m b 6)
  let m := wr25 m fe 7 (rd25 m a 7 + rd25 m b 7)
  let m := wr25 m fe 8 (rd25 m a 8 + rd25 m b 8)
  wr25 m fe 9 (rd25 m a 9 + rd25 m b 9)

/-- `FieldElement.sub` (field_generic.go:131-143). -/
def subI25 (fe a b : Nat) (m : Mem25) : Mem25 :=
  let m := wr25 m fe 0 (rd25 m a 0 - rd25 m b 0)
  let m := wr25 m fe 1 (rd25 m a 1 - rd25 m b 1)
  let m := wr25 m fe 2 (rd25 m a 2 - rd25 m b 2)
  let m := wr25 m fe 3 (rd25 m a 3 - rd25 m b 3)
  let m := wr25 m fe 4 (rd25 m a 4 - rd25 m b 4)
  let m := wr25 m fe 5 (rd25 m a 5 - rd25 m b 5)
  let m := wr25 m fe 6 (rd25 m a 6 - rd25 m b 6)
  let m := wr25 m fe 7 (rd25 m a 7 - rd25 m b 7)
  let m := wr25 m fe 8 (rd25 m a 8 - rd25 m b 8)
  wr25 m fe 9 (rd25 m a 9 - rd25 m b 9)

/-- `FieldElement.ConditionalSet` (field_generic.go:236-248). -/
def condSetI25 (fe a : Nat) (b : Int32) (m : Mem25) : Mem25 :=
  let b := -b
  let m := wr25 m fe 0 (rd25 m fe 0 ^^^ (b &&& (rd25 m fe 0 ^^^ rd25 m a 0)))
  let m := wr25 m fe 1 (rd25 m fe 1 ^^^ (b &&& (rd25 m fe 1 ^^^ rd25 m a 1)))
  let m := wr25 m fe 2 (rd25 m fe 2 ^^^ (b &&& (rd25 m fe 2 ^^^ rd25 m a 2)))
  let m := wr25 m fe 3 (rd25 m fe 3 ^^^ (b &&& (rd25 m fe 3 ^^^ rd25 m a 3)))
  let m := wr25 m fe 4 (rd25 m fe 4 ^^^ (b &&& (rd25 m fe 4 ^^^ rd25 m a 4)))
  let m := wr25 m fe 5 (rd25 m fe 5 ^^^ (b &&& (rd25 m fe 5 ^^^ rd25 m a 5)))
  let m := wr25 m fe 6 (rd25 m fe 6 ^^^ (b &&& (rd25 m fe 6 ^^^ rd25 m a 6)))
  let m := wr25 m fe 7 (rd25 m fe 7 ^^^ (b &&& (rd25 m fe 7 ^^^ rd25 m a 7)))
  let m := wr25 m fe 8 (rd25 m fe 8 ^^^ (b &&& (rd25 m fe 8 ^^^ rd25 m a 8)))
  wr25 m fe 9 (rd25 m fe 9 ^^^ (b &&& (rd25 m fe 9 ^^^ rd25 m a 9)))

/-- The stores that end `setReduced` (field_generic.go:220-229); before them it only has local variables. -/
def storeI25 (fe : Nat) (v : Fe25) (m : Mem25) : Mem25 :=
  let m := wr25 m fe 0 (v.l0)
  let m := wr25 m fe 1 (v.l1)
  let m := wr25 m fe 2 (v.l2)
  let m := wr25 m fe 3 (v.l3)
  let m := wr25 m fe 4 (v.l4)
  let m := wr25 m fe 5 (v.l5)
  let m := wr25 m fe 6 (v.l6)
  let m := wr25 m fe 7 (v.l7)
  let m := wr25 m fe 8 (v.l8)
  wr25 m fe 9 (v.l9)

/-- `FieldElement.normalize` (field_generic.go:166-171): the limbs are loaded as arguments of `setReduced`. -/
def normalizeI25 (fe : Nat) (m : Mem25) : Mem25 :=
  storeI25 fe (Fe25.setReduced (rd25 m fe 0).toInt64 (rd25 m fe 1).toInt64 (rd25 m fe 2).toInt64 (rd25 m fe 3).toInt64 (rd25 m fe 4).toInt64 (rd25 m fe 5).toInt64 (rd25 m fe 6).toInt64 (rd25 m fe 7).toInt64 (rd25 m fe 8).toInt64 (rd25 m fe 9).toInt64) m
/-- `FieldElement.Mul` (field_generic.go:351-402): local variables until `setReduced`. -/
def mulI25 (fe a b : Nat) (m : Mem25) : Mem25 := storeI25 fe (Fe25.mul (m a) (m b)) m
/-- `FieldElement.Square` (field_generic.go:445-448); see `mulI25`. -/
def squareI25 (fe a : Nat) (m : Mem25) : Mem25 := storeI25 fe (Fe25.square (m a)) m
/-- `FieldElement.DoubledSquare` (field_generic.go:451-464); see `mulI25`. -/
def doubledSquareI25 (fe a : Nat) (m : Mem25) : Mem25 := storeI25 fe (Fe25.doubledSquare (m a)) m
/-- `FieldElement.Add` (field.go:35-37). -/
def feAddI25 (fe a b : Nat) (m : Mem25) : Mem25 := normalizeI25 fe (addI25 fe a b m)
/-- `FieldElement.Sub` (field.go:40-42). -/
def feSubI25 (fe a b : Nat) (m : Mem25) : Mem25 := normalizeI25 fe (subI25 fe a b m)

end Ristretto.Model.Alias25
