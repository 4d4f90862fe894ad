import Verif.Model.Machine

/-!
# The default field arithmetic with checks for wraparound (edwards25519/field_radix51.go, field_mul64.go)

In Go, unsigned arithmetic that leaves the range of `uint64` wraps around silently.  Here the functions of
Model/Field51 are written once more, statement by statement, on words that remember whether an operation on the way to
them lost something (`ok = false`):

* an addition, subtraction or multiplication of `uint64`s whose exact result is negative or at least `2^64`;
* a `<<` that shifts a bit out;
* a `bits.Add64` whose carry the code drops (`ch, _ = bits.Add64(…)`) although it is 1.

`bits.Mul64` returns both halves of the product and loses nothing.  Not checked, because they lose bits on purpose: the
masks `& 0x7ffffffffffff`, the conversions to `byte` in `BytesInto`, and the mask `uint64(1-b) - 1` of
`ConditionalSet`.  `SetBytes` has only shifts and `|`, no arithmetic; it is taken over unchecked.
-/

namespace Ristretto.Model
set_option autoImplicit false

/-- A `uint64`, and whether the operations that led to it lost nothing. -/
structure W where
  val : UInt64
  ok : Bool
deriving DecidableEq, Repr

namespace W

/-- A word that was computed before. -/
def of (x : UInt64) : W := ⟨x, true⟩

instance {n : Nat} : OfNat W n := ⟨of (OfNat.ofNat n)⟩
/-- `a + b` is exact when the sum is less than `2^64`. -/
instance : Add W := ⟨fun a b => ⟨a.val + b.val, a.ok && b.ok && decide (a.val.toNat + b.val.toNat < 2 ^ 64)⟩⟩
/-- `a - b` is exact when `b ≤ a`. -/
instance : Sub W := ⟨fun a b => ⟨a.val - b.val, a.ok && b.ok && decide (b.val.toNat ≤ a.val.toNat)⟩⟩
/-- `a * b` is exact when the product is less than `2^64`. -/
instance : Mul W := ⟨fun a b => ⟨a.val * b.val, a.ok && b.ok && decide (a.val.toNat * b.val.toNat < 2 ^ 64)⟩⟩
instance : ShiftRight W := ⟨fun a b => ⟨a.val >>> b.val, a.ok && b.ok⟩⟩
/-- `a << b` is exact when `a * 2^b` is less than `2^64`. -/
instance : ShiftLeft W := ⟨fun a b => ⟨a.val <<< b.val, a.ok && b.ok && decide (a.val.toNat * 2 ^ b.val.toNat < 2 ^ 64)⟩⟩
instance : AndOp W := ⟨fun a b => ⟨a.val &&& b.val, a.ok && b.ok⟩⟩
instance : OrOp W := ⟨fun a b => ⟨a.val ||| b.val, a.ok && b.ok⟩⟩

/-- `bits.Mul64` (field_mul64.go, throughout): nothing is lost. -/
def mul64 (x y : W) : W × W :=
  (⟨(bitsMul64 x.val y.val).1, x.ok && y.ok⟩, ⟨(bitsMul64 x.val y.val).2, x.ok && y.ok⟩)

/-- `sum, carry = bits.Add64(x, y, c)` (field_mul64.go, throughout): nothing is lost. -/
def add64 (x y c : W) : W × W :=
  (⟨(bitsAdd64 x.val y.val c.val).1, x.ok && y.ok && c.ok⟩, ⟨(bitsAdd64 x.val y.val c.val).2, x.ok && y.ok && c.ok⟩)

/-- `sum, _ = bits.Add64(x, y, c)` (field_mul64.go, throughout): the carry is dropped and must be 0. -/
def add64Drop (x y c : W) : W :=
  ⟨(bitsAdd64 x.val y.val c.val).1, x.ok && y.ok && c.ok && decide ((bitsAdd64 x.val y.val c.val).2 = 0)⟩

/-- The three-line pattern of `mulAcc` (field_mul64.go, e.g. lines 32-34). -/
def mulAcc (acc : W × W) (x y : W) : W × W :=
  let hl := mul64 x y
  let s := add64 acc.2 hl.2 0
  let s' := add64Drop acc.1 hl.1 s.2
  (s', s.1)

/-- The two-line pattern of `carryAcc` (field_mul64.go, e.g. lines 59-60). -/
def carryAcc (prev acc : W × W) : W × W :=
  let s := add64 ((prev.2 >>> 51) ||| (prev.1 <<< 13)) acc.2 0
  let s' := add64Drop acc.1 0 s.2
  (s', s.1)

end W

/-- `type FieldElement [5]uint64` (edwards25519/field_radix51.go:8), with a flag per limb. -/
structure WFe where
  l0 : W
  l1 : W
  l2 : W
  l3 : W
  l4 : W
deriving DecidableEq, Repr

namespace WFe
open W (mul64)

/-- The limbs. -/
def val (a : WFe) : Fe51 := ⟨a.l0.val, a.l1.val, a.l2.val, a.l3.val, a.l4.val⟩
/-- Nothing was lost on the way to any of the limbs. -/
def ok (a : WFe) : Bool := a.l0.ok && a.l1.ok && a.l2.ok && a.l3.ok && a.l4.ok
/-- An operand. -/
def of (a : Fe51) : WFe := ⟨.of a.l0, .of a.l1, .of a.l2, .of a.l3, .of a.l4⟩

/-- The carry chain of `Neg` (field_radix51.go:106-115), `sub` (:131-140) and `setReduced` (:170-179). -/
def carryChain (t : WFe) : WFe :=
  let t1 := t.l1 + (t.l0 >>> 51)
  let t0 := t.l0 &&& 0x7ffffffffffff
  let t2 := t.l2 + (t1 >>> 51)
  let t1 := t1 &&& 0x7ffffffffffff
  let t3 := t.l3 + (t2 >>> 51)
  let t2 := t2 &&& 0x7ffffffffffff
  let t4 := t.l4 + (t3 >>> 51)
  let t3 := t3 &&& 0x7ffffffffffff
  let t0 := t0 + (t4 >>> 51) * 19
  let t4 := t4 &&& 0x7ffffffffffff
  ⟨t0, t1, t2, t3, t4⟩

/-- `FieldElement.Neg` (field_radix51.go:102-124). -/
def neg (a : WFe) : WFe :=
  let t := carryChain a
  ⟨0xfffffffffffda - t.l0, 0xffffffffffffe - t.l1, 0xffffffffffffe - t.l2,
    0xffffffffffffe - t.l3, 0xffffffffffffe - t.l4⟩

/-- `FieldElement.sub` (field_radix51.go:127-149). -/
def sub (a b : WFe) : WFe :=
  let t := carryChain b
  ⟨(a.l0 + 0xfffffffffffda) - t.l0, (a.l1 + 0xffffffffffffe) - t.l1,
    (a.l2 + 0xffffffffffffe) - t.l2, (a.l3 + 0xffffffffffffe) - t.l3,
    (a.l4 + 0xffffffffffffe) - t.l4⟩

/-- `FieldElement.add` (field_radix51.go:152-159). -/
def add (a b : WFe) : WFe :=
  ⟨a.l0 + b.l0, a.l1 + b.l1, a.l2 + b.l2, a.l3 + b.l3, a.l4 + b.l4⟩

/-- `FieldElement.setReduced` (field_radix51.go:167-200); `normalize` (:162-164) is this, and `BytesInto`
(:213-254) begins with it. -/
def setReduced (a : WFe) : WFe :=
  let f := carryChain a
  let c := (f.l0 + 19) >>> 51
  let c := (f.l1 + c) >>> 51
  let c := (f.l2 + c) >>> 51
  let c := (f.l3 + c) >>> 51
  let c := (f.l4 + c) >>> 51
  let f0 := f.l0 + 19 * c
  let f1 := f.l1 + (f0 >>> 51)
  let f0 := f0 &&& 0x7ffffffffffff
  let f2 := f.l2 + (f1 >>> 51)
  let f1 := f1 &&& 0x7ffffffffffff
  let f3 := f.l3 + (f2 >>> 51)
  let f2 := f2 &&& 0x7ffffffffffff
  let f4 := f.l4 + (f3 >>> 51)
  let f3 := f3 &&& 0x7ffffffffffff
  let f4 := f4 &&& 0x7ffffffffffff
  ⟨f0, f1, f2, f3, f4⟩

/-- `FieldElement.Mul` (field_mul64.go:11-129). -/
def mul (a b : WFe) : WFe :=
  let a0 := a.l0
  let a1 := a.l1
  let a2 := a.l2
  let a3 := a.l3
  let a4 := a.l4
  let b0 := b.l0
  let b1 := b.l1
  let b2 := b.l2
  let b3 := b.l3
  let b4 := b.l4
  let b1_19 := b1 * 19
  let b2_19 := b2 * 19
  let b3_19 := b3 * 19
  let b4_19 := b4 * 19
  let c0 := W.mulAcc (W.mulAcc (W.mulAcc (W.mulAcc (mul64 b0 a0) b1_19 a4) b2_19 a3) b3_19 a2) b4_19 a1
  let c1 := W.mulAcc (W.mulAcc (W.mulAcc (W.mulAcc (mul64 b0 a1) b1 a0) b2_19 a4) b3_19 a3) b4_19 a2
  let c1 := W.carryAcc c0 c1
  let c0l := c0.2 &&& 0x7ffffffffffff
  let c2 := W.mulAcc (W.mulAcc (W.mulAcc (W.mulAcc (mul64 b0 a2) b1 a1) b2 a0) b3_19 a4) b4_19 a3
  let c2 := W.carryAcc c1 c2
  let c1l := c1.2 &&& 0x7ffffffffffff
  let c3 := W.mulAcc (W.mulAcc (W.mulAcc (W.mulAcc (mul64 b0 a3) b1 a2) b2 a1) b3 a0) b4_19 a4
  let c3 := W.carryAcc c2 c3
  let c2l := c2.2 &&& 0x7ffffffffffff
  let c4 := W.mulAcc (W.mulAcc (W.mulAcc (W.mulAcc (mul64 b0 a4) b1 a3) b2 a2) b3 a1) b4 a0
  let c4 := W.carryAcc c3 c4
  let c3l := c3.2 &&& 0x7ffffffffffff
  let carry := (c4.2 >>> 51) ||| (c4.1 <<< 13)
  let c4l := c4.2 &&& 0x7ffffffffffff
  let c0l := c0l + carry * 19
  let c1l := c1l + (c0l >>> 51)
  let c0l := c0l &&& 0x7ffffffffffff
  ⟨c0l, c1l, c2l, c3l, c4l⟩

/-- `FieldElement.Square` (field_mul64.go:132-211). -/
def square (a : WFe) : WFe :=
  let a0 := a.l0
  let a1 := a.l1
  let a2 := a.l2
  let a3 := a.l3
  let a4 := a.l4
  let a4_38 := a4 * 38
  let c0 := W.mulAcc (W.mulAcc (mul64 a0 a0) (a4 * 38) a1) (a2 * 38) a3
  let c1 := W.mulAcc (W.mulAcc (mul64 (2 * a0) a1) a2 a4_38) (a3 * 19) a3
  let c1 := W.carryAcc c0 c1
  let c0l := c0.2 &&& 0x7ffffffffffff
  let c2 := W.mulAcc (W.mulAcc (mul64 a0 (2 * a2)) a1 a1) a4_38 a3
  let c2 := W.carryAcc c1 c2
  let c1l := c1.2 &&& 0x7ffffffffffff
  let c3 := W.mulAcc (W.mulAcc (mul64 a0 (2 * a3)) (2 * a1) a2) (a4 * 19) a4
  let c3 := W.carryAcc c2 c3
  let c2l := c2.2 &&& 0x7ffffffffffff
  let c4 := W.mulAcc (W.mulAcc (mul64 a0 (2 * a4)) a2 a2) a3 (2 * a1)
  let c4 := W.carryAcc c3 c4
  let c3l := c3.2 &&& 0x7ffffffffffff
  let carry := (c4.2 >>> 51) ||| (c4.1 <<< 13)
  let c0l := c0l + carry * 19
  let c4l := c4.2 &&& 0x7ffffffffffff
  let c1l := c1l + (c0l >>> 51)
  let c0l := c0l &&& 0x7ffffffffffff
  ⟨c0l, c1l, c2l, c3l, c4l⟩

/-- `FieldElement.DoubledSquare` (field_mul64.go:214-297). -/
def doubledSquare (a : WFe) : WFe :=
  let a0 := a.l0
  let a1 := a.l1
  let a2 := a.l2
  let a3 := a.l3
  let a4 := a.l4
  let a0_2 := a0 * 2
  let a1_2 := a1 * 2
  let a2_2 := a2 * 2
  let a3_38 := a3 * 38
  let a4_38 := a4 * 38
  let c0 := W.mulAcc (W.mulAcc (mul64 a0 a0_2) a4_38 a1_2) a2_2 a3_38
  let c1 := W.mulAcc (W.mulAcc (mul64 a0_2 a1_2) a2_2 a4_38) a3_38 a3
  let c1 := W.carryAcc c0 c1
  let c0l := c0.2 &&& 0x7ffffffffffff
  let c2 := W.mulAcc (W.mulAcc (mul64 a0_2 a2_2) a1_2 a1) a4_38 (a3 * 2)
  let c2 := W.carryAcc c1 c2
  let c1l := c1.2 &&& 0x7ffffffffffff
  let c3 := W.mulAcc (W.mulAcc (mul64 a0_2 (2 * a3)) a1_2 a2_2) a4_38 a4
  let c3 := W.carryAcc c2 c3
  let c2l := c2.2 &&& 0x7ffffffffffff
  let c4 := W.mulAcc (W.mulAcc (mul64 a0_2 (2 * a4)) a2_2 a2) (2 * a3) a1_2
  let c4 := W.carryAcc c3 c4
  let c3l := c3.2 &&& 0x7ffffffffffff
  let carry := (c4.2 >>> 51) ||| (c4.1 <<< 13)
  let c0l := c0l + carry * 19
  let c4l := c4.2 &&& 0x7ffffffffffff
  let c1l := c1l + (c0l >>> 51)
  let c0l := c0l &&& 0x7ffffffffffff
  ⟨c0l, c1l, c2l, c3l, c4l⟩

end WFe

/-- A field element of a run with checks: `none` once something was lost on the way to it.  `junk` stands for whatever
is read from such an element. -/
def Fe51W (_junk : Bytes 32) : Type := Option Fe51

/-- The result of a checked function. -/
def WFe.get (a : WFe) : Option Fe51 := if a.ok then some a.val else none

namespace Fe51W
variable {junk : Bytes 32}

/-- An element that was computed without loss. -/
def fine (a : Fe51) : Fe51W junk := some a

/-- Call a checked function. -/
def map (f : WFe → WFe) (a : Fe51W junk) : Fe51W junk := Option.bind a fun a => (f (.of a)).get
/-- Call a checked function. -/
def map₂ (f : WFe → WFe → WFe) (a b : Fe51W junk) : Fe51W junk :=
  Option.bind a fun a => Option.bind b fun b => (f (.of a) (.of b)).get

/-- `BytesInto` (field_radix51.go:213-254): junk if something was lost before or in `setReduced`. -/
def bytes (a : Fe51W junk) : Bytes 32 :=
  match (map WFe.setReduced a : Option Fe51), (a : Option Fe51) with
  | some _, some a => Fe51.bytes a
  | _, _ => junk

/-- `ConditionalSet` (field_radix51.go:203-210): with 0 and 1 the limbs that are not chosen have no influence. -/
def condSet (a b : Fe51W junk) (c : Int32) : Fe51W junk :=
  if c = 0 then a else if c = 1 then b else Option.bind a fun a => Option.bind b fun b => some (Fe51.condSet a b c)

/-- The default backend (field_radix51.go, field_mul64.go) with checks. -/
instance : FieldOps (Fe51W junk) where
  feZero := fine FieldOps.feZero
  feOne := fine FieldOps.feOne
  feMinusOne := fine FieldOps.feMinusOne
  feI := fine FieldOps.feI
  feMinusI := fine FieldOps.feMinusI
  feD := fine FieldOps.feD
  fe2D := fine FieldOps.fe2D
  feInvSqrtMinusDMinusOne := fine FieldOps.feInvSqrtMinusDMinusOne
  feDoubleInvSqrtMinusDMinusOne := fine FieldOps.feDoubleInvSqrtMinusDMinusOne
  feDoubleIInvSqrtMinusDMinusOne := fine FieldOps.feDoubleIInvSqrtMinusDMinusOne
  feDMinusOneSquared := fine FieldOps.feDMinusOneSquared
  feOneMinusDSquared := fine FieldOps.feOneMinusDSquared
  feDp1OverDm1 := fine FieldOps.feDp1OverDm1
  feSqrtID := fine FieldOps.feSqrtID
  feInvSqrt1pD := fine FieldOps.feInvSqrt1pD
  epBaseX := fine FieldOps.epBaseX
  epBaseY := fine FieldOps.epBaseY
  epBaseT := fine FieldOps.epBaseT
  add := map₂ WFe.add
  sub := map₂ WFe.sub
  neg := map WFe.neg
  normalize := map WFe.setReduced
  mul := map₂ WFe.mul
  square := map WFe.square
  doubledSquare := map WFe.doubledSquare
  condSet := condSet
  bytes := bytes
  touch := id
  setBytes b := fine (Fe51.setBytes b)

/-- Nothing was lost on the way to the element. -/
def isFine (a : Fe51W junk) : Bool := Option.isSome a
/-- Nothing was lost on the way to the coordinates. -/
def ptFine (q : ExtPt (Fe51W junk)) : Bool := q.X.isFine && q.Y.isFine && q.Z.isFine && q.T.isFine
/-- Nothing was lost on the way to the table entry. -/
def nielsFine (q : NielsPt (Fe51W junk)) : Bool := q.YPlusX.isFine && q.YMinusX.isFine && q.XY2D.isFine
/-- Nothing was lost on the way to the table. -/
def tabFine (t : Table (Fe51W junk)) : Bool := t.all fun row => row.all nielsFine

/-- The table of multiples of the base point, a constant (edwards25519/table_radix51.go). -/
def fineTab (t : Table Fe51) : Table (Fe51W junk) := t.map fun row => row.map fun e => ⟨fine e.YPlusX, fine e.YMinusX, fine e.XY2D⟩

end Fe51W

end Ristretto.Model
