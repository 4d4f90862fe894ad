import Verif.Model.Field25
import Verif.Model.Curve

/-!
# The generic field with checks for overflow (edwards25519/field_generic.go)

Go wraps around silently.  Here the functions of Model/Field25 are written once more on numbers that remember whether
something was lost on the way to them: a sum, difference, product or negation that does not fit into its type, a `<<`
that is not the multiplication by the power of two, a conversion to `int32` that changes the number.

`load3`, `load4`, the masks and the bytes written by `BytesInto` are not checked.
-/

namespace Ristretto.Model
set_option autoImplicit false

/-- An `int32`, and whether the operations that led to it stayed in range. -/
structure J32 where
  val : Int32
  ok : Bool
deriving DecidableEq

/-- An `int64`, and whether the operations that led to it stayed in range. -/
structure J64 where
  val : Int64
  ok : Bool
deriving DecidableEq

namespace J32
/-- A number that was computed before. -/
def of (x : Int32) : J32 := ⟨x, true⟩
/-- The result `x` of an operation whose exact value is `z`. -/
def exact (x : Int32) (z : Int) (ok : Bool) : J32 := ⟨x, ok && decide (x.toInt = z)⟩
instance {n : Nat} : OfNat J32 n := ⟨of (OfNat.ofNat n)⟩
instance : Add J32 := ⟨fun a b => exact (a.val + b.val) (a.val.toInt + b.val.toInt) (a.ok && b.ok)⟩
instance : Sub J32 := ⟨fun a b => exact (a.val - b.val) (a.val.toInt - b.val.toInt) (a.ok && b.ok)⟩
instance : Mul J32 := ⟨fun a b => exact (a.val * b.val) (a.val.toInt * b.val.toInt) (a.ok && b.ok)⟩
instance : Neg J32 := ⟨fun a => exact (-a.val) (-a.val.toInt) a.ok⟩
instance : ShiftLeft J32 := ⟨fun a b => exact (a.val <<< b.val) (a.val.toInt * 2 ^ b.val.toInt.toNat) (a.ok && b.ok)⟩
instance : ShiftRight J32 := ⟨fun a b => ⟨a.val >>> b.val, a.ok && b.ok⟩⟩
/-- The conversion `int64(x)`. -/
def to64 (a : J32) : J64 := ⟨a.val.toInt64, a.ok⟩
end J32

namespace J64
/-- A number that was computed before. -/
def of (x : Int64) : J64 := ⟨x, true⟩
/-- The result `x` of an operation whose exact value is `z`. -/
def exact (x : Int64) (z : Int) (ok : Bool) : J64 := ⟨x, ok && decide (x.toInt = z)⟩
instance {n : Nat} : OfNat J64 n := ⟨of (OfNat.ofNat n)⟩
instance : Add J64 := ⟨fun a b => exact (a.val + b.val) (a.val.toInt + b.val.toInt) (a.ok && b.ok)⟩
instance : Sub J64 := ⟨fun a b => exact (a.val - b.val) (a.val.toInt - b.val.toInt) (a.ok && b.ok)⟩
instance : Mul J64 := ⟨fun a b => exact (a.val * b.val) (a.val.toInt * b.val.toInt) (a.ok && b.ok)⟩
instance : ShiftLeft J64 := ⟨fun a b => exact (a.val <<< b.val) (a.val.toInt * 2 ^ b.val.toInt.toNat) (a.ok && b.ok)⟩
instance : ShiftRight J64 := ⟨fun a b => ⟨a.val >>> b.val, a.ok && b.ok⟩⟩
/-- The conversion `int32(x)`. -/
def to32 (a : J64) : J32 := J32.exact a.val.toInt32 a.val.toInt a.ok
end J64

/-- `FieldElement` (field_generic.go:8). -/
structure JFe where
  l0 : J32
  l1 : J32
  l2 : J32
  l3 : J32
  l4 : J32
  l5 : J32
  l6 : J32
  l7 : J32
  l8 : J32
  l9 : J32
deriving DecidableEq

namespace JFe

/-- The values of the limbs. -/
def val (a : JFe) : Fe25 := ⟨a.l0.val, a.l1.val, a.l2.val, a.l3.val, a.l4.val, a.l5.val, a.l6.val, a.l7.val, a.l8.val, a.l9.val⟩
/-- Nothing was lost. -/
def ok (a : JFe) : Bool := a.l0.ok && a.l1.ok && a.l2.ok && a.l3.ok && a.l4.ok && a.l5.ok && a.l6.ok && a.l7.ok && a.l8.ok && a.l9.ok
/-- A field element that was computed before. -/
def of (a : Fe25) : JFe := ⟨.of a.l0, .of a.l1, .of a.l2, .of a.l3, .of a.l4, .of a.l5, .of a.l6, .of a.l7, .of a.l8, .of a.l9⟩

/-- `FieldElement.Neg` (field_generic.go:101-113). -/
def neg (a : JFe) : JFe :=
  ⟨-a.l0, -a.l1, -a.l2, -a.l3, -a.l4, -a.l5, -a.l6, -a.l7, -a.l8, -a.l9⟩

/-- `FieldElement.add` (field_generic.go:116-128). -/
def add (a b : JFe) : JFe :=
  ⟨a.l0 + b.l0, a.l1 + b.l1, a.l2 + b.l2, a.l3 + b.l3, a.l4 + b.l4, a.l5 + b.l5, a.l6 + b.l6, a.l7 + b.l7, a.l8 + b.l8, a.l9 + b.l9⟩

/-- `FieldElement.sub` (field_generic.go:131-143). -/
def sub (a b : JFe) : JFe :=
  ⟨a.l0 - b.l0, a.l1 - b.l1, a.l2 - b.l2, a.l3 - b.l3, a.l4 - b.l4, a.l5 - b.l5, a.l6 - b.l6, a.l7 - b.l7, a.l8 - b.l8, a.l9 - b.l9⟩

/-- `FieldElement.setReduced` (field_generic.go:174-233). -/
def setReduced (h0 h1 h2 h3 h4 h5 h6 h7 h8 h9 : J64) : JFe :=
  let c0 : J64 := (h0 + 33554432) >>> 26
  let h1 := h1 + c0
  let h0 := h0 - (c0 <<< 26)
  let c4 : J64 := (h4 + 33554432) >>> 26
  let h5 := h5 + c4
  let h4 := h4 - (c4 <<< 26)
  let c1 : J64 := (h1 + 16777216) >>> 25
  let h2 := h2 + c1
  let h1 := h1 - (c1 <<< 25)
  let c5 : J64 := (h5 + 16777216) >>> 25
  let h6 := h6 + c5
  let h5 := h5 - (c5 <<< 25)
  let c2 : J64 := (h2 + 33554432) >>> 26
  let h3 := h3 + c2
  let h2 := h2 - (c2 <<< 26)
  let c6 : J64 := (h6 + 33554432) >>> 26
  let h7 := h7 + c6
  let h6 := h6 - (c6 <<< 26)
  let c3 : J64 := (h3 + 16777216) >>> 25
  let h4 := h4 + c3
  let h3 := h3 - (c3 <<< 25)
  let c7 : J64 := (h7 + 16777216) >>> 25
  let h8 := h8 + c7
  let h7 := h7 - (c7 <<< 25)
  let c4 : J64 := (h4 + 33554432) >>> 26
  let h5 := h5 + c4
  let h4 := h4 - (c4 <<< 26)
  let c8 : J64 := (h8 + 33554432) >>> 26
  let h9 := h9 + c8
  let h8 := h8 - (c8 <<< 26)
  let c9 : J64 := (h9 + 16777216) >>> 25
  let h0 := h0 + c9 * 19
  let h9 := h9 - (c9 <<< 25)
  let c0 : J64 := (h0 + 33554432) >>> 26
  let h1 := h1 + c0
  let h0 := h0 - (c0 <<< 26)
  ⟨h0.to32, h1.to32, h2.to32, h3.to32, h4.to32, h5.to32, h6.to32, h7.to32, h8.to32, h9.to32⟩

/-- `FieldElement.normalize` (field_generic.go:166-171). -/
def normalize (a : JFe) : JFe :=
  setReduced a.l0.to64 a.l1.to64 a.l2.to64 a.l3.to64 a.l4.to64 a.l5.to64 a.l6.to64 a.l7.to64 a.l8.to64 a.l9.to64

/-- What `FieldElement.BytesInto` leaves in the receiver (field_generic.go:251-296): the receiver is
reduced in place. -/
def reduce (fe : JFe) : JFe :=
  let f0 := fe.l0
  let f1 := fe.l1
  let f2 := fe.l2
  let f3 := fe.l3
  let f4 := fe.l4
  let f5 := fe.l5
  let f6 := fe.l6
  let f7 := fe.l7
  let f8 := fe.l8
  let f9 := fe.l9
  let q : J32 := (19 * f9 + 16777216) >>> 25
  let q := (f0 + q) >>> 26
  let q := (f1 + q) >>> 25
  let q := (f2 + q) >>> 26
  let q := (f3 + q) >>> 25
  let q := (f4 + q) >>> 26
  let q := (f5 + q) >>> 25
  let q := (f6 + q) >>> 26
  let q := (f7 + q) >>> 25
  let q := (f8 + q) >>> 26
  let q := (f9 + q) >>> 25
  let f0 := f0 + 19 * q
  let c0 := f0 >>> 26
  let f1 := f1 + c0
  let f0 := f0 - (c0 <<< 26)
  let c1 := f1 >>> 25
  let f2 := f2 + c1
  let f1 := f1 - (c1 <<< 25)
  let c2 := f2 >>> 26
  let f3 := f3 + c2
  let f2 := f2 - (c2 <<< 26)
  let c3 := f3 >>> 25
  let f4 := f4 + c3
  let f3 := f3 - (c3 <<< 25)
  let c4 := f4 >>> 26
  let f5 := f5 + c4
  let f4 := f4 - (c4 <<< 26)
  let c5 := f5 >>> 25
  let f6 := f6 + c5
  let f5 := f5 - (c5 <<< 25)
  let c6 := f6 >>> 26
  let f7 := f7 + c6
  let f6 := f6 - (c6 <<< 26)
  let c7 := f7 >>> 25
  let f8 := f8 + c7
  let f7 := f7 - (c7 <<< 25)
  let c8 := f8 >>> 26
  let f9 := f9 + c8
  let f8 := f8 - (c8 <<< 26)
  let c9 := f9 >>> 25
  let f9 := f9 - (c9 <<< 25)
  ⟨f0, f1, f2, f3, f4, f5, f6, f7, f8, f9⟩

/-- `FieldElement.SetBytes` (field_generic.go:335-348). -/
def setBytes (buf : Bytes 32) : JFe :=
  setReduced (.of (Fe25.load4 buf[0] buf[1] buf[2] buf[3]))
    (J64.of (Fe25.load3 buf[4] buf[5] buf[6]) <<< 6)
    (J64.of (Fe25.load3 buf[7] buf[8] buf[9]) <<< 5)
    (J64.of (Fe25.load3 buf[10] buf[11] buf[12]) <<< 3)
    (J64.of (Fe25.load3 buf[13] buf[14] buf[15]) <<< 2)
    (.of (Fe25.load4 buf[16] buf[17] buf[18] buf[19]))
    (J64.of (Fe25.load3 buf[20] buf[21] buf[22]) <<< 7)
    (J64.of (Fe25.load3 buf[23] buf[24] buf[25]) <<< 5)
    (J64.of (Fe25.load3 buf[26] buf[27] buf[28]) <<< 4)
    (J64.of (Fe25.load3 buf[29] buf[30] buf[31] &&& 8388607) <<< 2)

/-- `FieldElement.Mul` (field_generic.go:351-402). The products `2 * a[i]` and `19 * b[i]` are computed in
`int32`. -/
def mul (a b : JFe) : JFe :=
  let a0 := a.l0.to64
  let a1 := a.l1.to64
  let a2 := a.l2.to64
  let a3 := a.l3.to64
  let a4 := a.l4.to64
  let a5 := a.l5.to64
  let a6 := a.l6.to64
  let a7 := a.l7.to64
  let a8 := a.l8.to64
  let a9 := a.l9.to64
  let a1_2 := (2 * a.l1).to64
  let a3_2 := (2 * a.l3).to64
  let a5_2 := (2 * a.l5).to64
  let a7_2 := (2 * a.l7).to64
  let a9_2 := (2 * a.l9).to64
  let b0 := b.l0.to64
  let b1 := b.l1.to64
  let b2 := b.l2.to64
  let b3 := b.l3.to64
  let b4 := b.l4.to64
  let b5 := b.l5.to64
  let b6 := b.l6.to64
  let b7 := b.l7.to64
  let b8 := b.l8.to64
  let b9 := b.l9.to64
  let b1_19 := (19 * b.l1).to64
  let b2_19 := (19 * b.l2).to64
  let b3_19 := (19 * b.l3).to64
  let b4_19 := (19 * b.l4).to64
  let b5_19 := (19 * b.l5).to64
  let b6_19 := (19 * b.l6).to64
  let b7_19 := (19 * b.l7).to64
  let b8_19 := (19 * b.l8).to64
  let b9_19 := (19 * b.l9).to64
  let h0 := a0 * b0 + a1_2 * b9_19 + a2 * b8_19 + a3_2 * b7_19 + a4 * b6_19 +
    a5_2 * b5_19 + a6 * b4_19 + a7_2 * b3_19 + a8 * b2_19 + a9_2 * b1_19
  let h1 := a0 * b1 + a1 * b0 + a2 * b9_19 + a3 * b8_19 + a4 * b7_19 +
    a5 * b6_19 + a6 * b5_19 + a7 * b4_19 + a8 * b3_19 + a9 * b2_19
  let h2 := a0 * b2 + a1_2 * b1 + a2 * b0 + a3_2 * b9_19 + a4 * b8_19 +
    a5_2 * b7_19 + a6 * b6_19 + a7_2 * b5_19 + a8 * b4_19 + a9_2 * b3_19
  let h3 := a0 * b3 + a1 * b2 + a2 * b1 + a3 * b0 + a4 * b9_19 +
    a5 * b8_19 + a6 * b7_19 + a7 * b6_19 + a8 * b5_19 + a9 * b4_19
  let h4 := a0 * b4 + a1_2 * b3 + a2 * b2 + a3_2 * b1 + a4 * b0 +
    a5_2 * b9_19 + a6 * b8_19 + a7_2 * b7_19 + a8 * b6_19 + a9_2 * b5_19
  let h5 := a0 * b5 + a1 * b4 + a2 * b3 + a3 * b2 + a4 * b1 +
    a5 * b0 + a6 * b9_19 + a7 * b8_19 + a8 * b7_19 + a9 * b6_19
  let h6 := a0 * b6 + a1_2 * b5 + a2 * b4 + a3_2 * b3 + a4 * b2 +
    a5_2 * b1 + a6 * b0 + a7_2 * b9_19 + a8 * b8_19 + a9_2 * b7_19
  let h7 := a0 * b7 + a1 * b6 + a2 * b5 + a3 * b4 + a4 * b3 +
    a5 * b2 + a6 * b1 + a7 * b0 + a8 * b9_19 + a9 * b8_19
  let h8 := a0 * b8 + a1_2 * b7 + a2 * b6 + a3_2 * b5 + a4 * b4 +
    a5_2 * b3 + a6 * b2 + a7_2 * b1 + a8 * b0 + a9_2 * b9_19
  let h9 := a0 * b9 + a1 * b8 + a2 * b7 + a3 * b6 + a4 * b5 +
    a5 * b4 + a6 * b3 + a7 * b2 + a8 * b1 + a9 * b0
  setReduced h0 h1 h2 h3 h4 h5 h6 h7 h8 h9

/-- The ten `int64` results of `FieldElement.square` (field_generic.go:405-442). -/
structure Wide where
  h0 : J64
  h1 : J64
  h2 : J64
  h3 : J64
  h4 : J64
  h5 : J64
  h6 : J64
  h7 : J64
  h8 : J64
  h9 : J64

/-- `FieldElement.square` (field_generic.go:405-442). The products `2 * fe[i]` are computed in `int32`, those by 19 and
38 in `int64`. -/
def squareWide (fe : JFe) : Wide :=
  let f0 := fe.l0.to64
  let f1 := fe.l1.to64
  let f2 := fe.l2.to64
  let f3 := fe.l3.to64
  let f4 := fe.l4.to64
  let f5 := fe.l5.to64
  let f6 := fe.l6.to64
  let f7 := fe.l7.to64
  let f8 := fe.l8.to64
  let f9 := fe.l9.to64
  let f0_2 := (2 * fe.l0).to64
  let f1_2 := (2 * fe.l1).to64
  let f2_2 := (2 * fe.l2).to64
  let f3_2 := (2 * fe.l3).to64
  let f4_2 := (2 * fe.l4).to64
  let f5_2 := (2 * fe.l5).to64
  let f6_2 := (2 * fe.l6).to64
  let f7_2 := (2 * fe.l7).to64
  let f5_38 := 38 * f5
  let f6_19 := 19 * f6
  let f7_38 := 38 * f7
  let f8_19 := 19 * f8
  let f9_38 := 38 * f9
  let h0 := f0 * f0 + f1_2 * f9_38 + f2_2 * f8_19 + f3_2 * f7_38 + f4_2 * f6_19 + f5 * f5_38
  let h1 := f0_2 * f1 + f2 * f9_38 + f3_2 * f8_19 + f4 * f7_38 + f5_2 * f6_19
  let h2 := f0_2 * f2 + f1_2 * f1 + f3_2 * f9_38 + f4_2 * f8_19 + f5_2 * f7_38 + f6 * f6_19
  let h3 := f0_2 * f3 + f1_2 * f2 + f4 * f9_38 + f5_2 * f8_19 + f6 * f7_38
  let h4 := f0_2 * f4 + f1_2 * f3_2 + f2 * f2 + f5_2 * f9_38 + f6_2 * f8_19 + f7 * f7_38
  let h5 := f0_2 * f5 + f1_2 * f4 + f2_2 * f3 + f6 * f9_38 + f7_2 * f8_19
  let h6 := f0_2 * f6 + f1_2 * f5_2 + f2_2 * f4 + f3_2 * f3 + f7_2 * f9_38 + f8 * f8_19
  let h7 := f0_2 * f7 + f1_2 * f6 + f2_2 * f5 + f3_2 * f4 + f8 * f9_38
  let h8 := f0_2 * f8 + f1_2 * f7_2 + f2_2 * f6 + f3_2 * f5_2 + f4 * f4 + f9 * f9_38
  let h9 := f0_2 * f9 + f1_2 * f8 + f2_2 * f7 + f3_2 * f6 + f4_2 * f5
  ⟨h0, h1, h2, h3, h4, h5, h6, h7, h8, h9⟩

/-- `FieldElement.Square` (field_generic.go:445-448). -/
def square (a : JFe) : JFe :=
  let w := squareWide a
  setReduced w.h0 w.h1 w.h2 w.h3 w.h4 w.h5 w.h6 w.h7 w.h8 w.h9

/-- `FieldElement.DoubledSquare` (field_generic.go:451-464). -/
def doubledSquare (a : JFe) : JFe :=
  let w := squareWide a
  setReduced (w.h0 + w.h0) (w.h1 + w.h1) (w.h2 + w.h2) (w.h3 + w.h3) (w.h4 + w.h4) (w.h5 + w.h5) (w.h6 + w.h6) (w.h7 + w.h7) (w.h8 + w.h8) (w.h9 + w.h9)

end JFe

/-- Runs with checks: an element is lost (`none`) as soon as something was lost on the way to one of its limbs, every
function of a lost element is lost, and `junk` is read from it. -/
def Fe25W (_junk : Bytes 32) : Type := Option Fe25

/-- The result of a checked function. -/
def JFe.get (a : JFe) : Option Fe25 := if a.ok then some a.val else none

namespace Fe25W
variable {junk : Bytes 32}

/-- An element that was computed without loss. -/
def fine (a : Fe25) : Fe25W junk := some a
/-- Call a checked function. -/
def map (f : JFe → JFe) (a : Fe25W junk) : Fe25W junk := Option.bind a fun a => (f (.of a)).get
/-- Call a checked function. -/
def map₂ (f : JFe → JFe → JFe) (a b : Fe25W junk) : Fe25W junk :=
  Option.bind a fun a => Option.bind b fun b => (f (.of a) (.of b)).get

/-- `BytesInto` (field_generic.go:251-331): junk if something was lost before or in the reduction. -/
def bytes (a : Fe25W junk) : Bytes 32 :=
  match (map JFe.reduce a : Option Fe25) with
  | some a => Fe25.pack a
  | none => junk

/-- `ConditionalSet` (field_generic.go:236-248): with 0 and 1 the limbs that are not chosen have no influence. -/
def condSet (a b : Fe25W junk) (c : Int32) : Fe25W junk :=
  if c = 0 then a else if c = 1 then b else Option.bind a fun a => Option.bind b fun b => some (Fe25.condSet a b c)

/-- The generic backend (field_generic.go) with checks. -/
instance : FieldOps (Fe25W junk) where
  feZero := fine FieldOps.feZero
  feOne := fine FieldOps.feOne
  feMinusOne := fine FieldOps.feMinusOne
  feI := fine FieldOps.feI
  feMinusI := fine FieldOps.feMinusI
  feD := fine FieldOps.feD
  fe2D := fine FieldOps.fe2D
  feInvSqrtMinusDMinusOne := fine FieldOps.feInvSqrtMinusDMinusOne
  feDoubleInvSqrtMinusDMinusOne := fine FieldOps.feDoubleInvSqrtMinusDMinusOne
  feDoubleIInvSqrtMinusDMinusOne := fine FieldOps.feDoubleIInvSqrtMinusDMinusOne
  feDMinusOneSquared := fine FieldOps.feDMinusOneSquared
  feOneMinusDSquared := fine FieldOps.feOneMinusDSquared
  feDp1OverDm1 := fine FieldOps.feDp1OverDm1
  feSqrtID := fine FieldOps.feSqrtID
  feInvSqrt1pD := fine FieldOps.feInvSqrt1pD
  epBaseX := fine FieldOps.epBaseX
  epBaseY := fine FieldOps.epBaseY
  epBaseT := fine FieldOps.epBaseT
  add := map₂ JFe.add
  sub := map₂ JFe.sub
  neg := map JFe.neg
  normalize := map JFe.normalize
  mul := map₂ JFe.mul
  square := map JFe.square
  doubledSquare := map JFe.doubledSquare
  condSet := condSet
  bytes := bytes
  touch := map JFe.reduce
  setBytes b := (JFe.setBytes b).get

/-- Nothing was lost on the way to the element. -/
def isFine (a : Fe25W junk) : Bool := Option.isSome a
/-- Nothing was lost on the way to the coordinates. -/
def ptFine (q : ExtPt (Fe25W junk)) : Bool := q.X.isFine && q.Y.isFine && q.Z.isFine && q.T.isFine
/-- Nothing was lost on the way to the table entry. -/
def nielsFine (q : NielsPt (Fe25W junk)) : Bool := q.YPlusX.isFine && q.YMinusX.isFine && q.XY2D.isFine
/-- Nothing was lost on the way to the table. -/
def tabFine (t : Table (Fe25W junk)) : Bool := t.all fun row => row.all nielsFine

/-- The table of multiples of the base point, a constant (edwards25519/table_generic.go). -/
def fineTab (t : Table Fe25) : Table (Fe25W junk) := t.map fun row => row.map fun e => ⟨fine e.YPlusX, fine e.YMinusX, fine e.XY2D⟩

end Fe25W

end Ristretto.Model
