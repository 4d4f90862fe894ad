import Verif.Model.ObliviousSha
import Verif.Model.Field25
import Verif.Model.BaseTable25

/-!
# The generic field backend on words that nobody knows

edwards25519/field_generic.go (`Model/Field25.lean`) over expressions instead of words: see `Model/Oblivious.lean`.
-/

namespace Ristretto.Model.Obl
set_option autoImplicit false

/-- `FieldElement` (field_generic.go:8). -/
structure FeT where
  l0 : I32
  l1 : I32
  l2 : I32
  l3 : I32
  l4 : I32
  l5 : I32
  l6 : I32
  l7 : I32
  l8 : I32
  l9 : I32

namespace FeT

/-- `FieldElement.Neg` (field_generic.go:101-113). -/
def neg (a : FeT) : FeT :=
  ⟨-a.l0, -a.l1, -a.l2, -a.l3, -a.l4, -a.l5, -a.l6, -a.l7, -a.l8, -a.l9⟩

/-- `FieldElement.add` (field_generic.go:116-128). -/
def add (a b : FeT) : FeT :=
  ⟨a.l0 + b.l0, a.l1 + b.l1, a.l2 + b.l2, a.l3 + b.l3, a.l4 + b.l4, a.l5 + b.l5, a.l6 + b.l6, a.l7 + b.l7, a.l8 + b.l8, a.l9 + b.l9⟩

/-- `FieldElement.sub` (field_generic.go:131-143). -/
def sub (a b : FeT) : FeT :=
  ⟨a.l0 - b.l0, a.l1 - b.l1, a.l2 - b.l2, a.l3 - b.l3, a.l4 - b.l4, a.l5 - b.l5, a.l6 - b.l6, a.l7 - b.l7, a.l8 - b.l8, a.l9 - b.l9⟩

/-- `load3` (field_generic.go:146-152) of a slice that starts with the given bytes. -/
def load3 (b0 b1 b2 : U8) : I64 :=
  b0.toUInt64.toInt64 ||| (b1.toUInt64.toInt64 <<< 8) ||| (b2.toUInt64.toInt64 <<< 16)

/-- `load4` (field_generic.go:155-162) of a slice that starts with the given bytes. -/
def load4 (b0 b1 b2 b3 : U8) : I64 :=
  b0.toUInt64.toInt64 ||| (b1.toUInt64.toInt64 <<< 8) ||| (b2.toUInt64.toInt64 <<< 16) |||
    (b3.toUInt64.toInt64 <<< 24)

/-- `FieldElement.setReduced` (field_generic.go:174-233). -/
def setReduced (h0 h1 h2 h3 h4 h5 h6 h7 h8 h9 : I64) : FeT :=
  let c0 : I64 := (h0 + 33554432) >>> 26
  let h1 := h1 + c0
  let h0 := h0 - (c0 <<< 26)
  let c4 : I64 := (h4 + 33554432) >>> 26
  let h5 := h5 + c4
  let h4 := h4 - (c4 <<< 26)
  let c1 : I64 := (h1 + 16777216) >>> 25
  let h2 := h2 + c1
  let h1 := h1 - (c1 <<< 25)
  let c5 : I64 := (h5 + 16777216) >>> 25
  let h6 := h6 + c5
  let h5 := h5 - (c5 <<< 25)
  let c2 : I64 := (h2 + 33554432) >>> 26
  let h3 := h3 + c2
  let h2 := h2 - (c2 <<< 26)
  let c6 : I64 := (h6 + 33554432) >>> 26
  let h7 := h7 + c6
  let h6 := h6 - (c6 <<< 26)
  let c3 : I64 := (h3 + 16777216) >>> 25
  let h4 := h4 + c3
  let h3 := h3 - (c3 <<< 25)
  let c7 : I64 := (h7 + 16777216) >>> 25
  let h8 := h8 + c7
  let h7 := h7 - (c7 <<< 25)
  let c4 : I64 := (h4 + 33554432) >>> 26
  let h5 := h5 + c4
  let h4 := h4 - (c4 <<< 26)
  let c8 : I64 := (h8 + 33554432) >>> 26
  let h9 := h9 + c8
  let h8 := h8 - (c8 <<< 26)
  let c9 : I64 := (h9 + 16777216) >>> 25
  let h0 := h0 + c9 * 19
  let h9 := h9 - (c9 <<< 25)
  let c0 : I64 := (h0 + 33554432) >>> 26
  let h1 := h1 + c0
  let h0 := h0 - (c0 <<< 26)
  ⟨h0.toInt32, h1.toInt32, h2.toInt32, h3.toInt32, h4.toInt32, h5.toInt32, h6.toInt32, h7.toInt32, h8.toInt32, h9.toInt32⟩

/-- `FieldElement.normalize` (field_generic.go:166-171). -/
def normalize (a : FeT) : FeT :=
  setReduced a.l0.toInt64 a.l1.toInt64 a.l2.toInt64 a.l3.toInt64 a.l4.toInt64 a.l5.toInt64 a.l6.toInt64 a.l7.toInt64 a.l8.toInt64 a.l9.toInt64

/-- One limb of `ConditionalSet` (field_generic.go:238-247): `fe ^= b & (fe ^ a)`. -/
def selLimb (b fe a : I32) : I32 := fe ^^^ (b &&& (fe ^^^ a))

/-- `FieldElement.ConditionalSet` (field_generic.go:236-248). -/
def condSet (fe a : FeT) (b : I32) : FeT :=
  let b := -b
  ⟨selLimb b fe.l0 a.l0, selLimb b fe.l1 a.l1, selLimb b fe.l2 a.l2, selLimb b fe.l3 a.l3, selLimb b fe.l4 a.l4, selLimb b fe.l5 a.l5, selLimb b fe.l6 a.l6, selLimb b fe.l7 a.l7, selLimb b fe.l8 a.l8, selLimb b fe.l9 a.l9⟩

/-- What `FieldElement.BytesInto` leaves in the receiver (field_generic.go:251-296): the receiver is
reduced in place. -/
def reduce (fe : FeT) : FeT :=
  let f0 := fe.l0
  let f1 := fe.l1
  let f2 := fe.l2
  let f3 := fe.l3
  let f4 := fe.l4
  let f5 := fe.l5
  let f6 := fe.l6
  let f7 := fe.l7
  let f8 := fe.l8
  let f9 := fe.l9
  let q : I32 := (19 * f9 + 16777216) >>> 25
  let q := (f0 + q) >>> 26
  let q := (f1 + q) >>> 25
  let q := (f2 + q) >>> 26
  let q := (f3 + q) >>> 25
  let q := (f4 + q) >>> 26
  let q := (f5 + q) >>> 25
  let q := (f6 + q) >>> 26
  let q := (f7 + q) >>> 25
  let q := (f8 + q) >>> 26
  let q := (f9 + q) >>> 25
  let f0 := f0 + 19 * q
  let c0 := f0 >>> 26
  let f1 := f1 + c0
  let f0 := f0 - (c0 <<< 26)
  let c1 := f1 >>> 25
  let f2 := f2 + c1
  let f1 := f1 - (c1 <<< 25)
  let c2 := f2 >>> 26
  let f3 := f3 + c2
  let f2 := f2 - (c2 <<< 26)
  let c3 := f3 >>> 25
  let f4 := f4 + c3
  let f3 := f3 - (c3 <<< 25)
  let c4 := f4 >>> 26
  let f5 := f5 + c4
  let f4 := f4 - (c4 <<< 26)
  let c5 := f5 >>> 25
  let f6 := f6 + c5
  let f5 := f5 - (c5 <<< 25)
  let c6 := f6 >>> 26
  let f7 := f7 + c6
  let f6 := f6 - (c6 <<< 26)
  let c7 := f7 >>> 25
  let f8 := f8 + c7
  let f7 := f7 - (c7 <<< 25)
  let c8 := f8 >>> 26
  let f9 := f9 + c8
  let f8 := f8 - (c8 <<< 26)
  let c9 := f9 >>> 25
  let f9 := f9 - (c9 <<< 25)
  ⟨f0, f1, f2, f3, f4, f5, f6, f7, f8, f9⟩

/-- `byte(x)` of an `int32`. -/
def toByte (x : I32) : U8 := x.toUInt32.toUInt8

/-- What `FieldElement.BytesInto` writes (field_generic.go:298-330), `fe` being the reduced receiver. -/
def pack (fe : FeT) : SBytes 32 :=
  #v[toByte (fe.l0 >>> 0),
    toByte (fe.l0 >>> 8),
    toByte (fe.l0 >>> 16),
    toByte ((fe.l0 >>> 24) ||| (fe.l1 <<< 2)),
    toByte (fe.l1 >>> 6),
    toByte (fe.l1 >>> 14),
    toByte ((fe.l1 >>> 22) ||| (fe.l2 <<< 3)),
    toByte (fe.l2 >>> 5),
    toByte (fe.l2 >>> 13),
    toByte ((fe.l2 >>> 21) ||| (fe.l3 <<< 5)),
    toByte (fe.l3 >>> 3),
    toByte (fe.l3 >>> 11),
    toByte ((fe.l3 >>> 19) ||| (fe.l4 <<< 6)),
    toByte (fe.l4 >>> 2),
    toByte (fe.l4 >>> 10),
    toByte (fe.l4 >>> 18),
    toByte (fe.l5 >>> 0),
    toByte (fe.l5 >>> 8),
    toByte (fe.l5 >>> 16),
    toByte ((fe.l5 >>> 24) ||| (fe.l6 <<< 1)),
    toByte (fe.l6 >>> 7),
    toByte (fe.l6 >>> 15),
    toByte ((fe.l6 >>> 23) ||| (fe.l7 <<< 3)),
    toByte (fe.l7 >>> 5),
    toByte (fe.l7 >>> 13),
    toByte ((fe.l7 >>> 21) ||| (fe.l8 <<< 4)),
    toByte (fe.l8 >>> 4),
    toByte (fe.l8 >>> 12),
    toByte ((fe.l8 >>> 20) ||| (fe.l9 <<< 6)),
    toByte (fe.l9 >>> 2),
    toByte (fe.l9 >>> 10),
    toByte (fe.l9 >>> 18)]

/-- `FieldElement.BytesInto` (field_generic.go:251-331): the bytes written. -/
def bytes (fe : FeT) : SBytes 32 := pack (reduce fe)

/-- `FieldElement.SetBytes` (field_generic.go:335-348). -/
def setBytes (buf : SBytes 32) : FeT :=
  setReduced (load4 buf[0] buf[1] buf[2] buf[3])
    (load3 buf[4] buf[5] buf[6] <<< 6)
    (load3 buf[7] buf[8] buf[9] <<< 5)
    (load3 buf[10] buf[11] buf[12] <<< 3)
    (load3 buf[13] buf[14] buf[15] <<< 2)
    (load4 buf[16] buf[17] buf[18] buf[19])
    (load3 buf[20] buf[21] buf[22] <<< 7)
    (load3 buf[23] buf[24] buf[25] <<< 5)
    (load3 buf[26] buf[27] buf[28] <<< 4)
    ((load3 buf[29] buf[30] buf[31] &&& 8388607) <<< 2)

/-- `FieldElement.Mul` (field_generic.go:351-402). The products `2 * a[i]` and `19 * b[i]` are computed in
`int32`. -/
def mul (a b : FeT) : FeT :=
  let a0 := a.l0.toInt64
  let a1 := a.l1.toInt64
  let a2 := a.l2.toInt64
  let a3 := a.l3.toInt64
  let a4 := a.l4.toInt64
  let a5 := a.l5.toInt64
  let a6 := a.l6.toInt64
  let a7 := a.l7.toInt64
  let a8 := a.l8.toInt64
  let a9 := a.l9.toInt64
  let a1_2 := (2 * a.l1).toInt64
  let a3_2 := (2 * a.l3).toInt64
  let a5_2 := (2 * a.l5).toInt64
  let a7_2 := (2 * a.l7).toInt64
  let a9_2 := (2 * a.l9).toInt64
  let b0 := b.l0.toInt64
  let b1 := b.l1.toInt64
  let b2 := b.l2.toInt64
  let b3 := b.l3.toInt64
  let b4 := b.l4.toInt64
  let b5 := b.l5.toInt64
  let b6 := b.l6.toInt64
  let b7 := b.l7.toInt64
  let b8 := b.l8.toInt64
  let b9 := b.l9.toInt64
  let b1_19 := (19 * b.l1).toInt64
  let b2_19 := (19 * b.l2).toInt64
  let b3_19 := (19 * b.l3).toInt64
  let b4_19 := (19 * b.l4).toInt64
  let b5_19 := (19 * b.l5).toInt64
  let b6_19 := (19 * b.l6).toInt64
  let b7_19 := (19 * b.l7).toInt64
  let b8_19 := (19 * b.l8).toInt64
  let b9_19 := (19 * b.l9).toInt64
  let h0 := a0 * b0 + a1_2 * b9_19 + a2 * b8_19 + a3_2 * b7_19 + a4 * b6_19 +
    a5_2 * b5_19 + a6 * b4_19 + a7_2 * b3_19 + a8 * b2_19 + a9_2 * b1_19
  let h1 := a0 * b1 + a1 * b0 + a2 * b9_19 + a3 * b8_19 + a4 * b7_19 +
    a5 * b6_19 + a6 * b5_19 + a7 * b4_19 + a8 * b3_19 + a9 * b2_19
  let h2 := a0 * b2 + a1_2 * b1 + a2 * b0 + a3_2 * b9_19 + a4 * b8_19 +
    a5_2 * b7_19 + a6 * b6_19 + a7_2 * b5_19 + a8 * b4_19 + a9_2 * b3_19
  let h3 := a0 * b3 + a1 * b2 + a2 * b1 + a3 * b0 + a4 * b9_19 +
    a5 * b8_19 + a6 * b7_19 + a7 * b6_19 + a8 * b5_19 + a9 * b4_19
  let h4 := a0 * b4 + a1_2 * b3 + a2 * b2 + a3_2 * b1 + a4 * b0 +
    a5_2 * b9_19 + a6 * b8_19 + a7_2 * b7_19 + a8 * b6_19 + a9_2 * b5_19
  let h5 := a0 * b5 + a1 * b4 + a2 * b3 + a3 * b2 + a4 * b1 +
    a5 * b0 + a6 * b9_19 + a7 * b8_19 + a8 * b7_19 + a9 * b6_19
  let h6 := a0 * b6 + a1_2 * b5 + a2 * b4 + a3_2 * b3 + a4 * b2 +
    a5_2 * b1 + a6 * b0 + a7_2 * b9_19 + a8 * b8_19 + a9_2 * b7_19
  let h7 := a0 * b7 + a1 * b6 + a2 * b5 + a3 * b4 + a4 * b3 +
    a5 * b2 + a6 * b1 + a7 * b0 + a8 * b9_19 + a9 * b8_19
  let h8 := a0 * b8 + a1_2 * b7 + a2 * b6 + a3_2 * b5 + a4 * b4 +
    a5_2 * b3 + a6 * b2 + a7_2 * b1 + a8 * b0 + a9_2 * b9_19
  let h9 := a0 * b9 + a1 * b8 + a2 * b7 + a3 * b6 + a4 * b5 +
    a5 * b4 + a6 * b3 + a7 * b2 + a8 * b1 + a9 * b0
  setReduced h0 h1 h2 h3 h4 h5 h6 h7 h8 h9

/-- The ten `int64` results of `FieldElement.square` (field_generic.go:405-442). -/
structure Wide where
  h0 : I64
  h1 : I64
  h2 : I64
  h3 : I64
  h4 : I64
  h5 : I64
  h6 : I64
  h7 : I64
  h8 : I64
  h9 : I64

/-- `FieldElement.square` (field_generic.go:405-442). The products `2 * fe[i]` are computed in `int32`, those by 19 and
38 in `int64`. -/
def squareWide (fe : FeT) : Wide :=
  let f0 := fe.l0.toInt64
  let f1 := fe.l1.toInt64
  let f2 := fe.l2.toInt64
  let f3 := fe.l3.toInt64
  let f4 := fe.l4.toInt64
  let f5 := fe.l5.toInt64
  let f6 := fe.l6.toInt64
  let f7 := fe.l7.toInt64
  let f8 := fe.l8.toInt64
  let f9 := fe.l9.toInt64
  let f0_2 := (2 * fe.l0).toInt64
  let f1_2 := (2 * fe.l1).toInt64
  let f2_2 := (2 * fe.l2).toInt64
  let f3_2 := (2 * fe.l3).toInt64
  let f4_2 := (2 * fe.l4).toInt64
  let f5_2 := (2 * fe.l5).toInt64
  let f6_2 := (2 * fe.l6).toInt64
  let f7_2 := (2 * fe.l7).toInt64
  let f5_38 := 38 * f5
  let f6_19 := 19 * f6
  let f7_38 := 38 * f7
  let f8_19 := 19 * f8
  let f9_38 := 38 * f9
  let h0 := f0 * f0 + f1_2 * f9_38 + f2_2 * f8_19 + f3_2 * f7_38 + f4_2 * f6_19 + f5 * f5_38
  let h1 := f0_2 * f1 + f2 * f9_38 + f3_2 * f8_19 + f4 * f7_38 + f5_2 * f6_19
  let h2 := f0_2 * f2 + f1_2 * f1 + f3_2 * f9_38 + f4_2 * f8_19 + f5_2 * f7_38 + f6 * f6_19
  let h3 := f0_2 * f3 + f1_2 * f2 + f4 * f9_38 + f5_2 * f8_19 + f6 * f7_38
  let h4 := f0_2 * f4 + f1_2 * f3_2 + f2 * f2 + f5_2 * f9_38 + f6_2 * f8_19 + f7 * f7_38
  let h5 := f0_2 * f5 + f1_2 * f4 + f2_2 * f3 + f6 * f9_38 + f7_2 * f8_19
  let h6 := f0_2 * f6 + f1_2 * f5_2 + f2_2 * f4 + f3_2 * f3 + f7_2 * f9_38 + f8 * f8_19
  let h7 := f0_2 * f7 + f1_2 * f6 + f2_2 * f5 + f3_2 * f4 + f8 * f9_38
  let h8 := f0_2 * f8 + f1_2 * f7_2 + f2_2 * f6 + f3_2 * f5_2 + f4 * f4 + f9 * f9_38
  let h9 := f0_2 * f9 + f1_2 * f8 + f2_2 * f7 + f3_2 * f6 + f4_2 * f5
  ⟨h0, h1, h2, h3, h4, h5, h6, h7, h8, h9⟩

/-- `FieldElement.Square` (field_generic.go:445-448). -/
def square (a : FeT) : FeT :=
  let w := squareWide a
  setReduced w.h0 w.h1 w.h2 w.h3 w.h4 w.h5 w.h6 w.h7 w.h8 w.h9

/-- `FieldElement.DoubledSquare` (field_generic.go:451-464). -/
def doubledSquare (a : FeT) : FeT :=
  let w := squareWide a
  setReduced (w.h0 + w.h0) (w.h1 + w.h1) (w.h2 + w.h2) (w.h3 + w.h3) (w.h4 + w.h4) (w.h5 + w.h5) (w.h6 + w.h6) (w.h7 + w.h7) (w.h8 + w.h8) (w.h9 + w.h9)

end FeT

/-- A field element whose limbs are constants of the program. -/
def feLits25 (a : Fe25) : FeT :=
  ⟨.lit a.l0, .lit a.l1, .lit a.l2, .lit a.l3, .lit a.l4, .lit a.l5, .lit a.l6, .lit a.l7, .lit a.l8, .lit a.l9⟩

/-- Field elements nobody knows as a backend (field_generic.go).  As for `FeS`, the operations on flags and bytes are those
of `SymOps`. -/
instance : FieldOps FeT where
  feZero := feLits25 FieldOps.feZero
  feOne := feLits25 FieldOps.feOne
  feMinusOne := feLits25 FieldOps.feMinusOne
  feI := feLits25 FieldOps.feI
  feMinusI := feLits25 FieldOps.feMinusI
  feD := feLits25 FieldOps.feD
  fe2D := feLits25 FieldOps.fe2D
  feInvSqrtMinusDMinusOne := feLits25 FieldOps.feInvSqrtMinusDMinusOne
  feDoubleInvSqrtMinusDMinusOne := feLits25 FieldOps.feDoubleInvSqrtMinusDMinusOne
  feDoubleIInvSqrtMinusDMinusOne := feLits25 FieldOps.feDoubleIInvSqrtMinusDMinusOne
  feDMinusOneSquared := feLits25 FieldOps.feDMinusOneSquared
  feOneMinusDSquared := feLits25 FieldOps.feOneMinusDSquared
  feDp1OverDm1 := feLits25 FieldOps.feDp1OverDm1
  feSqrtID := feLits25 FieldOps.feSqrtID
  feInvSqrt1pD := feLits25 FieldOps.feInvSqrt1pD
  epBaseX := feLits25 FieldOps.epBaseX
  epBaseY := feLits25 FieldOps.epBaseY
  epBaseT := feLits25 FieldOps.epBaseT
  add := FeT.add
  sub := FeT.sub
  neg := FeT.neg
  normalize := FeT.normalize
  mul := FeT.mul
  square := FeT.square
  doubledSquare := FeT.doubledSquare
  condSet := fun a b c => FeT.condSet a b (.lit c)
  bytes := fun _ => Vector.replicate 32 0
  touch := FeT.reduce
  setBytes := fun b => FeT.setBytes (b.map .lit)

/-- field_generic.go. -/
instance : SymOps FeT where
  condSetS := FeT.condSet
  bytesS := FeT.bytes
  setBytesS := FeT.setBytes
  vars := fun f => ⟨.var _ (f 0), .var _ (f 1), .var _ (f 2), .var _ (f 3), .var _ (f 4), .var _ (f 5), .var _ (f 6), .var _ (f 7), .var _ (f 8),
    .var _ (f 9)⟩

/-- The hash functions and the table of table_generic.go, whose entries are constants. -/
def genericSEnv : SEnv FeT where
  sha256 := sha256S
  sha512 := sha512S
  baseTab := baseTable25.map (·.map fun e => ⟨feLits25 e.YPlusX, feLits25 e.YMinusX, feLits25 e.XY2D⟩)

end Ristretto.Model.Obl
