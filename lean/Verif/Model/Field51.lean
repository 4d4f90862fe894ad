import Verif.Model.Word

/-!
# Field elements, radix 2^51 (the default build)

Transcription of edwards25519/field_radix51.go and edwards25519/field_mul64.go.
A Go method `fe.Op(a, b)` that writes its result through the pointer `fe` is the function returning
the value written.  All of these methods read their operands before writing the limb that could
alias them (`Proofs`/`Props` on aliasing: see `Verif.Model.Alias`).
-/

namespace Ristretto.Model

/-- `type FieldElement [5]uint64` (edwards25519/field_radix51.go:8). -/
structure Fe51 where
  l0 : UInt64
  l1 : UInt64
  l2 : UInt64
  l3 : UInt64
  l4 : UInt64
deriving DecidableEq, Repr

namespace Fe51

/-- The carry chain that occurs verbatim in `Neg` (field_radix51.go:106-115),
`sub` (:131-140) and `setReduced` (:170-179). -/
def carryChain (t : Fe51) : Fe51 :=
  let t1 := t.l1 + (t.l0 >>> 51)
  let t0 := t.l0 &&& 0x7ffffffffffff
  let t2 := t.l2 + (t1 >>> 51)
  let t1 := t1 &&& 0x7ffffffffffff
  let t3 := t.l3 + (t2 >>> 51)
  let t2 := t2 &&& 0x7ffffffffffff
  let t4 := t.l4 + (t3 >>> 51)
  let t3 := t3 &&& 0x7ffffffffffff
  let t0 := t0 + (t4 >>> 51) * 19
  let t4 := t4 &&& 0x7ffffffffffff
  ⟨t0, t1, t2, t3, t4⟩

/-- `FieldElement.Neg` (field_radix51.go:102-124). -/
def neg (a : Fe51) : Fe51 :=
  let t := carryChain a
  ⟨0xfffffffffffda - t.l0, 0xffffffffffffe - t.l1, 0xffffffffffffe - t.l2,
    0xffffffffffffe - t.l3, 0xffffffffffffe - t.l4⟩

/-- `FieldElement.sub` (field_radix51.go:127-149). -/
def sub (a b : Fe51) : Fe51 :=
  let t := carryChain b
  ⟨(a.l0 + 0xfffffffffffda) - t.l0, (a.l1 + 0xffffffffffffe) - t.l1,
    (a.l2 + 0xffffffffffffe) - t.l2, (a.l3 + 0xffffffffffffe) - t.l3,
    (a.l4 + 0xffffffffffffe) - t.l4⟩

/-- `FieldElement.add` (field_radix51.go:152-159). -/
def add (a b : Fe51) : Fe51 :=
  ⟨a.l0 + b.l0, a.l1 + b.l1, a.l2 + b.l2, a.l3 + b.l3, a.l4 + b.l4⟩

/-- `FieldElement.setReduced` (field_radix51.go:167-200). -/
def setReduced (a : Fe51) : Fe51 :=
  let f := carryChain a
  let c := (f.l0 + 19) >>> 51
  let c := (f.l1 + c) >>> 51
  let c := (f.l2 + c) >>> 51
  let c := (f.l3 + c) >>> 51
  let c := (f.l4 + c) >>> 51
  let f0 := f.l0 + 19 * c
  let f1 := f.l1 + (f0 >>> 51)
  let f0 := f0 &&& 0x7ffffffffffff
  let f2 := f.l2 + (f1 >>> 51)
  let f1 := f1 &&& 0x7ffffffffffff
  let f3 := f.l3 + (f2 >>> 51)
  let f2 := f2 &&& 0x7ffffffffffff
  let f4 := f.l4 + (f3 >>> 51)
  let f3 := f3 &&& 0x7ffffffffffff
  let f4 := f4 &&& 0x7ffffffffffff
  ⟨f0, f1, f2, f3, f4⟩

/-- `FieldElement.normalize` (field_radix51.go:162-164). -/
def normalize (fe : Fe51) : Fe51 := setReduced fe

/-- `FieldElement.ConditionalSet` (field_radix51.go:203-210). -/
def condSet (fe a : Fe51) (b : Int32) : Fe51 :=
  let b2 := maskOf b
  ⟨fe.l0 ^^^ (b2 &&& (fe.l0 ^^^ a.l0)), fe.l1 ^^^ (b2 &&& (fe.l1 ^^^ a.l1)),
    fe.l2 ^^^ (b2 &&& (fe.l2 ^^^ a.l2)), fe.l3 ^^^ (b2 &&& (fe.l3 ^^^ a.l3)),
    fe.l4 ^^^ (b2 &&& (fe.l4 ^^^ a.l4))⟩

/-- `FieldElement.BytesInto` (field_radix51.go:213-254); works on a local copy, the receiver is
not changed. -/
def bytes (fe : Fe51) : Bytes 32 :=
  let t := setReduced fe
  #v[(t.l0 &&& 0xff).toUInt8,
    ((t.l0 >>> 8) &&& 0xff).toUInt8,
    ((t.l0 >>> 16) &&& 0xff).toUInt8,
    ((t.l0 >>> 24) &&& 0xff).toUInt8,
    ((t.l0 >>> 32) &&& 0xff).toUInt8,
    ((t.l0 >>> 40) &&& 0xff).toUInt8,
    (t.l0 >>> 48).toUInt8 ^^^ ((t.l1 <<< 3) &&& 0xf8).toUInt8,
    ((t.l1 >>> 5) &&& 0xff).toUInt8,
    ((t.l1 >>> 13) &&& 0xff).toUInt8,
    ((t.l1 >>> 21) &&& 0xff).toUInt8,
    ((t.l1 >>> 29) &&& 0xff).toUInt8,
    ((t.l1 >>> 37) &&& 0xff).toUInt8,
    (t.l1 >>> 45).toUInt8 ^^^ ((t.l2 <<< 6) &&& 0xc0).toUInt8,
    ((t.l2 >>> 2) &&& 0xff).toUInt8,
    ((t.l2 >>> 10) &&& 0xff).toUInt8,
    ((t.l2 >>> 18) &&& 0xff).toUInt8,
    ((t.l2 >>> 26) &&& 0xff).toUInt8,
    ((t.l2 >>> 34) &&& 0xff).toUInt8,
    ((t.l2 >>> 42) &&& 0xff).toUInt8,
    (t.l2 >>> 50).toUInt8 ^^^ ((t.l3 <<< 1) &&& 0xfe).toUInt8,
    ((t.l3 >>> 7) &&& 0xff).toUInt8,
    ((t.l3 >>> 15) &&& 0xff).toUInt8,
    ((t.l3 >>> 23) &&& 0xff).toUInt8,
    ((t.l3 >>> 31) &&& 0xff).toUInt8,
    ((t.l3 >>> 39) &&& 0xff).toUInt8,
    (t.l3 >>> 47).toUInt8 ^^^ ((t.l4 <<< 4) &&& 0xf0).toUInt8,
    ((t.l4 >>> 4) &&& 0xff).toUInt8,
    ((t.l4 >>> 12) &&& 0xff).toUInt8,
    ((t.l4 >>> 20) &&& 0xff).toUInt8,
    ((t.l4 >>> 28) &&& 0xff).toUInt8,
    ((t.l4 >>> 36) &&& 0xff).toUInt8,
    (t.l4 >>> 44).toUInt8]

/-- `FieldElement.SetBytes` (field_radix51.go:258-279). -/
def setBytes (buf : Bytes 32) : Fe51 :=
  ⟨buf[0].toUInt64 ||| (buf[1].toUInt64 <<< 8) ||| (buf[2].toUInt64 <<< 16) |||
      (buf[3].toUInt64 <<< 24) ||| (buf[4].toUInt64 <<< 32) |||
      (buf[5].toUInt64 <<< 40) ||| ((buf[6] &&& 7).toUInt64 <<< 48),
    (buf[6].toUInt64 >>> 3) ||| (buf[7].toUInt64 <<< 5) |||
      (buf[8].toUInt64 <<< 13) ||| (buf[9].toUInt64 <<< 21) |||
      (buf[10].toUInt64 <<< 29) ||| (buf[11].toUInt64 <<< 37) |||
      ((buf[12] &&& 63).toUInt64 <<< 45),
    (buf[12].toUInt64 >>> 6) ||| (buf[13].toUInt64 <<< 2) |||
      (buf[14].toUInt64 <<< 10) ||| (buf[15].toUInt64 <<< 18) |||
      (buf[16].toUInt64 <<< 26) ||| (buf[17].toUInt64 <<< 34) |||
      (buf[18].toUInt64 <<< 42) ||| ((buf[19] &&& 1).toUInt64 <<< 50),
    (buf[19].toUInt64 >>> 1) ||| (buf[20].toUInt64 <<< 7) |||
      (buf[21].toUInt64 <<< 15) ||| (buf[22].toUInt64 <<< 23) |||
      (buf[23].toUInt64 <<< 31) ||| (buf[24].toUInt64 <<< 39) |||
      ((buf[25] &&& 15).toUInt64 <<< 47),
    (buf[25].toUInt64 >>> 4) ||| (buf[26].toUInt64 <<< 4) |||
      (buf[27].toUInt64 <<< 12) ||| (buf[28].toUInt64 <<< 20) |||
      (buf[29].toUInt64 <<< 28) ||| (buf[30].toUInt64 <<< 36) |||
      ((buf[31] &&& 127).toUInt64 <<< 44)⟩

/-- `FieldElement.Mul` (field_mul64.go:11-129).  Every `ckh, ckl` pair is `(ck.1, ck.2)`. -/
def mul (a b : Fe51) : Fe51 :=
  let a0 := a.l0
  let a1 := a.l1
  let a2 := a.l2
  let a3 := a.l3
  let a4 := a.l4
  let b0 := b.l0
  let b1 := b.l1
  let b2 := b.l2
  let b3 := b.l3
  let b4 := b.l4
  let b1_19 := b1 * 19
  let b2_19 := b2 * 19
  let b3_19 := b3 * 19
  let b4_19 := b4 * 19
  let c0 := mulAcc (mulAcc (mulAcc (mulAcc (bitsMul64 b0 a0) b1_19 a4) b2_19 a3) b3_19 a2) b4_19 a1
  let c1 := mulAcc (mulAcc (mulAcc (mulAcc (bitsMul64 b0 a1) b1 a0) b2_19 a4) b3_19 a3) b4_19 a2
  let c1 := carryAcc c0 c1
  let c0l := c0.2 &&& 0x7ffffffffffff
  let c2 := mulAcc (mulAcc (mulAcc (mulAcc (bitsMul64 b0 a2) b1 a1) b2 a0) b3_19 a4) b4_19 a3
  let c2 := carryAcc c1 c2
  let c1l := c1.2 &&& 0x7ffffffffffff
  let c3 := mulAcc (mulAcc (mulAcc (mulAcc (bitsMul64 b0 a3) b1 a2) b2 a1) b3 a0) b4_19 a4
  let c3 := carryAcc c2 c3
  let c2l := c2.2 &&& 0x7ffffffffffff
  let c4 := mulAcc (mulAcc (mulAcc (mulAcc (bitsMul64 b0 a4) b1 a3) b2 a2) b3 a1) b4 a0
  let c4 := carryAcc c3 c4
  let c3l := c3.2 &&& 0x7ffffffffffff
  let carry := (c4.2 >>> 51) ||| (c4.1 <<< 13)
  let c4l := c4.2 &&& 0x7ffffffffffff
  let c0l := c0l + carry * 19
  let c1l := c1l + (c0l >>> 51)
  let c0l := c0l &&& 0x7ffffffffffff
  ⟨c0l, c1l, c2l, c3l, c4l⟩

/-- `FieldElement.Square` (field_mul64.go:132-211). -/
def square (a : Fe51) : Fe51 :=
  let a0 := a.l0
  let a1 := a.l1
  let a2 := a.l2
  let a3 := a.l3
  let a4 := a.l4
  let a4_38 := a4 * 38
  let c0 := mulAcc (mulAcc (bitsMul64 a0 a0) (a4 * 38) a1) (a2 * 38) a3
  let c1 := mulAcc (mulAcc (bitsMul64 (2 * a0) a1) a2 a4_38) (a3 * 19) a3
  let c1 := carryAcc c0 c1
  let c0l := c0.2 &&& 0x7ffffffffffff
  let c2 := mulAcc (mulAcc (bitsMul64 a0 (2 * a2)) a1 a1) a4_38 a3
  let c2 := carryAcc c1 c2
  let c1l := c1.2 &&& 0x7ffffffffffff
  let c3 := mulAcc (mulAcc (bitsMul64 a0 (2 * a3)) (2 * a1) a2) (a4 * 19) a4
  let c3 := carryAcc c2 c3
  let c2l := c2.2 &&& 0x7ffffffffffff
  let c4 := mulAcc (mulAcc (bitsMul64 a0 (2 * a4)) a2 a2) a3 (2 * a1)
  let c4 := carryAcc c3 c4
  let c3l := c3.2 &&& 0x7ffffffffffff
  let carry := (c4.2 >>> 51) ||| (c4.1 <<< 13)
  let c0l := c0l + carry * 19
  let c4l := c4.2 &&& 0x7ffffffffffff
  let c1l := c1l + (c0l >>> 51)
  let c0l := c0l &&& 0x7ffffffffffff
  ⟨c0l, c1l, c2l, c3l, c4l⟩

/-- `FieldElement.DoubledSquare` (field_mul64.go:214-297). -/
def doubledSquare (a : Fe51) : Fe51 :=
  let a0 := a.l0
  let a1 := a.l1
  let a2 := a.l2
  let a3 := a.l3
  let a4 := a.l4
  let a0_2 := a0 * 2
  let a1_2 := a1 * 2
  let a2_2 := a2 * 2
  let a3_38 := a3 * 38
  let a4_38 := a4 * 38
  let c0 := mulAcc (mulAcc (bitsMul64 a0 a0_2) a4_38 a1_2) a2_2 a3_38
  let c1 := mulAcc (mulAcc (bitsMul64 a0_2 a1_2) a2_2 a4_38) a3_38 a3
  let c1 := carryAcc c0 c1
  let c0l := c0.2 &&& 0x7ffffffffffff
  let c2 := mulAcc (mulAcc (bitsMul64 a0_2 a2_2) a1_2 a1) a4_38 (a3 * 2)
  let c2 := carryAcc c1 c2
  let c1l := c1.2 &&& 0x7ffffffffffff
  let c3 := mulAcc (mulAcc (bitsMul64 a0_2 (2 * a3)) a1_2 a2_2) a4_38 a4
  let c3 := carryAcc c2 c3
  let c2l := c2.2 &&& 0x7ffffffffffff
  let c4 := mulAcc (mulAcc (bitsMul64 a0_2 (2 * a4)) a2_2 a2) (2 * a3) a1_2
  let c4 := carryAcc c3 c4
  let c3l := c3.2 &&& 0x7ffffffffffff
  let carry := (c4.2 >>> 51) ||| (c4.1 <<< 13)
  let c0l := c0l + carry * 19
  let c4l := c4.2 &&& 0x7ffffffffffff
  let c1l := c1l + (c0l >>> 51)
  let c0l := c0l &&& 0x7ffffffffffff
  ⟨c0l, c1l, c2l, c3l, c4l⟩

end Fe51
end Ristretto.Model
