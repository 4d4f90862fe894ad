import Verif.Model.FieldOps

/-!
# edwards25519/field.go

Backend-independent field functions.  Where the Go code calls `x.BytesInto`, `x.IsNegativeI` or
`x.IsNonZeroI` on a variable that is used again, the model replaces that variable by
`FieldOps.touch x`, because the generic backend rewrites the receiver.
-/

namespace Ristretto.Model
open FieldOps

variable {F : Type} [FieldOps F]

/-- `fe.Square(&fe)` repeated `n` times: the body of the `for i = 1; i < n+1; i++` loops in
field.go. -/
def squareTimes : Nat → F → F
  | 0, t => t
  | n + 1, t => squareTimes n (square t)

/-- `FieldElement.double` (field.go:30-32). -/
def feDouble (a : F) : F := add a a

/-- `FieldElement.Add` (field.go:35-37). -/
def feAdd (a b : F) : F := normalize (add a b)

/-- `FieldElement.Sub` (field.go:40-42). -/
def feSub (a b : F) : F := normalize (sub a b)

/-- `FieldElement.Inverse` (field.go:58-109). -/
def feInverse (a : F) : F :=
  let t0 := square a
  let t1 := square t0
  let t1 := square t1
  let t1 := mul a t1
  let t0 := mul t0 t1
  let t2 := square t0
  let t1 := mul t1 t2
  let t2 := square t1
  let t2 := squareTimes 4 t2
  let t1 := mul t2 t1
  let t2 := square t1
  let t2 := squareTimes 9 t2
  let t2 := mul t2 t1
  let t3 := square t2
  let t3 := squareTimes 19 t3
  let t2 := mul t3 t2
  let t2 := square t2
  let t2 := squareTimes 9 t2
  let t1 := mul t2 t1
  let t2 := square t1
  let t2 := squareTimes 49 t2
  let t2 := mul t2 t1
  let t3 := square t2
  let t3 := squareTimes 99 t3
  let t2 := mul t3 t2
  let t2 := square t2
  let t2 := squareTimes 49 t2
  let t1 := mul t2 t1
  let t1 := square t1
  let t1 := squareTimes 4 t1
  mul t1 t0

/-- `FieldElement.IsNegativeI` (field.go:121-125). -/
def isNegativeI (fe : F) : Int32 :=
  let buf := bytes fe
  (buf[0] &&& 1).toUInt32.toInt32

/-- `binary.LittleEndian.Uint64(b[0:8])` (Go standard library). -/
def leUint64 (b0 b1 b2 b3 b4 b5 b6 b7 : UInt8) : UInt64 :=
  b0.toUInt64 ||| (b1.toUInt64 <<< 8) ||| (b2.toUInt64 <<< 16) ||| (b3.toUInt64 <<< 24) |||
    (b4.toUInt64 <<< 32) ||| (b5.toUInt64 <<< 40) ||| (b6.toUInt64 <<< 48) |||
    (b7.toUInt64 <<< 56)

/-- `FieldElement.IsNonZeroI` (field.go:128-142). -/
def isNonZeroI (fe : F) : Int32 :=
  let buf := bytes fe
  let ret := leUint64 buf[0] buf[1] buf[2] buf[3] buf[4] buf[5] buf[6] buf[7] |||
    leUint64 buf[8] buf[9] buf[10] buf[11] buf[12] buf[13] buf[14] buf[15] |||
    leUint64 buf[16] buf[17] buf[18] buf[19] buf[20] buf[21] buf[22] buf[23] |||
    leUint64 buf[24] buf[25] buf[26] buf[27] buf[28] buf[29] buf[30] buf[31]
  let ret := ret ||| (ret >>> 32)
  let ret := ret ||| (ret >>> 16)
  let ret := ret ||| (ret >>> 8)
  let ret := ret ||| (ret >>> 4)
  let ret := ret ||| (ret >>> 2)
  let ret := ret ||| (ret >>> 1)
  (ret &&& 1).toUInt32.toInt32

/-- `FieldElement.IsOneI` (field.go:145-148). -/
def isOneI (fe : F) : Int32 := 1 - isNonZeroI (sub fe feOne)

/-- `FieldElement.EqualsI` (field.go:151-154). -/
def feEqualsI (fe a : F) : Int32 := 1 - isNonZeroI (sub fe a)

/-- `FieldElement.Equals` (field.go:157-160). -/
def feEquals (fe a : F) : Bool := isNonZeroI (sub fe a) == 0

/-- `FieldElement.Abs` with distinct receiver and argument (field.go:112-118); returns the value
written to the receiver.  (The argument is left as `touch x`.) -/
def feAbs (x : F) : F :=
  let xNeg := neg x
  condSet x xNeg (isNegativeI x)

/-- `x.Abs(&x)`, receiver and argument the same variable (field.go:112-118): the argument of
`ConditionalSet` is evaluated first, so the in-place effect of `IsNegativeI` is on the receiver. -/
def feAbsSelf (x : F) : F :=
  let xNeg := neg x
  condSet (touch x) xNeg (isNegativeI x)

/-- `FieldElement.Exp22523` (field.go:207-266).  The loops `for i = 1; i < 1; i++` run zero
times. -/
def exp22523 (a : F) : F :=
  let t0 := square a
  let t0 := squareTimes 0 t0
  let t1 := square t0
  let t1 := squareTimes 1 t1
  let t1 := mul a t1
  let t0 := mul t0 t1
  let t0 := square t0
  let t0 := squareTimes 0 t0
  let t0 := mul t1 t0
  let t1 := square t0
  let t1 := squareTimes 4 t1
  let t0 := mul t1 t0
  let t1 := square t0
  let t1 := squareTimes 9 t1
  let t1 := mul t1 t0
  let t2 := square t1
  let t2 := squareTimes 19 t2
  let t1 := mul t2 t1
  let t1 := square t1
  let t1 := squareTimes 9 t1
  let t0 := mul t1 t0
  let t1 := square t0
  let t1 := squareTimes 49 t1
  let t1 := mul t1 t0
  let t2 := square t1
  let t2 := squareTimes 99 t2
  let t1 := mul t2 t1
  let t1 := square t1
  let t1 := squareTimes 49 t1
  let t0 := mul t1 t0
  let t0 := square t0
  let t0 := squareTimes 1 t0
  mul t0 a

/-- `FieldElement.InvSqrt` (field.go:269-286). -/
def invSqrt (a : F) : F :=
  let den2 := square a
  let den3 := mul den2 a
  let den4 := square den2
  let den6 := mul den2 den4
  let t := mul den6 a
  let t := exp22523 t
  let t := mul t den3
  let t2 := mul t feI
  let chk := square t
  let chk := mul chk a
  condSet t t2 (1 - isOneI chk)

/-- `FieldElement.Sqrt` (field.go:289-299). -/
def feSqrt (a : F) : F :=
  let fe := invSqrt a
  let fe := mul fe a
  let feNeg := neg fe
  condSet (touch fe) feNeg (isNegativeI fe)

/-- `FieldElement.InvSqrtI` (field.go:303-335): the value written and the flag returned. -/
def invSqrtI (a : F) : F × Int32 :=
  let den2 := square a
  let den3 := mul den2 a
  let den4 := square den2
  let den6 := mul den2 den4
  let t := mul den6 a
  let t := exp22523 t
  let t := mul t den3
  let chk := square t
  let chk := mul chk a
  let inCaseA := isOneI chk
  let inCaseD := feEqualsI chk feI
  let chk := neg chk
  let inCaseB := isOneI chk
  let corr := condSet feOne feI (inCaseB + inCaseD)
  let t := mul t corr
  (t, inCaseA + inCaseB)

/-- `equal30` (field.go:338-342). -/
def equal30 (b c : Int32) : Int32 :=
  let x := (b ^^^ c).toUInt32
  let x := x - 1
  (x >>> 31).toInt32

/-- `equal15` (field.go:345-351): the conversions keep the low 16 bits. -/
def equal15 (b c : Int32) : Int32 :=
  let ub := b.toUInt32.toUInt16
  let uc := c.toUInt32.toUInt16
  let x := (ub ^^^ uc).toUInt32
  let x := x - 1
  (x >>> 31).toInt32

/-- `negative` (field.go:354-356): `>>` on `int32` is an arithmetic shift. -/
def negative (b : Int32) : Int32 := (b >>> 31) &&& 1

/-- `FieldElement.BigInt` (field.go:167-175): the bytes, reversed, as a big-endian number. -/
def feBigInt (fe : F) : Nat := leVal (bytes fe)

/-- The little-endian 32-byte buffer of a number below 2^256 (the loop at field.go:196-199). -/
def leBytes (n x : Nat) : Bytes n := Vector.ofFn fun i => UInt8.ofNat (x / 256 ^ (i : Nat))

/-- `FieldElement.SetBigInt` (field.go:191-201): `v.Mod` is Euclidean, so the result is in
`[0, p)`. -/
def feSetBigInt (x : Int) : F := setBytes (leBytes 32 (x % (2 ^ 255 - 19)).toNat)

end Ristretto.Model
