import Verif.Model.Word

/-!
# Scalars (scalar.go)

A scalar is eight 32-bit words, as in Go.  `int64` is Lean's `Int64` (wrapping, with arithmetic right
shift).  Pointer receivers are modelled by returning the new value.
-/

namespace Ristretto.Model

/-- `type Scalar [8]uint32` (scalar.go:15-20). -/
abbrev Scalar := Vector UInt32 8

/-- `scZero` (scalar.go:23). -/
def scZero : Scalar := #v[0, 0, 0, 0, 0, 0, 0, 0]
/-- `scOne` (scalar.go:24-26). -/
def scOne : Scalar := #v[1, 0, 0, 0, 0, 0, 0, 0]
/-- `scL` (scalar.go:27-30). -/
def scL : Scalar := #v[0x5cf5d3ed, 0x5812631a, 0xa2f79cd6, 0x14def9de, 0, 0, 0, 0x10000000]

namespace Scalar

/-- `Scalar.BytesInto` / `Scalar.Bytes` / `Scalar.MarshalBinary` (scalar.go:34-75,1052-1056). -/
def bytes (s : Scalar) : Bytes 32 :=
  #v[s[0].toUInt8, (s[0] >>> 8).toUInt8, (s[0] >>> 16).toUInt8, (s[0] >>> 24).toUInt8,
     s[1].toUInt8, (s[1] >>> 8).toUInt8, (s[1] >>> 16).toUInt8, (s[1] >>> 24).toUInt8,
     s[2].toUInt8, (s[2] >>> 8).toUInt8, (s[2] >>> 16).toUInt8, (s[2] >>> 24).toUInt8,
     s[3].toUInt8, (s[3] >>> 8).toUInt8, (s[3] >>> 16).toUInt8, (s[3] >>> 24).toUInt8,
     s[4].toUInt8, (s[4] >>> 8).toUInt8, (s[4] >>> 16).toUInt8, (s[4] >>> 24).toUInt8,
     s[5].toUInt8, (s[5] >>> 8).toUInt8, (s[5] >>> 16).toUInt8, (s[5] >>> 24).toUInt8,
     s[6].toUInt8, (s[6] >>> 8).toUInt8, (s[6] >>> 16).toUInt8, (s[6] >>> 24).toUInt8,
     s[7].toUInt8, (s[7] >>> 8).toUInt8, (s[7] >>> 16).toUInt8, (s[7] >>> 24).toUInt8]

/-- `load4u32` (scalar.go:1106-1109). -/
def load4u32 (b0 b1 b2 b3 : UInt8) : UInt32 :=
  b0.toUInt32 ||| (b1.toUInt32 <<< 8) ||| (b2.toUInt32 <<< 16) ||| (b3.toUInt32 <<< 24)

/-- One step of the borrow chain of `Sub`: `uint64(a[i]) - uint64(b[i]) - (borrow >> 63)`
(scalar.go:144-158; the first step has no borrow, modelled by a zero one). -/
def subStep (a b : UInt32) (borrow : UInt64) : UInt64 := a.toUInt64 - b.toUInt64 - (borrow >>> 63)

/-- One step of the carry chain of `Sub`: `uint64(si) + (carry >> 32) + (ufMask & li)`
(scalar.go:163-178; the first step has no carry, modelled by a zero one; words 4 to 6 have no `li`,
modelled by zero). -/
def addBackStep (x : UInt32) (carry mask li : UInt64) : UInt64 :=
  x.toUInt64 + (carry >>> 32) + (mask &&& li)

/-- `Scalar.Sub` (scalar.go:143-190). -/
def sub (a b : Scalar) : Scalar :=
  let w0 := subStep a[0] b[0] 0
  let w1 := subStep a[1] b[1] w0
  let w2 := subStep a[2] b[2] w1
  let w3 := subStep a[3] b[3] w2
  let w4 := subStep a[4] b[4] w3
  let w5 := subStep a[5] b[5] w4
  let w6 := subStep a[6] b[6] w5
  let w7 := subStep a[7] b[7] w6
  let ufMask := ((w7 >>> 63) ^^^ 1) - 1
  let c0 := addBackStep w0.toUInt32 0 ufMask 0x5CF5D3ED
  let c1 := addBackStep w1.toUInt32 c0 ufMask 0x5812631A
  let c2 := addBackStep w2.toUInt32 c1 ufMask 0xA2F79CD6
  let c3 := addBackStep w3.toUInt32 c2 ufMask 0x14DEF9DE
  let c4 := addBackStep w4.toUInt32 c3 ufMask 0
  let c5 := addBackStep w5.toUInt32 c4 ufMask 0
  let c6 := addBackStep w6.toUInt32 c5 ufMask 0
  let c7 := addBackStep w7.toUInt32 c6 ufMask 0x10000000
  #v[c0.toUInt32, c1.toUInt32, c2.toUInt32, c3.toUInt32, c4.toUInt32, c5.toUInt32, c6.toUInt32,
     c7.toUInt32]

/-- One step of the carry chain of `Add`: `uint64(a[i]) + uint64(b[i]) + (carry >> 32)`
(scalar.go:123-137; the first step has no carry, modelled by a zero one). -/
def addStep (a b : UInt32) (carry : UInt64) : UInt64 := a.toUInt64 + b.toUInt64 + (carry >>> 32)

/-- The carry chain of `Add` (scalar.go:123-138). -/
def addRaw (a b : Scalar) : Scalar :=
  let c0 := addStep a[0] b[0] 0
  let c1 := addStep a[1] b[1] c0
  let c2 := addStep a[2] b[2] c1
  let c3 := addStep a[3] b[3] c2
  let c4 := addStep a[4] b[4] c3
  let c5 := addStep a[5] b[5] c4
  let c6 := addStep a[6] b[6] c5
  let c7 := addStep a[7] b[7] c6
  #v[c0.toUInt32, c1.toUInt32, c2.toUInt32, c3.toUInt32, c4.toUInt32, c5.toUInt32, c6.toUInt32,
     c7.toUInt32]

/-- `Scalar.Add` (scalar.go:122-140). -/
def add (a b : Scalar) : Scalar := sub (addRaw a b) scL

/-- `Scalar.Neg` (scalar.go:117-119). -/
def neg (a : Scalar) : Scalar := sub scZero a

/-- The eight words of a byte string (scalar.go:96-103; also lines 80-86). -/
def words (x : Bytes 32) : Scalar :=
  #v[load4u32 x[0] x[1] x[2] x[3], load4u32 x[4] x[5] x[6] x[7],
     load4u32 x[8] x[9] x[10] x[11], load4u32 x[12] x[13] x[14] x[15],
     load4u32 x[16] x[17] x[18] x[19], load4u32 x[20] x[21] x[22] x[23],
     load4u32 x[24] x[25] x[26] x[27], load4u32 x[28] x[29] x[30] x[31]]

/-- `Scalar.SetBytes` (scalar.go:79-89). -/
def setBytes (x : Bytes 32) : Scalar :=
  let w := words x
  sub #v[w[0], w[1], w[2], w[3], w[4], w[5], w[6], w[7] &&& 0x1fffffff] scL

/-- `Scalar.SetBytesStrict` on receiver `s` (scalar.go:94-114): the new receiver and the result. -/
def setBytesStrict (s : Scalar) (x : Bytes 32) : Scalar × Bool :=
  let t := words x
  let r := sub t scL
  if r ≠ t then (s, false) else (t, true)

/-! ## Reduction modulo l -/

/-- The 24 local variables `s0 ... s23` of `reduceAfterMul` (or `t0 ... t23` of `SetReduced`). -/
abbrev Limbs := Nat → Int64

/-- Assignment to one of the variables. -/
def Limbs.set (s : Limbs) (i : Nat) (v : Int64) : Limbs := fun k => if k = i then v else s k

/-- The variables initialised from an argument list; the others are zero (scalar.go:1116). -/
def Limbs.ofList (l : List Int64) : Limbs := fun i => l.getD i 0

/-- The three kinds of statement groups the reduction consists of. -/
inductive RedOp where
  /-- `carry[i] = (si + (1 << 20)) >> 21; s(i+1) += carry[i]; si -= carry[i] << 21` -/
  | carryR (i : Nat)
  /-- `carry[i] = si >> 21; s(i+1) += carry[i]; si -= carry[i] << 21` -/
  | carryF (i : Nat)
  /-- `s(j-12) += sj * 666643; s(j-11) += sj * 470296; s(j-10) += sj * 654183;
  s(j-9) -= sj * 997805; s(j-8) += sj * 136657; s(j-7) -= sj * 683901; sj = 0` -/
  | fold (j : Nat)

/-- Execution of one statement group (the statements are quoted at `RedOp`). -/
def RedOp.exec : RedOp → Limbs → Limbs
  | .carryR i, s =>
    let c := (s i + ((1 : Int64) <<< 20)) >>> 21
    let s := Limbs.set s (i + 1) (s (i + 1) + c)
    Limbs.set s i (s i - (c <<< 21))
  | .carryF i, s =>
    let c := s i >>> 21
    let s := Limbs.set s (i + 1) (s (i + 1) + c)
    Limbs.set s i (s i - (c <<< 21))
  | .fold j, s =>
    let s := Limbs.set s (j - 12) (s (j - 12) + s j * 666643)
    let s := Limbs.set s (j - 11) (s (j - 11) + s j * 470296)
    let s := Limbs.set s (j - 10) (s (j - 10) + s j * 654183)
    let s := Limbs.set s (j - 9) (s (j - 9) - s j * 997805)
    let s := Limbs.set s (j - 8) (s (j - 8) + s j * 136657)
    let s := Limbs.set s (j - 7) (s (j - 7) - s j * 683901)
    Limbs.set s j 0

/-- Execution of a sequence of statement groups. -/
def execAll (ops : List RedOp) (s : Limbs) : Limbs := ops.foldl (fun s o => o.exec s) s

/-- The carries at the start of `reduceAfterMul` (scalar.go:1119-1188). -/
def reduceHead : List RedOp :=
  [.carryR 0, .carryR 2, .carryR 4, .carryR 6, .carryR 8, .carryR 10, .carryR 12, .carryR 14,
   .carryR 16, .carryR 18, .carryR 20, .carryR 22, .carryR 1, .carryR 3, .carryR 5, .carryR 7,
   .carryR 9, .carryR 11, .carryR 13, .carryR 15, .carryR 17, .carryR 19, .carryR 21]

/-- The rest of `reduceAfterMul` (scalar.go:1190-1444); the body of `SetReduced`
(scalar.go:432-688) is the same sequence on the variables `t0 ... t23`. -/
def reduceTail : List RedOp :=
  [.fold 23, .fold 22, .fold 21, .fold 20, .fold 19, .fold 18, .carryR 6, .carryR 8, .carryR 10,
   .carryR 12, .carryR 14, .carryR 16, .carryR 7, .carryR 9, .carryR 11, .carryR 13, .carryR 15,
   .fold 17, .fold 16, .fold 15, .fold 14, .fold 13, .fold 12, .carryR 0, .carryR 2, .carryR 4,
   .carryR 6, .carryR 8, .carryR 10, .carryR 1, .carryR 3, .carryR 5, .carryR 7, .carryR 9, .carryR
   11, .fold 12, .carryF 0, .carryF 1, .carryF 2, .carryF 3, .carryF 4, .carryF 5, .carryF 6,
   .carryF 7, .carryF 8, .carryF 9, .carryF 10, .carryF 11, .fold 12, .carryF 0, .carryF 1, .carryF
   2, .carryF 3, .carryF 4, .carryF 5, .carryF 6, .carryF 7, .carryF 8, .carryF 9, .carryF 10]

/-- Go's `uint32(x)` for `x int64`. -/
def u32 (x : Int64) : UInt32 := x.toUInt64.toUInt32

/-- The final packing (scalar.go:1446-1453 and 690-697). -/
def pack (s : Limbs) : Scalar :=
  #v[u32 (s 0) ||| u32 (s 1 <<< 21),
     u32 (s 1 >>> 11) ||| u32 (s 2 <<< 10) ||| u32 (s 3 <<< 31),
     u32 (s 3 >>> 1) ||| u32 (s 4 <<< 20),
     u32 (s 4 >>> 12) ||| u32 (s 5 <<< 9) ||| u32 (s 6 <<< 30),
     u32 (s 6 >>> 2) ||| u32 (s 7 <<< 19),
     u32 (s 7 >>> 13) ||| u32 (s 8 <<< 8) ||| u32 (s 9 <<< 29),
     u32 (s 9 >>> 3) ||| u32 (s 10 <<< 18),
     u32 (s 10 >>> 14) ||| u32 (s 11 <<< 7)]

/-- `Scalar.reduceAfterMul` (scalar.go:1113-1455) on its 23 arguments. -/
def reduceAfterMul (args : List Int64) : Scalar :=
  pack (execAll reduceTail (execAll reduceHead (Limbs.ofList args)))

/-- `int64(x)` for `x uint32`. -/
def i64 (x : UInt32) : Int64 := x.toUInt64.toInt64

/-- The 21-bit pieces `a0 ... a11` of a scalar (scalar.go:754-765; the same twelve statements open
`Square`, `MulAdd` and `MulSub` and treat `b` and `c` likewise). -/
def unpack (a : Scalar) : Nat → Int64
  | 0 => i64 (a[0] &&& 0x1fffff)
  | 1 => i64 (((a[0] >>> 21) ||| (a[1] <<< 11)) &&& 0x1fffff)
  | 2 => i64 ((a[1] >>> 10) &&& 0x1fffff)
  | 3 => i64 (((a[1] >>> 31) ||| (a[2] <<< 1)) &&& 0x1fffff)
  | 4 => i64 (((a[2] >>> 20) ||| (a[3] <<< 12)) &&& 0x1fffff)
  | 5 => i64 ((a[3] >>> 9) &&& 0x1fffff)
  | 6 => i64 (((a[3] >>> 30) ||| (a[4] <<< 2)) &&& 0x1fffff)
  | 7 => i64 (((a[4] >>> 19) ||| (a[5] <<< 13)) &&& 0x1fffff)
  | 8 => i64 ((a[5] >>> 8) &&& 0x1fffff)
  | 9 => i64 (((a[5] >>> 29) ||| (a[6] <<< 3)) &&& 0x1fffff)
  | 10 => i64 (((a[6] >>> 18) ||| (a[7] <<< 14)) &&& 0x1fffff)
  | 11 => i64 (a[7] >>> 7)
  | _ => 0

/-- The arguments `Mul` passes to `reduceAfterMul` (scalar.go:780-803). -/
def mulArgs (a b : Nat → Int64) : List Int64 :=
  [a 0 * b 0,
   a 0 * b 1 + a 1 * b 0,
   a 0 * b 2 + a 1 * b 1 + a 2 * b 0,
   a 0 * b 3 + a 1 * b 2 + a 2 * b 1 + a 3 * b 0,
   a 0 * b 4 + a 1 * b 3 + a 2 * b 2 + a 3 * b 1 + a 4 * b 0,
   a 0 * b 5 + a 1 * b 4 + a 2 * b 3 + a 3 * b 2 + a 4 * b 1 + a 5 * b 0,
   a 0 * b 6 + a 1 * b 5 + a 2 * b 4 + a 3 * b 3 + a 4 * b 2 + a 5 * b 1 + a 6 * b 0,
   a 0 * b 7 + a 1 * b 6 + a 2 * b 5 + a 3 * b 4 + a 4 * b 3 + a 5 * b 2 + a 6 * b 1 + a 7 * b 0,
   a 0 * b 8 + a 1 * b 7 + a 2 * b 6 + a 3 * b 5 + a 4 * b 4 + a 5 * b 3 + a 6 * b 2 + a 7 * b 1 + a 8 * b 0,
   a 0 * b 9 + a 1 * b 8 + a 2 * b 7 + a 3 * b 6 + a 4 * b 5 + a 5 * b 4 + a 6 * b 3 + a 7 * b 2 + a 8 * b 1 + a 9 * b 0,
   a 0 * b 10 + a 1 * b 9 + a 2 * b 8 + a 3 * b 7 + a 4 * b 6 + a 5 * b 5 + a 6 * b 4 + a 7 * b 3 + a 8 * b 2 + a 9 * b 1 + a 10 * b 0,
   a 0 * b 11 + a 1 * b 10 + a 2 * b 9 + a 3 * b 8 + a 4 * b 7 + a 5 * b 6 + a 6 * b 5 + a 7 * b 4 + a 8 * b 3 + a 9 * b 2 + a 10 * b 1 + a 11 * b 0,
   a 1 * b 11 + a 2 * b 10 + a 3 * b 9 + a 4 * b 8 + a 5 * b 7 + a 6 * b 6 + a 7 * b 5 + a 8 * b 4 + a 9 * b 3 + a 10 * b 2 + a 11 * b 1,
   a 2 * b 11 + a 3 * b 10 + a 4 * b 9 + a 5 * b 8 + a 6 * b 7 + a 7 * b 6 + a 8 * b 5 + a 9 * b 4 + a 10 * b 3 + a 11 * b 2,
   a 3 * b 11 + a 4 * b 10 + a 5 * b 9 + a 6 * b 8 + a 7 * b 7 + a 8 * b 6 + a 9 * b 5 + a 10 * b 4 + a 11 * b 3,
   a 4 * b 11 + a 5 * b 10 + a 6 * b 9 + a 7 * b 8 + a 8 * b 7 + a 9 * b 6 + a 10 * b 5 + a 11 * b 4,
   a 5 * b 11 + a 6 * b 10 + a 7 * b 9 + a 8 * b 8 + a 9 * b 7 + a 10 * b 6 + a 11 * b 5,
   a 6 * b 11 + a 7 * b 10 + a 8 * b 9 + a 9 * b 8 + a 10 * b 7 + a 11 * b 6,
   a 7 * b 11 + a 8 * b 10 + a 9 * b 9 + a 10 * b 8 + a 11 * b 7,
   a 8 * b 11 + a 9 * b 10 + a 10 * b 9 + a 11 * b 8,
   a 9 * b 11 + a 10 * b 10 + a 11 * b 9,
   a 10 * b 11 + a 11 * b 10,
   a 11 * b 11]

/-- The arguments `Square` passes to `reduceAfterMul` (scalar.go:726-749). -/
def squareArgs (a : Nat → Int64) : List Int64 :=
  [a 0 * a 0,
   2 * a 0 * a 1,
   2 * a 0 * a 2 + a 1 * a 1,
   2 * (a 0 * a 3 + a 1 * a 2),
   2 * (a 0 * a 4 + a 1 * a 3) + a 2 * a 2,
   2 * (a 0 * a 5 + a 1 * a 4 + a 2 * a 3),
   2 * (a 0 * a 6 + a 1 * a 5 + a 2 * a 4) + a 3 * a 3,
   2 * (a 0 * a 7 + a 1 * a 6 + a 2 * a 5 + a 3 * a 4),
   2 * (a 0 * a 8 + a 1 * a 7 + a 2 * a 6 + a 3 * a 5) + a 4 * a 4,
   2 * (a 0 * a 9 + a 1 * a 8 + a 2 * a 7 + a 3 * a 6 + a 4 * a 5),
   2 * (a 0 * a 10 + a 1 * a 9 + a 2 * a 8 + a 3 * a 7 + a 4 * a 6) + a 5 * a 5,
   2 * (a 0 * a 11 + a 1 * a 10 + a 2 * a 9 + a 3 * a 8 + a 4 * a 7 + a 5 * a 6),
   2 * (a 1 * a 11 + a 2 * a 10 + a 3 * a 9 + a 4 * a 8 + a 5 * a 7) + a 6 * a 6,
   2 * (a 2 * a 11 + a 3 * a 10 + a 4 * a 9 + a 5 * a 8 + a 6 * a 7),
   2 * (a 3 * a 11 + a 4 * a 10 + a 5 * a 9 + a 6 * a 8) + a 7 * a 7,
   2 * (a 4 * a 11 + a 5 * a 10 + a 6 * a 9 + a 7 * a 8),
   2 * (a 5 * a 11 + a 6 * a 10 + a 7 * a 9) + a 8 * a 8,
   2 * (a 6 * a 11 + a 7 * a 10 + a 8 * a 9),
   2 * (a 7 * a 11 + a 8 * a 10) + a 9 * a 9,
   2 * (a 8 * a 11 + a 9 * a 10),
   2 * a 9 * a 11 + a 10 * a 10,
   2 * a 10 * a 11,
   a 11 * a 11]

/-- The arguments `MulAdd` passes to `reduceAfterMul` (scalar.go:353-376). -/
def mulAddArgs (a b c : Nat → Int64) : List Int64 :=
  [c 0 + a 0 * b 0,
   c 1 + a 0 * b 1 + a 1 * b 0,
   c 2 + a 0 * b 2 + a 1 * b 1 + a 2 * b 0,
   c 3 + a 0 * b 3 + a 1 * b 2 + a 2 * b 1 + a 3 * b 0,
   c 4 + a 0 * b 4 + a 1 * b 3 + a 2 * b 2 + a 3 * b 1 + a 4 * b 0,
   c 5 + a 0 * b 5 + a 1 * b 4 + a 2 * b 3 + a 3 * b 2 + a 4 * b 1 + a 5 * b 0,
   c 6 + a 0 * b 6 + a 1 * b 5 + a 2 * b 4 + a 3 * b 3 + a 4 * b 2 + a 5 * b 1 + a 6 * b 0,
   c 7 + a 0 * b 7 + a 1 * b 6 + a 2 * b 5 + a 3 * b 4 + a 4 * b 3 + a 5 * b 2 + a 6 * b 1 + a 7 * b 0,
   c 8 + a 0 * b 8 + a 1 * b 7 + a 2 * b 6 + a 3 * b 5 + a 4 * b 4 + a 5 * b 3 + a 6 * b 2 + a 7 * b 1 + a 8 * b 0,
   c 9 + a 0 * b 9 + a 1 * b 8 + a 2 * b 7 + a 3 * b 6 + a 4 * b 5 + a 5 * b 4 + a 6 * b 3 + a 7 * b 2 + a 8 * b 1 + a 9 * b 0,
   c 10 + a 0 * b 10 + a 1 * b 9 + a 2 * b 8 + a 3 * b 7 + a 4 * b 6 + a 5 * b 5 + a 6 * b 4 + a 7 * b 3 + a 8 * b 2 + a 9 * b 1 + a 10 * b 0,
   c 11 + a 0 * b 11 + a 1 * b 10 + a 2 * b 9 + a 3 * b 8 + a 4 * b 7 + a 5 * b 6 + a 6 * b 5 + a 7 * b 4 + a 8 * b 3 + a 9 * b 2 + a 10 * b 1 + a 11 * b 0,
   a 1 * b 11 + a 2 * b 10 + a 3 * b 9 + a 4 * b 8 + a 5 * b 7 + a 6 * b 6 + a 7 * b 5 + a 8 * b 4 + a 9 * b 3 + a 10 * b 2 + a 11 * b 1,
   a 2 * b 11 + a 3 * b 10 + a 4 * b 9 + a 5 * b 8 + a 6 * b 7 + a 7 * b 6 + a 8 * b 5 + a 9 * b 4 + a 10 * b 3 + a 11 * b 2,
   a 3 * b 11 + a 4 * b 10 + a 5 * b 9 + a 6 * b 8 + a 7 * b 7 + a 8 * b 6 + a 9 * b 5 + a 10 * b 4 + a 11 * b 3,
   a 4 * b 11 + a 5 * b 10 + a 6 * b 9 + a 7 * b 8 + a 8 * b 7 + a 9 * b 6 + a 10 * b 5 + a 11 * b 4,
   a 5 * b 11 + a 6 * b 10 + a 7 * b 9 + a 8 * b 8 + a 9 * b 7 + a 10 * b 6 + a 11 * b 5,
   a 6 * b 11 + a 7 * b 10 + a 8 * b 9 + a 9 * b 8 + a 10 * b 7 + a 11 * b 6,
   a 7 * b 11 + a 8 * b 10 + a 9 * b 9 + a 10 * b 8 + a 11 * b 7,
   a 8 * b 11 + a 9 * b 10 + a 10 * b 9 + a 11 * b 8,
   a 9 * b 11 + a 10 * b 10 + a 11 * b 9,
   a 10 * b 11 + a 11 * b 10,
   a 11 * b 11]

/-- The arguments `MulSub` passes to `reduceAfterMul` (scalar.go:286-309). -/
def mulSubArgs (a b c : Nat → Int64) : List Int64 :=
  [-c 0 + a 0 * b 0,
   -c 1 + a 0 * b 1 + a 1 * b 0,
   -c 2 + a 0 * b 2 + a 1 * b 1 + a 2 * b 0,
   -c 3 + a 0 * b 3 + a 1 * b 2 + a 2 * b 1 + a 3 * b 0,
   -c 4 + a 0 * b 4 + a 1 * b 3 + a 2 * b 2 + a 3 * b 1 + a 4 * b 0,
   -c 5 + a 0 * b 5 + a 1 * b 4 + a 2 * b 3 + a 3 * b 2 + a 4 * b 1 + a 5 * b 0,
   -c 6 + a 0 * b 6 + a 1 * b 5 + a 2 * b 4 + a 3 * b 3 + a 4 * b 2 + a 5 * b 1 + a 6 * b 0,
   -c 7 + a 0 * b 7 + a 1 * b 6 + a 2 * b 5 + a 3 * b 4 + a 4 * b 3 + a 5 * b 2 + a 6 * b 1 + a 7 * b 0,
   -c 8 + a 0 * b 8 + a 1 * b 7 + a 2 * b 6 + a 3 * b 5 + a 4 * b 4 + a 5 * b 3 + a 6 * b 2 + a 7 * b 1 + a 8 * b 0,
   -c 9 + a 0 * b 9 + a 1 * b 8 + a 2 * b 7 + a 3 * b 6 + a 4 * b 5 + a 5 * b 4 + a 6 * b 3 + a 7 * b 2 + a 8 * b 1 + a 9 * b 0,
   -c 10 + a 0 * b 10 + a 1 * b 9 + a 2 * b 8 + a 3 * b 7 + a 4 * b 6 + a 5 * b 5 + a 6 * b 4 + a 7 * b 3 + a 8 * b 2 + a 9 * b 1 + a 10 * b 0,
   -c 11 + a 0 * b 11 + a 1 * b 10 + a 2 * b 9 + a 3 * b 8 + a 4 * b 7 + a 5 * b 6 + a 6 * b 5 + a 7 * b 4 + a 8 * b 3 + a 9 * b 2 + a 10 * b 1 + a 11 * b 0,
   a 1 * b 11 + a 2 * b 10 + a 3 * b 9 + a 4 * b 8 + a 5 * b 7 + a 6 * b 6 + a 7 * b 5 + a 8 * b 4 + a 9 * b 3 + a 10 * b 2 + a 11 * b 1,
   a 2 * b 11 + a 3 * b 10 + a 4 * b 9 + a 5 * b 8 + a 6 * b 7 + a 7 * b 6 + a 8 * b 5 + a 9 * b 4 + a 10 * b 3 + a 11 * b 2,
   a 3 * b 11 + a 4 * b 10 + a 5 * b 9 + a 6 * b 8 + a 7 * b 7 + a 8 * b 6 + a 9 * b 5 + a 10 * b 4 + a 11 * b 3,
   a 4 * b 11 + a 5 * b 10 + a 6 * b 9 + a 7 * b 8 + a 8 * b 7 + a 9 * b 6 + a 10 * b 5 + a 11 * b 4,
   a 5 * b 11 + a 6 * b 10 + a 7 * b 9 + a 8 * b 8 + a 9 * b 7 + a 10 * b 6 + a 11 * b 5,
   a 6 * b 11 + a 7 * b 10 + a 8 * b 9 + a 9 * b 8 + a 10 * b 7 + a 11 * b 6,
   a 7 * b 11 + a 8 * b 10 + a 9 * b 9 + a 10 * b 8 + a 11 * b 7,
   a 8 * b 11 + a 9 * b 10 + a 10 * b 9 + a 11 * b 8,
   a 9 * b 11 + a 10 * b 10 + a 11 * b 9,
   a 10 * b 11 + a 11 * b 10,
   a 11 * b 11]

/-- `Scalar.Mul` (scalar.go:753-804). -/
def mul (a b : Scalar) : Scalar := reduceAfterMul (mulArgs (unpack a) (unpack b))
/-- `Scalar.Square` (scalar.go:712-750). -/
def square (a : Scalar) : Scalar := reduceAfterMul (squareArgs (unpack a))
/-- `Scalar.MulAdd` (scalar.go:313-377). -/
def mulAdd (a b c : Scalar) : Scalar := reduceAfterMul (mulAddArgs (unpack a) (unpack b) (unpack c))
/-- `Scalar.MulSub` (scalar.go:246-310). -/
def mulSub (a b c : Scalar) : Scalar := reduceAfterMul (mulSubArgs (unpack a) (unpack b) (unpack c))

/-- Byte `i` of a byte string as an `int64`. -/
def byteAt (t : Bytes 64) (i : Nat) : Int64 := (t.toList.getD i 0).toUInt64.toInt64

/-- `load3(t[o:])` (scalar.go:1087-1093). -/
def load3 (t : Bytes 64) (o : Nat) : Int64 :=
  byteAt t o ||| (byteAt t (o + 1) <<< 8) ||| (byteAt t (o + 2) <<< 16)

/-- `load4(t[o:])` (scalar.go:1096-1103). -/
def load4 (t : Bytes 64) (o : Nat) : Int64 :=
  byteAt t o ||| (byteAt t (o + 1) <<< 8) ||| (byteAt t (o + 2) <<< 16) ||| (byteAt t (o + 3) <<< 24)

/-- The variables `t0 ... t23` of `SetReduced` (scalar.go:407-430). -/
def unpack64 (t : Bytes 64) : List Int64 :=
  [(0x1FFFFF : Int64) &&& load3 t 0,
   (0x1FFFFF : Int64) &&& (load4 t 2 >>> 5),
   (0x1FFFFF : Int64) &&& (load3 t 5 >>> 2),
   (0x1FFFFF : Int64) &&& (load4 t 7 >>> 7),
   (0x1FFFFF : Int64) &&& (load4 t 10 >>> 4),
   (0x1FFFFF : Int64) &&& (load3 t 13 >>> 1),
   (0x1FFFFF : Int64) &&& (load4 t 15 >>> 6),
   (0x1FFFFF : Int64) &&& (load3 t 18 >>> 3),
   (0x1FFFFF : Int64) &&& load3 t 21,
   (0x1FFFFF : Int64) &&& (load4 t 23 >>> 5),
   (0x1FFFFF : Int64) &&& (load3 t 26 >>> 2),
   (0x1FFFFF : Int64) &&& (load4 t 28 >>> 7),
   (0x1FFFFF : Int64) &&& (load4 t 31 >>> 4),
   (0x1FFFFF : Int64) &&& (load3 t 34 >>> 1),
   (0x1FFFFF : Int64) &&& (load4 t 36 >>> 6),
   (0x1FFFFF : Int64) &&& (load3 t 39 >>> 3),
   (0x1FFFFF : Int64) &&& load3 t 42,
   (0x1FFFFF : Int64) &&& (load4 t 44 >>> 5),
   (0x1FFFFF : Int64) &&& (load3 t 47 >>> 2),
   (0x1FFFFF : Int64) &&& (load4 t 49 >>> 7),
   (0x1FFFFF : Int64) &&& (load4 t 52 >>> 4),
   (0x1FFFFF : Int64) &&& (load3 t 55 >>> 1),
   (0x1FFFFF : Int64) &&& (load4 t 57 >>> 6),
   load4 t 60 >>> 3]

/-- `Scalar.SetReduced` (scalar.go:406-700). -/
def setReduced (t : Bytes 64) : Scalar :=
  pack (execAll reduceTail (Limbs.ofList (unpack64 t)))

/-! ## Inversion -/

/-- A statement `t_dst.Square(&t_src)` or `t_dst.Mul(&t_a, &t_b)` of `Inverse`.  Registers 0 to 5 are
the variables `t0 ... t5`, register 6 is the argument `t`. -/
inductive InvOp where
  | sq (dst src : Nat)
  | mul (dst a b : Nat)

/-- Assignment to a register. -/
def setReg {α : Type} (r : Nat → α) (i : Nat) (v : α) : Nat → α := fun k => if k = i then v else r k

/-- Execution of one statement of `Inverse`, for any multiplication and squaring function. -/
def InvOp.exec {α : Type} (mulF : α → α → α) (sqF : α → α) : InvOp → (Nat → α) → (Nat → α)
  | .sq dst src, r => setReg r dst (sqF (r src))
  | .mul dst a b, r => setReg r dst (mulF (r a) (r b))

/-- The straight-line part of `Inverse` (scalar.go:810-1005). -/
def invProg : List InvOp :=
  [.sq 1 6, .mul 2 6 1, .mul 0 1 2, .sq 1 0, .sq 3 1, .mul 1 2 3, .sq 2 1, .mul 3 0 2, .sq 0 3,
   .mul 2 1 0, .sq 0 2, .mul 1 2 0, .sq 0 1, .mul 1 3 0, .sq 0 1, .sq 3 0, .mul 0 1 3, .mul 3 2 0,
   .sq 0 3, .mul 2 1 0, .sq 0 2, .mul 1 3 0, .sq 0 1, .mul 3 1 0, .mul 0 2 3, .mul 2 1 0, .sq 1 2,
   .sq 3 1, .sq 4 3, .mul 3 1 4, .mul 1 0 3, .mul 0 2 1, .mul 2 1 0, .sq 1 2, .sq 3 1, .mul 1 0 3,
   .sq 0 1, .sq 3 0, .mul 0 1 3, .mul 3 2 0, .sq 0 3, .mul 2 1 0, .sq 0 2, .sq 1 0, .mul 0 2 1,
   .mul 1 3 0, .sq 0 1, .sq 3 0, .sq 0 3, .sq 3 0, .sq 0 3, .sq 3 0, .mul 0 1 3, .mul 3 2 0, .sq 0
   3, .mul 2 1 0, .sq 0 2, .mul 1 2 0, .sq 0 1, .mul 4 2 0, .sq 0 4, .sq 4 0, .mul 0 1 4, .mul 1 3
   0, .sq 0 1, .mul 3 1 0, .sq 0 3, .sq 4 0, .mul 0 3 4, .mul 3 2 0, .sq 0 3, .sq 2 0, .sq 0 2,
   .mul 2 1 0, .sq 0 2, .mul 1 3 0, .mul 0 2 1, .mul 2 1 0, .sq 1 2, .sq 3 1, .mul 1 0 3, .sq 0 1,
   .mul 3 2 0, .mul 0 1 3, .sq 1 0, .sq 2 1, .mul 1 0 2, .mul 2 3 1, .mul 1 0 2, .mul 0 2 1, .sq 2
   0, .mul 3 0 2, .sq 2 3, .mul 3 1 2, .mul 1 0 3, .sq 0 1, .mul 2 1 0, .sq 0 2, .mul 4 2 0, .sq 0
   4, .sq 4 0, .sq 5 4, .sq 4 5, .sq 5 4, .sq 4 5, .mul 5 0 4, .mul 0 2 5, .mul 2 3 0, .mul 0 1 2,
   .sq 1 0, .mul 3 0 1, .sq 1 3, .mul 4 0 1, .sq 1 4, .sq 4 1, .sq 1 4, .mul 4 3 1, .mul 1 2 4, .sq
   2 1, .sq 3 2, .sq 4 3, .mul 3 2 4, .mul 2 1 3, .mul 3 0 2, .sq 0 3, .sq 2 0, .sq 0 2, .mul 2 1
   0, .mul 0 3 2, .sq 1 0, .sq 3 1, .mul 4 1 3, .sq 3 4, .sq 4 3, .mul 3 1 4, .mul 1 2 3, .sq 2 1,
   .sq 3 2, .mul 2 0 3, .sq 0 2, .mul 3 1 0, .sq 0 3, .mul 1 2 0, .mul 0 3 1, .sq 2 0, .sq 3 2, .sq
   2 3, .sq 3 2, .mul 2 1 3, .mul 1 0 2, .sq 0 1, .sq 3 0, .sq 4 3, .mul 3 0 4, .mul 0 1 3, .mul 3
   2 0, .sq 0 3, .sq 2 0, .mul 0 1 2, .sq 1 0, .mul 2 3 1, .mul 1 0 2, .sq 0 1, .mul 3 2 0, .sq 0
   3, .sq 2 0, .mul 0 1 2, .mul 1 3 0, .sq 2 1, .mul 3 0 2, .mul 0 1 3, .sq 1 0, .sq 2 1, .sq 4 2,
   .mul 2 1 4, .sq 4 2, .sq 2 4, .sq 4 2, .mul 2 1 4, .mul 1 3 2, .sq 2 1, .sq 3 2, .mul 2 1 3, .sq
   3 2, .sq 2 3, .mul 3 1 2, .mul 2 0 3, .sq 0 2, .mul 3 2 0, .sq 0 3, .sq 4 0, .mul 0 3 4, .mul 3
   1 0, .sq 0 3, .mul 1 3 0, .mul 0 2 1]

/-- `Scalar.Inverse` (scalar.go:807-1011). -/
def inverse (t : Scalar) : Scalar :=
  let r := invProg.foldl (fun r o => o.exec mul square r) (fun k => if k = 6 then t else scZero)
  let t0 := Nat.repeat square 126 (r 0)
  mul (r 3) t0

/-! ## Predicates, conditional assignment, conversions -/

/-- `Scalar.IsNonZeroI` (scalar.go:1014-1022). -/
def isNonZeroI (s : Scalar) : Int32 :=
  let ret := s[0] ||| s[1] ||| s[2] ||| s[3] ||| s[4] ||| s[5] ||| s[6] ||| s[7]
  let ret := ret ||| (ret >>> 16)
  let ret := ret ||| (ret >>> 8)
  let ret := ret ||| (ret >>> 4)
  let ret := ret ||| (ret >>> 2)
  let ret := ret ||| (ret >>> 1)
  (ret &&& 1).toInt32

/-- `Scalar.EqualsI` (scalar.go:1025-1028). -/
def equalsI (s a : Scalar) : Int32 := 1 - isNonZeroI (sub s a)

/-- `Scalar.Equals` (scalar.go:1031-1034). -/
def equals (s a : Scalar) : Bool := isNonZeroI (sub s a) == 0

/-- `Scalar.ConditionalSet` (scalar.go:1458-1468). -/
def condSet (s t : Scalar) (b : Int32) : Scalar :=
  let m := (-b).toUInt32
  #v[s[0] ^^^ (m &&& (s[0] ^^^ t[0])), s[1] ^^^ (m &&& (s[1] ^^^ t[1])),
     s[2] ^^^ (m &&& (s[2] ^^^ t[2])), s[3] ^^^ (m &&& (s[3] ^^^ t[3])),
     s[4] ^^^ (m &&& (s[4] ^^^ t[4])), s[5] ^^^ (m &&& (s[5] ^^^ t[5])),
     s[6] ^^^ (m &&& (s[6] ^^^ t[6])), s[7] ^^^ (m &&& (s[7] ^^^ t[7]))]

/-- `big.Int.SetBytes` (math/big, by its documentation): big-endian bytes to a natural number. -/
def bigSetBytes (l : List UInt8) : Nat := l.foldl (fun acc b => acc * 256 + b.toNat) 0

/-- `big.Int.Bytes` (math/big, by its documentation): the absolute value as big-endian bytes without
leading zeroes. -/
def bigBytes (n : Nat) : List UInt8 :=
  if _h : n = 0 then [] else bigBytes (n / 256) ++ [UInt8.ofNat n]
termination_by n
decreasing_by omega

/-- `Scalar.BigInt` (scalar.go:196-204). -/
def bigInt (s : Scalar) : Int := bigSetBytes (bytes s).toList.reverse

/-- `Scalar.SetBigInt` (scalar.go:210-220); `big.Int.Mod` is the Euclidean modulus. -/
def setBigInt (x : Int) : Scalar :=
  let biL : Int := 0x1000000000000000000000000000000014def9dea2f79cd65812631a5cf5d3ed
  let buf := bigBytes (x % biL).toNat
  setBytes (Vector.ofFn fun (i : Fin 32) =>
    if i.val < buf.length then buf.getD (buf.length - i.val - 1) 0 else 0)

/-- `Scalar.SetUint64` (scalar.go:223-227). -/
def setUint64 (x : UInt64) : Scalar :=
  setBytes (Vector.ofFn fun (i : Fin 32) =>
    if i.val < 8 then (x >>> (UInt64.ofNat (8 * i.val))).toUInt8 else 0)

/-- `Scalar.DeriveShort` (scalar.go:383-394); `h` is the SHA-512 digest of the argument. -/
def deriveShort (h : Bytes 64) : Scalar :=
  #v[load4u32 h[0] h[1] h[2] h[3], load4u32 h[4] h[5] h[6] h[7],
     load4u32 h[8] h[9] h[10] h[11], load4u32 h[12] h[13] h[14] h[15], 0, 0, 0, 0]

/-- `Scalar.Derive` (scalar.go:398-403), for any hash function `sha512`. -/
def derive (sha512 : List UInt8 → Bytes 64) (buf : List UInt8) : Scalar := setReduced (sha512 buf)

/-- `Scalar.UnmarshalBinary` on receiver `s` (scalar.go:1041-1049): new receiver, success. -/
def unmarshalBinary (s : Scalar) (data : List UInt8) : Scalar × Bool :=
  if h : data.length = 32 then (setBytes ⟨data.toArray, by simpa using h⟩, true) else (s, false)

end Scalar
end Ristretto.Model
