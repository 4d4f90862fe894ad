import Verif.Model.Field

/-!
# edwards25519/curve.go, edwards25519/table.go, edwards25519/vartime.go

Points and scalar multiplication, over any field backend.  Go methods write their result through
the receiver; here they return it.  No method modelled here reads its receiver after writing to
it except where the Go code does so on purpose (`p.Add(p, ..)`), which the model follows by
rebinding; the effect of aliased arguments is treated separately (`Verif.Model.Alias`).
-/

namespace Ristretto.Model
open FieldOps

/-- `ExtendedPoint` (curve.go:12-14). -/
structure ExtPt (F : Type) where
  X : F
  Y : F
  Z : F
  T : F

/-- `CompletedPoint` (curve.go:17-19). -/
structure ComplPt (F : Type) where
  X : F
  Y : F
  Z : F
  T : F

/-- `ProjectivePoint` (curve.go:22-24). -/
structure ProjPt (F : Type) where
  X : F
  Y : F
  Z : F

/-- `NielsPoint` (table.go:3-5). -/
structure NielsPt (F : Type) where
  YPlusX : F
  YMinusX : F
  XY2D : F

variable {F : Type} [FieldOps F]

namespace ExtPt

/-- `SetTorsion3` (curve.go:27-33): the point (-i,0). -/
def torsion3 : ExtPt F := ⟨feMinusI, feZero, feOne, feZero⟩
/-- `SetTorsion2` (curve.go:36-42): the point (i,0). -/
def torsion2 : ExtPt F := ⟨feI, feZero, feOne, feZero⟩
/-- `SetTorsion1` (curve.go:45-51): the point (0,-1). -/
def torsion1 : ExtPt F := ⟨feZero, feMinusOne, feOne, feZero⟩
/-- `ExtendedPoint.SetZero` (curve.go:62-68). -/
def zero : ExtPt F := ⟨feZero, feOne, feOne, feZero⟩
/-- `ExtendedPoint.SetBase` (curve.go:71-73): the constant `epBase`
(field_radix51.go:89-97, field_generic.go:89-97), whose `Z` is one. -/
def base : ExtPt F := ⟨epBaseX, epBaseY, feOne, epBaseT⟩
/-- `ExtendedPoint.ConditionalSet` (curve.go:85-91). -/
def condSet (p q : ExtPt F) (b : Int32) : ExtPt F :=
  ⟨FieldOps.condSet p.X q.X b, FieldOps.condSet p.Y q.Y b, FieldOps.condSet p.Z q.Z b,
   FieldOps.condSet p.T q.T b⟩
/-- `ExtendedPoint.Neg` (curve.go:409-415). -/
def neg (q : ExtPt F) : ExtPt F := ⟨FieldOps.neg q.X, q.Y, q.Z, FieldOps.neg q.T⟩

end ExtPt

namespace ComplPt

/-- `CompletedPoint.AddExtended` (curve.go:94-113). -/
def addExtended (q r : ExtPt F) : ComplPt F :=
  let a := sub q.Y q.X
  let t := sub r.Y r.X
  let a := mul a t
  let b := add q.X q.Y
  let t := add r.X r.Y
  let b := mul b t
  let c := mul q.T r.T
  let c := mul c fe2D
  let d := mul q.Z r.Z
  let d := add d d
  { X := sub b a, T := sub d c, Z := add d c, Y := add b a }

/-- `CompletedPoint.SubExtended` (curve.go:116-135). -/
def subExtended (q r : ExtPt F) : ComplPt F :=
  let a := sub q.Y q.X
  let t := add r.Y r.X
  let a := mul a t
  let b := add q.X q.Y
  let t := sub r.Y r.X
  let b := mul b t
  let c := mul q.T r.T
  let c := mul c fe2D
  let d := mul q.Z r.Z
  let d := add d d
  { X := sub b a, T := add d c, Z := sub d c, Y := add b a }

/-- `CompletedPoint.DoubleProjective` (curve.go:138-152). -/
def doubleProjective (q : ProjPt F) : ComplPt F :=
  let X := square q.X
  let Z := square q.Y
  let T := doubledSquare q.Z
  let Y := add q.X q.Y
  let t0 := square Y
  let Y := add Z X
  let Z := sub Z X
  let X := sub t0 Y
  let T := sub T Z
  ⟨X, Y, Z, T⟩

/-- `CompletedPoint.DoubleExtended` (curve.go:155-171). -/
def doubleExtended (q : ExtPt F) : ComplPt F :=
  let a := square q.X
  let b := square q.Y
  let c := doubledSquare q.Z
  let d := neg a
  let X := add q.X q.Y
  let X := square X
  let X := sub X a
  let X := sub X b
  let Z := add d b
  let T := sub Z c
  let Y := sub d b
  ⟨X, Y, Z, T⟩

/-- `CompletedPoint.AddExtendedNiels` (table.go:43-57). -/
def addExtendedNiels (q : ExtPt F) (r : NielsPt F) : ComplPt F :=
  let X := add q.Y q.X
  let Y := sub q.Y q.X
  let Z := mul X r.YPlusX
  let Y := mul Y r.YMinusX
  let T := mul r.XY2D q.T
  let t0 := add q.Z q.Z
  let X := sub Z Y
  let Y := add Z Y
  let Z := add t0 T
  let T := sub t0 T
  ⟨X, Y, Z, T⟩

/-- `CompletedPoint.SubExtendedNiels` (table.go:60-74). -/
def subExtendedNiels (q : ExtPt F) (r : NielsPt F) : ComplPt F :=
  let X := add q.Y q.X
  let Y := sub q.Y q.X
  let Z := mul X r.YMinusX
  let Y := mul Y r.YPlusX
  let T := mul r.XY2D q.T
  let t0 := add q.Z q.Z
  let X := sub Z Y
  let Y := add Z Y
  let Z := sub t0 T
  let T := add t0 T
  ⟨X, Y, Z, T⟩

/-- `ExtendedPoint.SetCompleted` (curve.go:214-220). -/
def toExtended (q : ComplPt F) : ExtPt F :=
  ⟨mul q.X q.T, mul q.Y q.Z, mul q.Z q.T, mul q.X q.Y⟩

/-- `ProjectivePoint.SetCompleted` (curve.go:182-187). -/
def toProjective (q : ComplPt F) : ProjPt F :=
  ⟨mul q.X q.T, mul q.Y q.Z, mul q.Z q.T⟩

end ComplPt

/-- `ProjectivePoint.SetZero` (curve.go:54-59). -/
def ProjPt.zero : ProjPt F := ⟨feZero, feOne, feOne⟩

namespace ExtPt

/-- `ProjectivePoint.SetExtended` (curve.go:174-179). -/
def toProjective (q : ExtPt F) : ProjPt F := ⟨q.X, q.Y, q.Z⟩
/-- `ExtendedPoint.Double` (curve.go:190-195). -/
def double (q : ExtPt F) : ExtPt F := (ComplPt.doubleExtended q).toExtended
/-- `ExtendedPoint.Add` (curve.go:198-203). -/
def add (q r : ExtPt F) : ExtPt F := (ComplPt.addExtended q r).toExtended
/-- `ExtendedPoint.Sub` (curve.go:206-211). -/
def sub (q r : ExtPt F) : ExtPt F := (ComplPt.subExtended q r).toExtended

/-- `ExtendedPoint.RistrettoEqualsI` (curve.go:419-426). -/
def ristrettoEqualsI (p q : ExtPt F) : Int32 :=
  let x1y2 := mul p.X q.Y
  let x2y1 := mul q.X p.Y
  let x1x2 := mul p.X q.X
  let y1y2 := mul p.Y q.Y
  1 - ((1 - feEqualsI x1y2 x2y1) &&& (1 - feEqualsI x1x2 y1y2))

/-- `subtle.ConstantTimeCompare(x, y)` on two 32-byte slices (Go standard library
`crypto/subtle`), by its documentation: 1 iff the contents are equal. -/
def constantTimeCompare {n : Nat} (x y : Bytes n) : Int32 := if x = y then 1 else 0

/-- `ExtendedPoint.SetRistretto` (curve.go:224-268): the point written and the value of
`ret`; the Go method returns `ret == 0`. -/
def setRistrettoI (buf : Bytes 32) : ExtPt F × Int32 :=
  let s : F := setBytes buf
  let buf2 := bytes s
  let s := touch s
  let ret : Int32 := 1 - constantTimeCompare buf buf2
  let ret := ret ||| (buf2[0] &&& 1).toUInt32.toInt32
  let s2 := square s
  let yDen := FieldOps.add feOne s2
  let yNum := FieldOps.sub feOne s2
  let yDen2 := square yDen
  let xDen2 := square yNum
  let xDen2 := mul xDen2 feD
  let xDen2 := FieldOps.add xDen2 yDen2
  let xDen2 := FieldOps.neg xDen2
  let t := mul xDen2 yDen2
  let isr := invSqrt t
  let chk := square isr
  let chk := mul chk t
  let ret := ret ||| (1 - isOneI chk)
  let xDenInv := mul isr yDen
  let yDenInv := mul xDenInv isr
  let yDenInv := mul yDenInv xDen2
  let X := mul s xDenInv
  let X := FieldOps.add X X
  let b := isNegativeI X
  let X := touch X
  let t := FieldOps.neg X
  let X := FieldOps.condSet X t b
  let Y := mul yNum yDenInv
  let Z : F := feOne
  let T := mul X Y
  let ret := ret ||| isNegativeI T
  let T := touch T
  let ret := ret ||| (1 - isNonZeroI Y)
  let Y := touch Y
  (⟨FieldOps.condSet X feZero ret, FieldOps.condSet Y feZero ret, FieldOps.condSet Z feZero ret,
    FieldOps.condSet T feZero ret⟩, ret)

/-- `ExtendedPoint.SetRistretto` (curve.go:224-268): the point written and whether the buffer was
accepted. -/
def setRistretto (buf : Bytes 32) : ExtPt F × Bool :=
  let r := setRistrettoI buf
  (r.1, r.2 == 0)

/-- `ExtendedPoint.RistrettoInto` (curve.go:280-325), and `Ristretto` (curve.go:272-276). -/
def ristretto (p : ExtPt F) : Bytes 32 :=
  let d := FieldOps.add p.Z p.Y
  let u1 := FieldOps.sub p.Z p.Y
  let u1 := mul u1 d
  let u2 := mul p.X p.Y
  let isr := square u2
  let isr := mul isr u1
  let isr := invSqrt isr
  let i1 := mul isr u1
  let i2 := mul isr u2
  let zInv := mul i1 i2
  let zInv := mul zInv p.T
  let d := mul zInv p.T
  let nx := mul p.Y feI
  let ny := mul p.X feI
  let denInv := mul feInvSqrtMinusDMinusOne i1
  let b := 1 - isNegativeI d
  let nx := FieldOps.condSet nx p.X b
  let ny := FieldOps.condSet ny p.Y b
  let denInv := FieldOps.condSet denInv i2 b
  let d := mul nx zInv
  let b := isNegativeI d
  let d := FieldOps.neg ny
  let ny := FieldOps.condSet ny d b
  let s := FieldOps.sub p.Z ny
  let s := mul s denInv
  let b := isNegativeI s
  let s := touch s
  let d := FieldOps.neg s
  let s := FieldOps.condSet s d b
  bytes s

end ExtPt

/-! ## Windowed scalar multiplication (curve.go:327-406) -/

/-- `int8(b)` for a byte `b`. -/
abbrev i8 (b : UInt8) : Int8 := b.toInt8

/-- One round `i` of the first loop of `computeScalarWindow5` (curve.go:330-343): eight digits
from bytes `s[5i..5i+4]`. -/
def window5Chunk (a b c d e : UInt8) : List Int8 :=
  [ i8 (a &&& 31),
    i8 ((a >>> 5) &&& 31) ^^^ i8 ((b <<< 3) &&& 31),
    i8 ((b >>> 2) &&& 31),
    i8 ((b >>> 7) &&& 31) ^^^ i8 ((c <<< 1) &&& 31),
    i8 ((c >>> 4) &&& 31) ^^^ i8 ((d <<< 4) &&& 31),
    i8 ((d >>> 1) &&& 31),
    i8 ((d >>> 6) &&& 31) ^^^ i8 ((e <<< 2) &&& 31),
    i8 ((e >>> 3) &&& 31) ]

/-- The unsigned digits `computeScalarWindow5` starts from (curve.go:329-347). -/
def window5Raw (s : Bytes 32) : List Int8 :=
  window5Chunk s[0] s[1] s[2] s[3] s[4] ++
  window5Chunk s[5] s[6] s[7] s[8] s[9] ++
  window5Chunk s[10] s[11] s[12] s[13] s[14] ++
  window5Chunk s[15] s[16] s[17] s[18] s[19] ++
  window5Chunk s[20] s[21] s[22] s[23] s[24] ++
  window5Chunk s[25] s[26] s[27] s[28] s[29] ++
  [ i8 (s[30] &&& 31),
    i8 ((s[30] >>> 5) &&& 31) ^^^ i8 ((s[31] <<< 3) &&& 31),
    i8 ((s[31] >>> 2) &&& 31) ]

/-- "Making it signed" (curve.go:349-357): the loop over `w[0..49]` and the final `w[50] += carry`.
`a` is the current value of `w[i]` and the list holds `w[i+1..50]`. -/
def window5Sign : Int8 → Int8 → List Int8 → List Int8
  | carry, a, [] => [a + carry]
  | carry, a, b :: rest =>
    let a := a + carry
    let b := b + (a >>> 5)
    let a := a &&& 31
    let carry := a >>> 4
    let a := a - (carry <<< 5)
    a :: window5Sign carry b rest

/-- `computeScalarWindow5` (curve.go:328-358). -/
def computeScalarWindow5 (s : Bytes 32) : List Int8 :=
  match window5Raw s with
  | [] => []
  | a :: rest => window5Sign 0 a rest

/-- The table `lut[0..16]` of `ExtendedPoint.ScalarMult` (curve.go:370-376). -/
def scalarMultLut (q : ExtPt F) : List (ExtPt F) :=
  let l0 := ExtPt.zero
  let l1 := q
  let l2 := ExtPt.double l1
  let l3 := ExtPt.add l2 q
  let l4 := ExtPt.double l2
  let l5 := ExtPt.add l4 q
  let l6 := ExtPt.double l3
  let l7 := ExtPt.add l6 q
  let l8 := ExtPt.double l4
  let l9 := ExtPt.add l8 q
  let l10 := ExtPt.double l5
  let l11 := ExtPt.add l10 q
  let l12 := ExtPt.double l6
  let l13 := ExtPt.add l12 q
  let l14 := ExtPt.double l7
  let l15 := ExtPt.add l14 q
  let l16 := ExtPt.double l8
  [l0, l1, l2, l3, l4, l5, l6, l7, l8, l9, l10, l11, l12, l13, l14, l15, l16]

/-- The selection loop `for j := 1; j <= 16; j++` (curve.go:392-395); `rest` is `lut[j..16]`. -/
def scalarMultSelectLoop (b : Int32) : Int32 → List (ExtPt F) → ExtPt F → ExtPt F
  | _, [], t => t
  | j, e :: rest, t =>
    let c := equal15 b (-j) ||| equal15 b j
    scalarMultSelectLoop b (j + 1) rest (t.condSet e c)

/-- Select `lut[|b|]` with the sign of `b` (curve.go:390-401). -/
def scalarMultSelect (lut : List (ExtPt F)) (b : Int32) : ExtPt F :=
  let t := scalarMultSelectLoop b 1 lut.tail (lut.headD ExtPt.zero)
  let c := negative b
  let v := neg t.X
  let X := condSet t.X v c
  let v := neg t.T
  let T := condSet t.T v c
  ⟨X, t.Y, t.Z, T⟩

/-- One iteration of the main loop of `ScalarMult` (curve.go:380-403) with digit `w`. -/
def scalarMultStep (lut : List (ExtPt F)) (p : ExtPt F) (w : Int8) : ExtPt F :=
  let cp := ComplPt.doubleExtended p
  let cp := ComplPt.doubleProjective cp.toProjective
  let cp := ComplPt.doubleProjective cp.toProjective
  let cp := ComplPt.doubleProjective cp.toProjective
  let cp := ComplPt.doubleProjective cp.toProjective
  let p := cp.toExtended
  ExtPt.add p (scalarMultSelect lut w.toInt32)

/-- `ExtendedPoint.ScalarMult` (curve.go:361-406). -/
def scalarMult (q : ExtPt F) (s : Bytes 32) : ExtPt F :=
  let window := computeScalarWindow5 s
  let lut := scalarMultLut q
  window.reverse.foldl (scalarMultStep lut) ExtPt.zero

/-! ## Variable-time scalar multiplication (vartime.go) -/

/-- The words `x[0..3]` of `computeScalar5NAF`, loaded with `load8u` (vartime.go:3-14, 20-23);
`x[4]` stays zero, and indices above 4 are not used. -/
def nafWord (s : Bytes 32) : Nat → UInt64
  | 0 => leUint64 s[0] s[1] s[2] s[3] s[4] s[5] s[6] s[7]
  | 1 => leUint64 s[8] s[9] s[10] s[11] s[12] s[13] s[14] s[15]
  | 2 => leUint64 s[16] s[17] s[18] s[19] s[20] s[21] s[22] s[23]
  | 3 => leUint64 s[24] s[25] s[26] s[27] s[28] s[29] s[30] s[31]
  | _ => 0

/-- `bit_buf` (vartime.go:27-34): the bits of the scalar from position `pos` on (at least five
of them). -/
def nafBits (x : Nat → UInt64) (pos : Nat) : UInt64 :=
  let idx := pos / 64
  let bitIdx := pos % 64
  if bitIdx < 59 then x idx >>> (UInt64.ofNat bitIdx)
  else (x idx >>> (UInt64.ofNat bitIdx)) ||| (x (1 + idx) <<< (UInt64.ofNat (64 - bitIdx)))

/-- The array `naf` with entry `pos` replaced. -/
def nafSet (naf : Nat → Int8) (pos : Nat) (v : Int8) : Nat → Int8 :=
  fun i => if i = pos then v else naf i

/-- The loop of `computeScalar5NAF` (vartime.go:26-50).  The fuel counts iterations; `pos` grows in
each one, so 256 are enough. -/
def nafLoop (x : Nat → UInt64) : Nat → Nat → UInt64 → (Nat → Int8) → (Nat → Int8)
  | 0, _, _, naf => naf
  | fuel + 1, pos, carry, naf =>
    if pos < 256 then
      let window := carry + (nafBits x pos &&& 31)
      if window &&& 1 == 0 then nafLoop x fuel (pos + 1) carry naf
      else if window < 16 then
        nafLoop x fuel (pos + 5) 0 (nafSet naf pos window.toUInt8.toInt8)
      else
        nafLoop x fuel (pos + 5) 1 (nafSet naf pos (window.toUInt8.toInt8 - 32))
    else naf

/-- `computeScalar5NAF` on a zero-initialised array (vartime.go:19-51). -/
def computeScalar5NAF (s : Bytes 32) : Nat → Int8 := nafLoop (nafWord s) 256 0 0 (fun _ => 0)

/-- The table `lut[0..7]` of odd multiples (vartime.go:54-62). -/
def varTimeLutLoop (dblQ : ExtPt F) : Nat → ExtPt F → List (ExtPt F)
  | 0, _ => []
  | n + 1, cur => cur :: varTimeLutLoop dblQ n (ExtPt.add cur dblQ)

/-- See `varTimeLutLoop`. -/
def varTimeLut (q : ExtPt F) : List (ExtPt F) := varTimeLutLoop (ExtPt.double q) 8 q

/-- "Skip the trailing zeroes" (vartime.go:68-74): the index of the highest nonzero digit below
`n`, or none (the Go code's -1). -/
def nafTop (naf : Nat → Int8) : Nat → Option Nat
  | 0 => none
  | n + 1 => if naf n ≠ 0 then some n else nafTop naf n

/-- `lut[k]` for a Go index expression `k` of type int8: `none` models the run-time panic. -/
def lutGet {α : Type} (lut : List α) (k : Int8) : Option α :=
  if k < 0 then none else lut[k.toInt.toNat]?

/-- "Find next non-zero digit" (vartime.go:101-108). -/
def nafSkip (naf : Nat → Int8) : Nat → ComplPt F → Nat × ComplPt F
  | 0, cp => (0, cp)
  | i + 1, cp =>
    if naf (i + 1) ≠ 0 then (i + 1, cp)
    else nafSkip naf i (ComplPt.doubleProjective cp.toProjective)

/-- The addition or subtraction for a nonzero digit (vartime.go:85-90); `none` models a panic. -/
def varTimeDigit (d : Int8) (lut : List (ExtPt F)) (p : ExtPt F) : Option (ComplPt F) :=
  if d > 0 then (lutGet lut ((d + 1) / 2 - 1)).map (ComplPt.addExtended p)
  else (lutGet lut ((1 - d) / 2 - 1)).map (ComplPt.subExtended p)

/-- The main loop (vartime.go:84-114).  The fuel counts iterations; `i` decreases in each one.
`none` models a panic (or running out of fuel). -/
def varTimeLoop (naf : Nat → Int8) (lut : List (ExtPt F)) : Nat → Nat → ExtPt F → Option (ExtPt F)
  | 0, _, _ => none
  | fuel + 1, i, p => do
    let cp ← varTimeDigit (naf i) lut p
    match i with
    | 0 => pure cp.toExtended
    | i' + 1 =>
      let cp := ComplPt.doubleProjective cp.toProjective
      let (j, cp) := nafSkip naf i' cp
      let p := cp.toExtended
      if naf j = 0 then pure p else varTimeLoop naf lut fuel j p

/-- `ExtendedPoint.VarTimeScalarMult` (vartime.go:53-117); `none` models a panic. -/
def varTimeScalarMult (q : ExtPt F) (s : Bytes 32) : Option (ExtPt F) :=
  let lut := varTimeLut q
  let naf := computeScalar5NAF s
  match nafTop naf 256 with
  | none => some ExtPt.zero
  | some i => varTimeLoop naf lut (i + 1) i ExtPt.zero

/-! ## Precomputed tables (table.go) -/

namespace NielsPt

/-- `NielsPoint.SetZero` (table.go:11-16). -/
def zero : NielsPt F := { YMinusX := feOne, YPlusX := feOne, XY2D := feZero }
/-- `NielsPoint.ConditionalSet` (table.go:27-32). -/
def condSet (p q : NielsPt F) (b : Int32) : NielsPt F :=
  ⟨FieldOps.condSet p.YPlusX q.YPlusX b, FieldOps.condSet p.YMinusX q.YMinusX b,
   FieldOps.condSet p.XY2D q.XY2D b⟩
/-- `NielsPoint.Neg` (table.go:35-40). -/
def neg (q : NielsPt F) : NielsPt F :=
  { YMinusX := q.YPlusX, YPlusX := q.YMinusX, XY2D := FieldOps.neg q.XY2D }
/-- `NielsPoint.SetExtended` (table.go:77-88). -/
def ofExtended (q : ExtPt F) : NielsPt F :=
  let zInv := feInverse q.Z
  let x := mul q.X zInv
  let y := mul q.Y zInv
  let YPlusX := feAdd y x
  let YMinusX := feSub y x
  let XY2D := mul x y
  let XY2D := feAdd XY2D XY2D
  let XY2D := mul XY2D feD
  ⟨YPlusX, YMinusX, XY2D⟩

end NielsPt

/-- `ScalarMultTable` (table.go:8): 32 rows of 8 entries. -/
abbrev Table (F : Type) := List (List (NielsPt F))

/-- The loop `for v := 0; v < 8; v++` of `Compute` (table.go:98-101): a row and the final `c`. -/
def tableRow (cp : ExtPt F) : Nat → ExtPt F → List (NielsPt F) × ExtPt F
  | 0, c => ([], c)
  | n + 1, c =>
    let c := ExtPt.add c cp
    let r := tableRow cp n c
    (NielsPt.ofExtended c :: r.1, r.2)

/-- The loop `for i := 0; i < 32; i++` of `Compute` (table.go:96-112). -/
def tableLoop : Nat → ExtPt F → Table F
  | 0, _ => []
  | n + 1, cp =>
    let r := tableRow cp 8 ExtPt.zero
    let c := ComplPt.doubleExtended r.2
    let c := ComplPt.doubleProjective c.toProjective
    let c := ComplPt.doubleProjective c.toProjective
    let c := ComplPt.doubleProjective c.toProjective
    let c := ComplPt.doubleProjective c.toProjective
    r.1 :: tableLoop n c.toExtended

/-- `ScalarMultTable.Compute` (table.go:91-113). -/
def tableCompute (p : ExtPt F) : Table F := tableLoop 32 p

/-- The first loop of `computeScalarWindow4` (table.go:117-120). -/
def window4Raw (s : Bytes 32) : List Int8 :=
  s.toList.flatMap fun b => [i8 (b &&& 15), i8 ((b >>> 4) &&& 15)]

/-- The second loop of `computeScalarWindow4` (table.go:121-127).
`a` is the current value of `w[i]` and the list holds `w[i+1..63]`. -/
def window4Sign : Int8 → Int8 → List Int8 → List Int8
  | carry, a, [] => [a + carry]
  | carry, a, b :: rest =>
    let a := a + carry
    let carry := (a + 8) >>> 4
    let a := a - (carry <<< 4)
    a :: window4Sign carry b rest

/-- `computeScalarWindow4` (table.go:116-128). -/
def computeScalarWindow4 (s : Bytes 32) : List Int8 :=
  match window4Raw s with
  | [] => []
  | a :: rest => window4Sign 0 a rest

/-- The entries `w[2i]`, `i = 0..31`. -/
def evens {α : Type} : List α → List α
  | a :: _ :: rest => a :: evens rest
  | [a] => [a]
  | [] => []

/-- The entries `w[2i+1]`, `i = 0..31`. -/
def odds {α : Type} : List α → List α
  | _ :: b :: rest => b :: odds rest
  | _ => []

/-- The loop of `selectPoint` (table.go:199-201). -/
def selectLoop (bAbs : Int32) : Int32 → List (NielsPt F) → NielsPt F → NielsPt F
  | _, [], p => p
  | i, e :: rest, p => selectLoop bAbs (i + 1) rest (p.condSet e (equal30 bAbs (i + 1)))

/-- `ScalarMultTable.selectPoint` on row `t[pos]` (table.go:195-205). -/
def selectPoint (row : List (NielsPt F)) (b : Int32) : NielsPt F :=
  let bNegative := negative b
  let bAbs := b - (((-bNegative) &&& b) <<< 1)
  let p := selectLoop bAbs 0 row NielsPt.zero
  let negP := p.neg
  p.condSet negP bNegative

/-- One of the two addition loops of `ScalarMultTable.ScalarMult` (table.go:140-144,155-159). -/
def tableAddLoop : List (List (NielsPt F)) → List Int8 → ExtPt F → ExtPt F
  | row :: rows, w :: ws, p =>
    tableAddLoop rows ws (ComplPt.addExtendedNiels p (selectPoint row w.toInt32)).toExtended
  | _, _, p => p

/-- The four doublings between the loops (table.go:146-153, 179-186). -/
def double4 (p : ExtPt F) : ExtPt F :=
  let cp := ComplPt.doubleExtended p
  let cp := ComplPt.doubleProjective cp.toProjective
  let cp := ComplPt.doubleProjective cp.toProjective
  let cp := ComplPt.doubleProjective cp.toProjective
  cp.toExtended

/-- `ScalarMultTable.ScalarMult` (table.go:131-160). -/
def tableScalarMult (t : Table F) (s : Bytes 32) : ExtPt F :=
  let w := computeScalarWindow4 s
  let p := tableAddLoop t (odds w) ExtPt.zero
  let p := double4 p
  tableAddLoop t (evens w) p

/-- `ScalarMultTable.varTimeSelectPoint` on row `t[pos]` (table.go:207-217) for nonzero `b`;
`none` models an index-out-of-range panic. -/
def varTimeSelectPoint (row : List (NielsPt F)) (b : Int32) : Option (NielsPt F) :=
  if b < 0 then (row[(-b - 1).toInt.toNat]?).map NielsPt.neg
  else row[(b - 1).toInt.toNat]?

/-- One of the two addition loops of `ScalarMultTable.VarTimeScalarMult`
(table.go:171-176,188-192). -/
def tableVarTimeLoop : List (List (NielsPt F)) → List Int8 → ExtPt F → Option (ExtPt F)
  | row :: rows, w :: ws, p =>
    if w.toInt32 = 0 then tableVarTimeLoop rows ws p
    else do
      let np ← varTimeSelectPoint row w.toInt32
      tableVarTimeLoop rows ws (ComplPt.addExtendedNiels p np).toExtended
  | _, _, p => some p

/-- `ScalarMultTable.VarTimeScalarMult` (table.go:162-193); `none` models a panic. -/
def tableVarTimeScalarMult (t : Table F) (s : Bytes 32) : Option (ExtPt F) := do
  let w := computeScalarWindow4 s
  let p ← tableVarTimeLoop t (odds w) ExtPt.zero
  tableVarTimeLoop t (evens w) (double4 p)

end Ristretto.Model
