import Verif.Model.Curve

/-!
# edwards25519/elligator.go
-/

namespace Ristretto.Model
open FieldOps

/-- `JacobiPoint` (elligator.go:9-11). -/
structure JacPt (F : Type) where
  S : F
  T : F

variable {F : Type} [FieldOps F]

/-- `JacobiPoint.Dual` (elligator.go:137-142). -/
def JacPt.dual (q : JacPt F) : JacPt F := ⟨neg q.S, neg q.T⟩

/-- `ExtendedPoint.ToJacobiQuarticRistretto` (elligator.go:57-135): the four points written.
(`IsNonZeroI` on `p.X` and `p.Y` also replaces them by `touch` of themselves.) -/
def toJacobiQuarticRistretto (p : ExtPt F) : JacPt F × JacPt F × JacPt F × JacPt F :=
  let X2 := square p.X
  let Y2 := square p.Y
  let Y4 := square Y2
  let Z2 := square p.Z
  let ZmY := sub p.Z p.Y
  let ZpY := add p.Z p.Y
  let Z2mY2 := sub Z2 Y2
  let gamma := mul Y4 X2
  let gamma := mul gamma Z2mY2
  let gamma := invSqrt gamma
  let den := mul gamma Y2
  let sOverX := mul den ZmY
  let spOverXp := mul den ZpY
  let s0 := mul sOverX p.X
  let tmp := mul spOverXp p.X
  let s1 := neg tmp
  let tmp := mul feDoubleInvSqrtMinusDMinusOne p.Z
  let t0 := mul tmp sOverX
  let t1 := mul tmp spOverXp
  let den := neg Z2mY2
  let den := mul den feInvSqrt1pD
  let den := mul den gamma
  let iZ := mul feI p.Z
  let iZmX := sub iZ p.X
  let iZpX := add iZ p.X
  let sOverY := mul den iZmX
  let spOverYp := mul den iZpX
  let s2 := mul sOverY p.Y
  let tmp := mul spOverYp p.Y
  let s3 := neg tmp
  let tmp := mul feDoubleInvSqrtMinusDMinusOne iZ
  let t2 := mul tmp sOverY
  let t3 := mul tmp spOverYp
  let XorYisZero := 1 - (isNonZeroI p.X &&& isNonZeroI p.Y)
  let t0 := condSet t0 feOne XorYisZero
  let t1 := condSet t1 feOne XorYisZero
  let t2 := condSet t2 feDoubleIInvSqrtMinusDMinusOne XorYisZero
  let t3 := condSet t3 feDoubleIInvSqrtMinusDMinusOne XorYisZero
  let s2 := condSet s2 feOne XorYisZero
  let s3 := condSet s3 feMinusOne XorYisZero
  (⟨s0, t0⟩, ⟨s1, t1⟩, ⟨s2, t2⟩, ⟨s3, t3⟩)

/-- What `ToJacobiQuarticRistretto` leaves in its receiver (elligator.go:126): `IsNonZeroI` is called on `p.X` and
`p.Y`. -/
def toJacobiQuarticRistrettoRecv (p : ExtPt F) : ExtPt F := ⟨touch p.X, touch p.Y, p.Z, p.T⟩

/-- `JacobiPoint.elligator2Inverse` (elligator.go:151-192): the field element written and the
value returned (an `int` that is 0 or 1). -/
def elligator2Inverse (p : JacPt F) : F × Int32 :=
  let sNonZero := isNonZeroI p.S
  let pS := touch p.S
  let tEqualsOne := feEqualsI p.T feOne
  let out : F := feZero
  let out := condSet out feSqrtID tEqualsOne
  let ret := 1 - sNonZero
  let done := 1 - sNonZero
  let a := add p.T feOne
  let a := mul a feDp1OverDm1
  let a2 := square a
  let S2 := square pS
  let S4 := square S2
  let invSqiY := sub S4 a2
  let r := invSqrtI invSqiY
  let y := r.1
  let sq := r.2
  let ret := ret ||| (1 - sq)
  let done := done ||| sq
  let negS2 := neg S2
  let S2 := condSet S2 negS2 (isNegativeI pS)
  let x := add a S2
  let x := mul x y
  let x := feAbsSelf x
  let out := condSet out x (1 - done)
  (out, ret)

/-- What `elligator2Inverse` leaves in its receiver: `IsNonZeroI` and `IsNegativeI` are called on
`p.S`. -/
def elligator2InverseRecv (p : JacPt F) : JacPt F := ⟨touch (touch p.S), p.T⟩

/-- `ExtendedPoint.RistrettoElligator2Inverse` (elligator.go:17-50): the eight entries of `fes`,
each with its bit of the mask. -/
def ristrettoElligator2Inverse (p : ExtPt F) : List (F × Int32) :=
  let jcs := toJacobiQuarticRistretto p
  [jcs.1, jcs.2.1, jcs.2.2.1, jcs.2.2.2].flatMap fun j =>
    [elligator2Inverse j, elligator2Inverse (elligator2InverseRecv j).dual]

/-- `CompletedPoint.SetJacobiQuartic` (elligator.go:196-212). -/
def setJacobiQuartic (jc : JacPt F) : ComplPt F :=
  let s2 := square jc.S
  { X := mul jc.S feDoubleInvSqrtMinusDMinusOne
    Z := jc.T
    Y := sub feOne s2
    T := add feOne s2 }

/-- The point on the Jacobi quartic computed by `SetRistrettoElligator2` (elligator.go:216-264). -/
def elligator2Jacobi (r0 : F) : JacPt F :=
  let r0i := mul r0 feI
  let r := mul r0 r0i
  let rPlusD := add feD r
  let D := mul feD r
  let D := add D feOne
  let D := mul D rPlusD
  let D := neg D
  let rPlusOne := add r feOne
  let N := mul feOneMinusDSquared rPlusOne
  let ND := mul N D
  let rb := invSqrtI ND
  let sqrt := rb.1
  let b := rb.2
  let sqrt := feAbsSelf sqrt
  let twiddle : F := feOne
  let twiddle := condSet twiddle r0i (1 - b)
  let sgn : F := feOne
  let sgn := condSet sgn feMinusOne (1 - b)
  let sqrt := mul sqrt twiddle
  let S := mul sqrt N
  let T := neg sgn
  let T := mul sqrt T
  let T := mul S T
  let T := mul feDMinusOneSquared T
  let rSubOne := sub r feOne
  let T := mul rSubOne T
  let T := sub T feOne
  let sNeg := neg S
  let S := condSet (touch S) sNeg (equal30 (isNegativeI S) b)
  ⟨S, T⟩

/-- `CompletedPoint.SetRistrettoElligator2` (elligator.go:216-266). -/
def setRistrettoElligator2 (r0 : F) : ComplPt F := setJacobiQuartic (elligator2Jacobi r0)

end Ristretto.Model
