import Verif.Model.Machine
import Verif.Model.Field51
import Verif.Model.FieldOps

/-!
# Methods that write through pointers

The other model files give a method as a function from argument values to the value written.  In Go
a method reads its arguments and writes its receiver through pointers, statement by statement, and the
pointers may be equal (`p.Add(p, q)`, `s.Mul(s, s)`).  Here the methods that take a pointer of the
type of their receiver are written again, as sequences of loads and stores on a memory, in the order
of the statements in /repo.  `Verif.Props.Alias` shows that the two agree for every aliasing.

Cells: a variable of the client is `var n`; a local variable of a function of the package is
`loc n`.  Every local variable has its own number (no function of the package is active twice at
the same time).  Local variables are not set to zero on entry; the results do not depend on it.
A local variable whose address is not taken is a Lean variable.
-/

namespace Ristretto.Model.Alias

/-- A variable: one of the client's, or a local one of the package. -/
inductive Base where
  | var (n : Nat)
  | loc (n : Nat)
deriving DecidableEq

/-- The address of field element number `fld` of a variable (an `ExtendedPoint` or
`CompletedPoint` has X, Y, Z, T at 0, 1, 2, 3; a `ProjectivePoint` X, Y, Z; a `FieldElement` is at
0). -/
structure Addr where
  base : Base
  fld : Nat
deriving DecidableEq

/-- The field elements in memory. -/
abbrev FMem := Addr → Fe51

/-- Word `i` of a field element. -/
def limb (x : Fe51) : Nat → UInt64
  | 0 => x.l0
  | 1 => x.l1
  | 2 => x.l2
  | 3 => x.l3
  | _ => x.l4

/-- A field element with word `i` replaced. -/
def setLimb (x : Fe51) (i : Nat) (v : UInt64) : Fe51 :=
  match i with
  | 0 => { x with l0 := v }
  | 1 => { x with l1 := v }
  | 2 => { x with l2 := v }
  | 3 => { x with l3 := v }
  | _ => { x with l4 := v }

/-- Load `a[i]`. -/
def rd (m : FMem) (a : Addr) (i : Nat) : UInt64 := limb (m a) i
/-- Store `a[i] = v`. -/
def wr (m : FMem) (a : Addr) (i : Nat) (v : UInt64) : FMem :=
  fun x => if x = a then setLimb (m x) i v else m x
/-- `*a = v` for a whole field element. -/
def assign (m : FMem) (a : Addr) (v : Fe51) : FMem := fun x => if x = a then v else m x

/-! ## Field elements (field_radix51.go, field_mul64.go, field.go) -/

/-- `FieldElement.Neg` (field_radix51.go:102-124): `t = *a`, the carries on `t`, then five
stores. -/
def negI (fe a : Addr) (m : FMem) : FMem :=
  let t := (m a).carryChain
  let m := wr m fe 0 (0xfffffffffffda - t.l0)
  let m := wr m fe 1 (0xffffffffffffe - t.l1)
  let m := wr m fe 2 (0xffffffffffffe - t.l2)
  let m := wr m fe 3 (0xffffffffffffe - t.l3)
  wr m fe 4 (0xffffffffffffe - t.l4)

/-- `FieldElement.sub` (field_radix51.go:127-149): `t = *b`, the carries on `t`, then five stores
that load `a`. -/
def subI (fe a b : Addr) (m : FMem) : FMem :=
  let t := (m b).carryChain
  let m := wr m fe 0 ((rd m a 0 + 0xfffffffffffda) - t.l0)
  let m := wr m fe 1 ((rd m a 1 + 0xffffffffffffe) - t.l1)
  let m := wr m fe 2 ((rd m a 2 + 0xffffffffffffe) - t.l2)
  let m := wr m fe 3 ((rd m a 3 + 0xffffffffffffe) - t.l3)
  wr m fe 4 ((rd m a 4 + 0xffffffffffffe) - t.l4)

/-- `FieldElement.add` (field_radix51.go:152-159). -/
def addI (fe a b : Addr) (m : FMem) : FMem :=
  let m := wr m fe 0 (rd m a 0 + rd m b 0)
  let m := wr m fe 1 (rd m a 1 + rd m b 1)
  let m := wr m fe 2 (rd m a 2 + rd m b 2)
  let m := wr m fe 3 (rd m a 3 + rd m b 3)
  wr m fe 4 (rd m a 4 + rd m b 4)

/-- `FieldElement.setReduced` (field_radix51.go:167-200): all but the first statement work in
place on `fe`. -/
def setReducedI (fe a : Addr) (m : FMem) : FMem :=
  let m := assign m fe (m a)
  let m := wr m fe 1 (rd m fe 1 + (rd m fe 0 >>> 51))
  let m := wr m fe 0 (rd m fe 0 &&& 0x7ffffffffffff)
  let m := wr m fe 2 (rd m fe 2 + (rd m fe 1 >>> 51))
  let m := wr m fe 1 (rd m fe 1 &&& 0x7ffffffffffff)
  let m := wr m fe 3 (rd m fe 3 + (rd m fe 2 >>> 51))
  let m := wr m fe 2 (rd m fe 2 &&& 0x7ffffffffffff)
  let m := wr m fe 4 (rd m fe 4 + (rd m fe 3 >>> 51))
  let m := wr m fe 3 (rd m fe 3 &&& 0x7ffffffffffff)
  let m := wr m fe 0 (rd m fe 0 + (rd m fe 4 >>> 51) * 19)
  let m := wr m fe 4 (rd m fe 4 &&& 0x7ffffffffffff)
  let c := (rd m fe 0 + 19) >>> 51
  let c := (rd m fe 1 + c) >>> 51
  let c := (rd m fe 2 + c) >>> 51
  let c := (rd m fe 3 + c) >>> 51
  let c := (rd m fe 4 + c) >>> 51
  let m := wr m fe 0 (rd m fe 0 + 19 * c)
  let m := wr m fe 1 (rd m fe 1 + (rd m fe 0 >>> 51))
  let m := wr m fe 0 (rd m fe 0 &&& 0x7ffffffffffff)
  let m := wr m fe 2 (rd m fe 2 + (rd m fe 1 >>> 51))
  let m := wr m fe 1 (rd m fe 1 &&& 0x7ffffffffffff)
  let m := wr m fe 3 (rd m fe 3 + (rd m fe 2 >>> 51))
  let m := wr m fe 2 (rd m fe 2 &&& 0x7ffffffffffff)
  let m := wr m fe 4 (rd m fe 4 + (rd m fe 3 >>> 51))
  let m := wr m fe 3 (rd m fe 3 &&& 0x7ffffffffffff)
  wr m fe 4 (rd m fe 4 &&& 0x7ffffffffffff)

/-- `FieldElement.ConditionalSet` (field_radix51.go:203-210). -/
def condSetI (fe a : Addr) (b : Int32) (m : FMem) : FMem :=
  let b2 := maskOf b
  let m := wr m fe 0 (rd m fe 0 ^^^ (b2 &&& (rd m fe 0 ^^^ rd m a 0)))
  let m := wr m fe 1 (rd m fe 1 ^^^ (b2 &&& (rd m fe 1 ^^^ rd m a 1)))
  let m := wr m fe 2 (rd m fe 2 ^^^ (b2 &&& (rd m fe 2 ^^^ rd m a 2)))
  let m := wr m fe 3 (rd m fe 3 ^^^ (b2 &&& (rd m fe 3 ^^^ rd m a 3)))
  wr m fe 4 (rd m fe 4 ^^^ (b2 &&& (rd m fe 4 ^^^ rd m a 4)))

/-- `FieldElement.Set` (field.go:45-48): `copy` handles overlap. -/
def setI (fe a : Addr) (m : FMem) : FMem := assign m fe (m a)

/-- The five stores that end `Mul`, `Square` and `DoubledSquare` (field_mul64.go:123-127,
205-209, 291-295). -/
def storeI (fe : Addr) (v : Fe51) (m : FMem) : FMem :=
  let m := wr m fe 0 v.l0
  let m := wr m fe 1 v.l1
  let m := wr m fe 2 v.l2
  let m := wr m fe 3 v.l3
  wr m fe 4 v.l4

/-- `FieldElement.Mul` (field_mul64.go:11-129): both operands are loaded into local variables
(lines 14-24) before the first store. -/
def mulI (fe a b : Addr) (m : FMem) : FMem := storeI fe (Fe51.mul (m a) (m b)) m
/-- `FieldElement.Square` (field_mul64.go:132-211); see `mulI`. -/
def squareI (fe a : Addr) (m : FMem) : FMem := storeI fe (Fe51.square (m a)) m
/-- `FieldElement.DoubledSquare` (field_mul64.go:214-297); see `mulI`. -/
def doubledSquareI (fe a : Addr) (m : FMem) : FMem := storeI fe (Fe51.doubledSquare (m a)) m
/-- `FieldElement.Add` (field.go:35-37) with `normalize` (field_radix51.go:162-164). -/
def feAddI (fe a b : Addr) (m : FMem) : FMem := setReducedI fe fe (addI fe a b m)
/-- `FieldElement.Sub` (field.go:40-42). -/
def feSubI (fe a b : Addr) (m : FMem) : FMem := setReducedI fe fe (subI fe a b m)
/-- `FieldElement.Abs` (field.go:112-118); the variable `xNeg` is `loc 0`.  `IsNegativeI` does not
write its receiver in this build (field_radix51.go:213-254). -/
def absI (fe x : Addr) (m : FMem) : FMem :=
  let m := negI ⟨.loc 0, 0⟩ x m
  let m := setI fe x m
  condSetI fe ⟨.loc 0, 0⟩ (isNegativeI (m x)) m

/-! ## Points (curve.go) -/

/-- The value of the `ExtendedPoint` at `b`. -/
def pt (m : FMem) (b : Base) : ExtPt Fe51 := ⟨m ⟨b, 0⟩, m ⟨b, 1⟩, m ⟨b, 2⟩, m ⟨b, 3⟩⟩
/-- The value of the `CompletedPoint` at `b`. -/
def cpt (m : FMem) (b : Base) : ComplPt Fe51 := ⟨m ⟨b, 0⟩, m ⟨b, 1⟩, m ⟨b, 2⟩, m ⟨b, 3⟩⟩
/-- The value of the `ProjectivePoint` at `b`. -/
def ppt (m : FMem) (b : Base) : ProjPt Fe51 := ⟨m ⟨b, 0⟩, m ⟨b, 1⟩, m ⟨b, 2⟩⟩

/-- The address of a local `FieldElement` variable. -/
abbrev lf (n : Nat) : Addr := ⟨.loc n, 0⟩

/-- `ExtendedPoint.Set` (curve.go:76-82). -/
def ptSetI (p q : Base) (m : FMem) : FMem :=
  let m := setI ⟨p, 0⟩ ⟨q, 0⟩ m
  let m := setI ⟨p, 1⟩ ⟨q, 1⟩ m
  let m := setI ⟨p, 2⟩ ⟨q, 2⟩ m
  setI ⟨p, 3⟩ ⟨q, 3⟩ m

/-- `ExtendedPoint.SetZero` (curve.go:62-68). -/
def ptZeroI (p : Base) (m : FMem) : FMem :=
  let m := assign m ⟨p, 0⟩ FieldOps.feZero
  let m := assign m ⟨p, 1⟩ FieldOps.feOne
  let m := assign m ⟨p, 2⟩ FieldOps.feOne
  assign m ⟨p, 3⟩ FieldOps.feZero

/-- `ExtendedPoint.ConditionalSet` (curve.go:85-91). -/
def ptCondSetI (p q : Base) (b : Int32) (m : FMem) : FMem :=
  let m := condSetI ⟨p, 0⟩ ⟨q, 0⟩ b m
  let m := condSetI ⟨p, 1⟩ ⟨q, 1⟩ b m
  let m := condSetI ⟨p, 2⟩ ⟨q, 2⟩ b m
  condSetI ⟨p, 3⟩ ⟨q, 3⟩ b m

/-- `ExtendedPoint.Neg` (curve.go:409-415). -/
def ptNegI (p q : Base) (m : FMem) : FMem :=
  let m := negI ⟨p, 0⟩ ⟨q, 0⟩ m
  let m := setI ⟨p, 1⟩ ⟨q, 1⟩ m
  let m := setI ⟨p, 2⟩ ⟨q, 2⟩ m
  negI ⟨p, 3⟩ ⟨q, 3⟩ m

/-- The contents of the global `fe2D`. -/
abbrev c2D : Fe51 := FieldOps.fe2D

/-- `CompletedPoint.AddExtended` (curve.go:94-113); `a`, `b`, `c`, `d`, `t` are `loc 0` to
`loc 4`. -/
def addExtendedI (p q r : Base) (m : FMem) : FMem :=
  let m := subI (lf 0) ⟨q, 1⟩ ⟨q, 0⟩ m
  let m := subI (lf 4) ⟨r, 1⟩ ⟨r, 0⟩ m
  let m := mulI (lf 0) (lf 0) (lf 4) m
  let m := addI (lf 1) ⟨q, 0⟩ ⟨q, 1⟩ m
  let m := addI (lf 4) ⟨r, 0⟩ ⟨r, 1⟩ m
  let m := mulI (lf 1) (lf 1) (lf 4) m
  let m := mulI (lf 2) ⟨q, 3⟩ ⟨r, 3⟩ m
  let m := storeI (lf 2) (Fe51.mul (m (lf 2)) c2D) m
  let m := mulI (lf 3) ⟨q, 2⟩ ⟨r, 2⟩ m
  let m := addI (lf 3) (lf 3) (lf 3) m
  let m := subI ⟨p, 0⟩ (lf 1) (lf 0) m
  let m := subI ⟨p, 3⟩ (lf 3) (lf 2) m
  let m := addI ⟨p, 2⟩ (lf 3) (lf 2) m
  addI ⟨p, 1⟩ (lf 1) (lf 0) m

/-- `CompletedPoint.SubExtended` (curve.go:116-135). -/
def subExtendedI (p q r : Base) (m : FMem) : FMem :=
  let m := subI (lf 0) ⟨q, 1⟩ ⟨q, 0⟩ m
  let m := addI (lf 4) ⟨r, 1⟩ ⟨r, 0⟩ m
  let m := mulI (lf 0) (lf 0) (lf 4) m
  let m := addI (lf 1) ⟨q, 0⟩ ⟨q, 1⟩ m
  let m := subI (lf 4) ⟨r, 1⟩ ⟨r, 0⟩ m
  let m := mulI (lf 1) (lf 1) (lf 4) m
  let m := mulI (lf 2) ⟨q, 3⟩ ⟨r, 3⟩ m
  let m := storeI (lf 2) (Fe51.mul (m (lf 2)) c2D) m
  let m := mulI (lf 3) ⟨q, 2⟩ ⟨r, 2⟩ m
  let m := addI (lf 3) (lf 3) (lf 3) m
  let m := subI ⟨p, 0⟩ (lf 1) (lf 0) m
  let m := addI ⟨p, 3⟩ (lf 3) (lf 2) m
  let m := subI ⟨p, 2⟩ (lf 3) (lf 2) m
  addI ⟨p, 1⟩ (lf 1) (lf 0) m

/-- `CompletedPoint.DoubleProjective` (curve.go:138-152); `t0` is `loc 0`. -/
def doubleProjectiveI (p q : Base) (m : FMem) : FMem :=
  let m := squareI ⟨p, 0⟩ ⟨q, 0⟩ m
  let m := squareI ⟨p, 2⟩ ⟨q, 1⟩ m
  let m := doubledSquareI ⟨p, 3⟩ ⟨q, 2⟩ m
  let m := addI ⟨p, 1⟩ ⟨q, 0⟩ ⟨q, 1⟩ m
  let m := squareI (lf 0) ⟨p, 1⟩ m
  let m := addI ⟨p, 1⟩ ⟨p, 2⟩ ⟨p, 0⟩ m
  let m := subI ⟨p, 2⟩ ⟨p, 2⟩ ⟨p, 0⟩ m
  let m := subI ⟨p, 0⟩ (lf 0) ⟨p, 1⟩ m
  subI ⟨p, 3⟩ ⟨p, 3⟩ ⟨p, 2⟩ m

/-- `CompletedPoint.DoubleExtended` (curve.go:155-171); `a`, `b`, `c`, `d` are `loc 0` to
`loc 3`. -/
def doubleExtendedI (p q : Base) (m : FMem) : FMem :=
  let m := squareI (lf 0) ⟨q, 0⟩ m
  let m := squareI (lf 1) ⟨q, 1⟩ m
  let m := doubledSquareI (lf 2) ⟨q, 2⟩ m
  let m := negI (lf 3) (lf 0) m
  let m := addI ⟨p, 0⟩ ⟨q, 0⟩ ⟨q, 1⟩ m
  let m := squareI ⟨p, 0⟩ ⟨p, 0⟩ m
  let m := subI ⟨p, 0⟩ ⟨p, 0⟩ (lf 0) m
  let m := subI ⟨p, 0⟩ ⟨p, 0⟩ (lf 1) m
  let m := addI ⟨p, 2⟩ (lf 3) (lf 1) m
  let m := subI ⟨p, 3⟩ ⟨p, 2⟩ (lf 2) m
  subI ⟨p, 1⟩ (lf 3) (lf 1) m

/-- `ProjectivePoint.SetCompleted` (curve.go:182-187). -/
def projSetCompletedI (p q : Base) (m : FMem) : FMem :=
  let m := mulI ⟨p, 0⟩ ⟨q, 0⟩ ⟨q, 3⟩ m
  let m := mulI ⟨p, 1⟩ ⟨q, 1⟩ ⟨q, 2⟩ m
  mulI ⟨p, 2⟩ ⟨q, 2⟩ ⟨q, 3⟩ m

/-- `ExtendedPoint.SetCompleted` (curve.go:214-220). -/
def setCompletedI (p q : Base) (m : FMem) : FMem :=
  let m := mulI ⟨p, 0⟩ ⟨q, 0⟩ ⟨q, 3⟩ m
  let m := mulI ⟨p, 1⟩ ⟨q, 1⟩ ⟨q, 2⟩ m
  let m := mulI ⟨p, 2⟩ ⟨q, 2⟩ ⟨q, 3⟩ m
  mulI ⟨p, 3⟩ ⟨q, 0⟩ ⟨q, 1⟩ m

/-- `ExtendedPoint.Double` (curve.go:190-195); `tmp` is `loc 5`. -/
def ptDoubleI (p q : Base) (m : FMem) : FMem := setCompletedI p (.loc 5) (doubleExtendedI (.loc 5) q m)
/-- `ExtendedPoint.Add` (curve.go:198-203); `tmp` is `loc 6`. -/
def ptAddI (p q r : Base) (m : FMem) : FMem := setCompletedI p (.loc 6) (addExtendedI (.loc 6) q r m)
/-- `ExtendedPoint.Sub` (curve.go:206-211); `tmp` is `loc 7`. -/
def ptSubI (p q r : Base) (m : FMem) : FMem := setCompletedI p (.loc 7) (subExtendedI (.loc 7) q r m)

/-- `lut[j]` of `ScalarMult` and of `VarTimeScalarMult`. -/
abbrev lut (j : Nat) : Base := .loc (20 + j)

/-- The loop that fills `lut[2..15]` (curve.go:372-375), from `i` on, `n` rounds. -/
def lutLoopI (q : Base) : Nat → Nat → FMem → FMem
  | 0, _, m => m
  | n + 1, i, m => lutLoopI q n (i + 2) (ptAddI (lut (i + 1)) (lut i) q (ptDoubleI (lut i) (lut (i / 2)) m))

/-- The selection loop (curve.go:392-395), from `j` on, `n` rounds; `t` is `loc 10`. -/
def selectLoopI (b : Int32) : Nat → Nat → FMem → FMem
  | 0, _, m => m
  | n + 1, j, m =>
    selectLoopI b n (j + 1)
      (ptCondSetI (.loc 10) (lut j) (equal15 b (-(Int32.ofNat j)) ||| equal15 b (Int32.ofNat j)) m)

/-- `for z := 0; z < n; z++ { pp.SetCompleted(&cp); cp.DoubleProjective(&pp) }` (curve.go:384-387);
`pp` is `loc 11`, `cp` is `loc 12`. -/
def doubleLoopI : Nat → FMem → FMem
  | 0, m => m
  | n + 1, m => doubleLoopI n (doubleProjectiveI (.loc 12) (.loc 11) (projSetCompletedI (.loc 11) (.loc 12) m))

/-- One round of the main loop of `ScalarMult` (curve.go:380-403); `v` is `loc 13`. -/
def scalarMultStepI (p : Base) (m : FMem) (w : Int8) : FMem :=
  let m := doubleExtendedI (.loc 12) p m
  let m := doubleLoopI 4 m
  let m := setCompletedI p (.loc 12) m
  let m := ptSetI (.loc 10) (lut 0) m
  let b := w.toInt32
  let m := selectLoopI b 16 1 m
  let c := negative b
  let m := negI (lf 13) ⟨.loc 10, 0⟩ m
  let m := condSetI ⟨.loc 10, 0⟩ (lf 13) c m
  let m := negI (lf 13) ⟨.loc 10, 3⟩ m
  let m := condSetI ⟨.loc 10, 3⟩ (lf 13) c m
  ptAddI p p (.loc 10) m

/-- `ExtendedPoint.ScalarMult` (curve.go:361-406). -/
def scalarMultI (p q : Base) (s : Bytes 32) (m : FMem) : FMem :=
  let window := computeScalarWindow5 s
  let m := ptZeroI (lut 0) m
  let m := ptSetI (lut 1) q m
  let m := lutLoopI q 7 2 m
  let m := ptDoubleI (lut 16) (lut 8) m
  let m := ptZeroI p m
  window.reverse.foldl (scalarMultStepI p) m

/-! ## Variable-time multiplication (vartime.go) -/

/-- The loop that fills `lut[1..7]` (vartime.go:60-62), from `i` on, `n` rounds; `dblQ` is
`loc 14`. -/
def vtLutLoopI : Nat → Nat → FMem → FMem
  | 0, _, m => m
  | n + 1, i, m => vtLutLoopI n (i + 1) (ptAddI (lut i) (lut (i - 1)) (.loc 14) m)

/-- "Find next non-zero digit" (vartime.go:101-108). -/
def nafSkipI (naf : Nat → Int8) : Nat → FMem → Nat × FMem
  | 0, m => (0, m)
  | i + 1, m =>
    if naf (i + 1) ≠ 0 then (i + 1, m)
    else nafSkipI naf i (doubleProjectiveI (.loc 12) (.loc 11) (projSetCompletedI (.loc 11) (.loc 12) m))

/-- `lut[k]` for a Go index expression of type int8; `none` models the run-time panic. -/
def lutAddr (k : Int8) : Option Base :=
  if k < 0 ∨ 8 ≤ k.toInt.toNat then none else some (lut k.toInt.toNat)

/-- The addition or subtraction for a nonzero digit (vartime.go:85-90); `none` models a panic. -/
def varTimeDigitI (p : Base) (d : Int8) (m : FMem) : Option FMem :=
  if d > 0 then (lutAddr ((d + 1) / 2 - 1)).map fun l => addExtendedI (.loc 12) p l m
  else (lutAddr ((1 - d) / 2 - 1)).map fun l => subExtendedI (.loc 12) p l m

/-- The main loop (vartime.go:84-114). -/
def varTimeLoopI (p : Base) (naf : Nat → Int8) : Nat → Nat → FMem → Option FMem
  | 0, _, _ => none
  | fuel + 1, i, m => do
    let m ← varTimeDigitI p (naf i) m
    match i with
    | 0 => pure (setCompletedI p (.loc 12) m)
    | i' + 1 =>
      let m := doubleProjectiveI (.loc 12) (.loc 11) (projSetCompletedI (.loc 11) (.loc 12) m)
      let (j, m) := nafSkipI naf i' m
      let m := setCompletedI p (.loc 12) m
      if naf j = 0 then pure m else varTimeLoopI p naf fuel j m

/-- `ExtendedPoint.VarTimeScalarMult` (vartime.go:53-117); `none` models a panic. -/
def varTimeScalarMultI (p q : Base) (s : Bytes 32) (m : FMem) : Option FMem :=
  let m := ptDoubleI (.loc 14) q m
  let m := ptSetI (lut 0) q m
  let m := vtLutLoopI 7 1 m
  let naf := computeScalar5NAF s
  let m := ptZeroI p m
  match nafTop naf 256 with
  | none => some m
  | some i => varTimeLoopI p naf (i + 1) i m

/-! ## Scalars (scalar.go) -/

/-- The scalars in memory. -/
abbrev SMem := Base → Scalar

/-- Load `a[i]`. -/
def srd (m : SMem) (a : Base) (i : Nat) : UInt32 := (m a).toList.getD i 0
/-- Store `a[i] = v`. -/
def swr (m : SMem) (a : Base) (i : Nat) (v : UInt32) : SMem :=
  fun x => if x = a then (m x).setIfInBounds i v else m x

/-- The eight stores that end `Sub` and `reduceAfterMul` (scalar.go:180-187, 1446-1453). -/
def sstore (s : Base) (v : Scalar) (m : SMem) : SMem :=
  let m := swr m s 0 v[0]
  let m := swr m s 1 v[1]
  let m := swr m s 2 v[2]
  let m := swr m s 3 v[3]
  let m := swr m s 4 v[4]
  let m := swr m s 5 v[5]
  let m := swr m s 6 v[6]
  swr m s 7 v[7]

/-- `Scalar.Set` (scalar.go:230-233): `copy`. -/
def sSetI (s a : Base) (m : SMem) : SMem := fun x => if x = s then m a else m x
/-- `Scalar.Sub` (scalar.go:143-190): the results stay in local variables until all words have
been loaded. -/
def sSubI (s a b : Base) (m : SMem) : SMem := sstore s (Scalar.sub (m a) (m b)) m
/-- `Scalar.Neg` (scalar.go:117-119). -/
def sNegI (s a : Base) (m : SMem) : SMem := sstore s (Scalar.sub scZero (m a)) m

/-- `Scalar.Add` (scalar.go:122-140): each word of `s` is stored before the next words of `a` and
`b` are loaded, and `s.Sub(s, &scL)` reads them back. -/
def sAddI (s a b : Base) (m : SMem) : SMem :=
  let c := Scalar.addStep (srd m a 0) (srd m b 0) 0
  let m := swr m s 0 c.toUInt32
  let c := Scalar.addStep (srd m a 1) (srd m b 1) c
  let m := swr m s 1 c.toUInt32
  let c := Scalar.addStep (srd m a 2) (srd m b 2) c
  let m := swr m s 2 c.toUInt32
  let c := Scalar.addStep (srd m a 3) (srd m b 3) c
  let m := swr m s 3 c.toUInt32
  let c := Scalar.addStep (srd m a 4) (srd m b 4) c
  let m := swr m s 4 c.toUInt32
  let c := Scalar.addStep (srd m a 5) (srd m b 5) c
  let m := swr m s 5 c.toUInt32
  let c := Scalar.addStep (srd m a 6) (srd m b 6) c
  let m := swr m s 6 c.toUInt32
  let c := Scalar.addStep (srd m a 7) (srd m b 7) c
  let m := swr m s 7 c.toUInt32
  sstore s (Scalar.sub (m s) scL) m

/-- `Scalar.ConditionalSet` (scalar.go:1458-1468). -/
def sCondSetI (s t : Base) (b : Int32) (m : SMem) : SMem :=
  let k := (-b).toUInt32
  let m := swr m s 0 (srd m s 0 ^^^ (k &&& (srd m s 0 ^^^ srd m t 0)))
  let m := swr m s 1 (srd m s 1 ^^^ (k &&& (srd m s 1 ^^^ srd m t 1)))
  let m := swr m s 2 (srd m s 2 ^^^ (k &&& (srd m s 2 ^^^ srd m t 2)))
  let m := swr m s 3 (srd m s 3 ^^^ (k &&& (srd m s 3 ^^^ srd m t 3)))
  let m := swr m s 4 (srd m s 4 ^^^ (k &&& (srd m s 4 ^^^ srd m t 4)))
  let m := swr m s 5 (srd m s 5 ^^^ (k &&& (srd m s 5 ^^^ srd m t 5)))
  let m := swr m s 6 (srd m s 6 ^^^ (k &&& (srd m s 6 ^^^ srd m t 6)))
  swr m s 7 (srd m s 7 ^^^ (k &&& (srd m s 7 ^^^ srd m t 7)))

/-- `Scalar.Mul` (scalar.go:753-804): all words are loaded into `a0 ... b11` before
`reduceAfterMul` stores. -/
def sMulI (s a b : Base) (m : SMem) : SMem := sstore s (Scalar.mul (m a) (m b)) m
/-- `Scalar.Square` (scalar.go:712-750); see `sMulI`. -/
def sSquareI (s a : Base) (m : SMem) : SMem := sstore s (Scalar.square (m a)) m
/-- `Scalar.MulAdd` (scalar.go:313-377); see `sMulI`. -/
def sMulAddI (s a b c : Base) (m : SMem) : SMem := sstore s (Scalar.mulAdd (m a) (m b) (m c)) m
/-- `Scalar.MulSub` (scalar.go:246-310); see `sMulI`. -/
def sMulSubI (s a b c : Base) (m : SMem) : SMem := sstore s (Scalar.mulSub (m a) (m b) (m c)) m

/-- The variables of `Inverse`: `t0 ... t5` are local, register 6 is the argument. -/
def invReg (t : Base) (k : Nat) : Base := if k = 6 then t else .loc k

/-- One statement of `Inverse` (scalar.go:810-1005). -/
def invOpI (t : Base) (m : SMem) : Scalar.InvOp → SMem
  | .sq dst src => sSquareI (invReg t dst) (invReg t src) m
  | .mul dst a b => sMulI (invReg t dst) (invReg t a) (invReg t b) m

/-- `for i := 0; i < 126; i++ { t0.Square(&t0) }` (scalar.go:1006-1008). -/
def sqLoopI : Nat → SMem → SMem
  | 0, m => m
  | n + 1, m => sqLoopI n (sSquareI (.loc 0) (.loc 0) m)

/-- `Scalar.Inverse` (scalar.go:807-1011). -/
def sInverseI (s t : Base) (m : SMem) : SMem :=
  let m := Scalar.invProg.foldl (invOpI t) m
  let m := sqLoopI 126 m
  sMulI s (.loc 3) (.loc 0) m

/-! ## Client programs on this memory -/

/-- The memory: field elements, scalars, tables (no method takes two pointers to tables). -/
structure PMem where
  fe : FMem
  sc : SMem
  tabs : Nat → Table Fe51

/-- What the client sees. -/
def PMem.view (m : PMem) : Mem Fe51 where
  pts n := pt m.fe (.var n)
  scs n := m.sc (.var n)
  tabs := m.tabs

/-- The variables of the client receive new contents. -/
def PMem.store (m : PMem) (v : Mem Fe51) : PMem where
  fe x := match x with
    | ⟨.var n, 0⟩ => (v.pts n).X
    | ⟨.var n, 1⟩ => (v.pts n).Y
    | ⟨.var n, 2⟩ => (v.pts n).Z
    | ⟨.var n, 3⟩ => (v.pts n).T
    | x => m.fe x
  sc x := match x with
    | .var n => v.scs n
    | x => m.sc x
  tabs := v.tabs

/-- One call.  The methods with a pointer argument of the receiver's type run on the memory, as
defined above; for all others the value computed by `Verif.Model.Machine` is stored. -/
def execI (e : Env Fe51) (m : PMem) : Cmd → Option (PMem × Out)
  | .pZero p => some ({ m with fe := ptZeroI (.var p) m.fe }, .unit)
  | .pSet p q => some ({ m with fe := ptSetI (.var p) (.var q) m.fe }, .unit)
  | .pAdd p q r => some ({ m with fe := ptAddI (.var p) (.var q) (.var r) m.fe }, .unit)
  | .pDouble p q => some ({ m with fe := ptDoubleI (.var p) (.var q) m.fe }, .unit)
  | .pSub p q r => some ({ m with fe := ptSubI (.var p) (.var q) (.var r) m.fe }, .unit)
  | .pNeg p q => some ({ m with fe := ptNegI (.var p) (.var q) m.fe }, .unit)
  | .pCondSet p q b => some ({ m with fe := ptCondSetI (.var p) (.var q) (bit b) m.fe }, .unit)
  | .pScalarMult p q s =>
    some ({ m with fe := scalarMultI (.var p) (.var q) (m.sc (.var s)).bytes m.fe }, .unit)
  | .pPublicScalarMult p q s => do
    let fe ← varTimeScalarMultI (.var p) (.var q) (m.sc (.var s)).bytes m.fe
    some ({ m with fe := fe }, .unit)
  | .sSet s a => some ({ m with sc := sSetI (.var s) (.var a) m.sc }, .unit)
  | .sAdd s a b => some ({ m with sc := sAddI (.var s) (.var a) (.var b) m.sc }, .unit)
  | .sSub s a b => some ({ m with sc := sSubI (.var s) (.var a) (.var b) m.sc }, .unit)
  | .sNeg s a => some ({ m with sc := sNegI (.var s) (.var a) m.sc }, .unit)
  | .sMul s a b => some ({ m with sc := sMulI (.var s) (.var a) (.var b) m.sc }, .unit)
  | .sSquare s a => some ({ m with sc := sSquareI (.var s) (.var a) m.sc }, .unit)
  | .sMulAdd s a b c =>
    some ({ m with sc := sMulAddI (.var s) (.var a) (.var b) (.var c) m.sc }, .unit)
  | .sMulSub s a b c =>
    some ({ m with sc := sMulSubI (.var s) (.var a) (.var b) (.var c) m.sc }, .unit)
  | .sInverse s a => some ({ m with sc := sInverseI (.var s) (.var a) m.sc }, .unit)
  | .sCondSet s a b => some ({ m with sc := sCondSetI (.var s) (.var a) (bit b) m.sc }, .unit)
  | c => (exec e m.view c).map fun r => (m.store r.1, r.2)

/-- A program. -/
def runI (e : Env Fe51) : PMem → List Cmd → Option (PMem × List Out)
  | m, [] => some (m, [])
  | m, c :: cs => do
    let (m', o) ← execI e m c
    let (m'', os) ← runI e m' cs
    some (m'', o :: os)

end Ristretto.Model.Alias
