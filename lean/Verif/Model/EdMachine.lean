import Verif.Model.Api
import Verif.Model.Curve
import Verif.Model.Elligator
import Verif.Model.Field

/-!
# Programs over package edwards25519

The exported methods of package `edwards25519` as commands on variables of its types.  A method reads its arguments
before it writes its receiver, or writes in an order that makes no difference (`Verif.Model.Alias`); `NielsPoint.Neg`,
for which the order matters, is modelled statement by statement.  The methods that only look at a field element leave it
as it is in both radix 51 builds.  An array of four `JacobiPoint` is four variables in a row.  The field elements
`RistrettoElligator2Inverse` writes to an array are shown as their canonical bytes instead.  Not commands: the `String`
methods (C65) and assignments to the exported coordinates of a point.
-/

namespace Ristretto.Model.Ed
open FieldOps
set_option autoImplicit false

/-- A call of a method.  The first number names the receiver. -/
inductive Cmd where
  /-- `FieldElement.SetZero`, `SetOne`, `SetI` (field.go:12-27) -/
  | fZero (f : Nat)
  | fOne (f : Nat)
  | fI (f : Nat)
  /-- `Set`, `Add`, `Sub` (field.go:35-48) -/
  | fSet (f a : Nat)
  | fAdd (f a b : Nat)
  | fSub (f a b : Nat)
  /-- `Neg` (field_radix51.go:102-124) -/
  | fNeg (f a : Nat)
  /-- `Mul`, `Square`, `DoubledSquare` (field_mul64.go, field_amd64.go) -/
  | fMul (f a b : Nat)
  | fSquare (f a : Nat)
  | fDoubledSquare (f a : Nat)
  /-- `Inverse`, `Abs`, `Exp22523`, `InvSqrt`, `Sqrt`, `InvSqrtI` (field.go:58-118, 207-335) -/
  | fInverse (f a : Nat)
  | fAbs (f a : Nat)
  | fExp22523 (f a : Nat)
  | fInvSqrt (f a : Nat)
  | fSqrt (f a : Nat)
  | fInvSqrtI (f a : Nat)
  /-- `SetBytes` (field_radix51.go:258-274), `SetBigInt` (field.go:191-203), `ConditionalSet`
  (field_radix51.go:203-210) with `b` 0 or 1 -/
  | fSetBytes (f : Nat) (buf : Bytes 32)
  | fSetBigInt (f : Nat) (x : Int)
  | fCondSet (f a : Nat) (b : Bool)
  /-- `Bytes`, `BytesInto`, `BigInt` (field.go:51-55, 167-179) -/
  | fBytes (f : Nat)
  | fBigInt (f : Nat)
  /-- `IsNegativeI`, `IsNonZeroI`, `IsOneI`, `EqualsI`, `Equals` (field.go:121-160) -/
  | fIsNegativeI (f : Nat)
  | fIsNonZeroI (f : Nat)
  | fIsOneI (f : Nat)
  | fEqualsI (f a : Nat)
  | fEquals (f a : Nat)
  /-- `ExtendedPoint.SetZero`, `SetBase`, `SetTorsion1`, `SetTorsion2`, `SetTorsion3` (curve.go:27-73) -/
  | eZero (e : Nat)
  | eBase (e : Nat)
  | eTorsion1 (e : Nat)
  | eTorsion2 (e : Nat)
  | eTorsion3 (e : Nat)
  /-- `Set`, `ConditionalSet`, `Add`, `Sub`, `Double`, `Neg` (curve.go:76-91, 190-211, 409-415) -/
  | eSet (e q : Nat)
  | eCondSet (e q : Nat) (b : Bool)
  | eAdd (e q r : Nat)
  | eSub (e q r : Nat)
  | eDouble (e q : Nat)
  | eNeg (e q : Nat)
  /-- `SetCompleted` (curve.go:214-220) -/
  | eSetCompleted (e c : Nat)
  /-- `SetRistretto`, `Ristretto`, `RistrettoInto`, `RistrettoEqualsI` (curve.go:224-325, 419-426) -/
  | eSetRistretto (e : Nat) (buf : Bytes 32)
  | eRistretto (e : Nat)
  | eEqualsI (e q : Nat)
  /-- `ScalarMult` (curve.go:361-406), `VarTimeScalarMult` (vartime.go:53-117) -/
  | eScalarMult (e q : Nat) (s : Bytes 32)
  | eVarTimeScalarMult (e q : Nat) (s : Bytes 32)
  /-- `CompletedPoint.AddExtended`, `SubExtended`, `DoubleExtended`, `DoubleProjective` (curve.go:94-171),
  `AddExtendedNiels`, `SubExtendedNiels` (table.go:43-74) -/
  | cAddExtended (c q r : Nat)
  | cSubExtended (c q r : Nat)
  | cDoubleExtended (c q : Nat)
  | cDoubleProjective (c p : Nat)
  | cAddExtendedNiels (c q n : Nat)
  | cSubExtendedNiels (c q n : Nat)
  /-- `CompletedPoint.SetRistrettoElligator2` (elligator.go:216-268) -/
  | cElligator (c f : Nat)
  /-- `ProjectivePoint.SetZero`, `SetExtended`, `SetCompleted` (curve.go:54-59, 174-187) -/
  | pZero (p : Nat)
  | pSetExtended (p q : Nat)
  | pSetCompleted (p c : Nat)
  /-- `NielsPoint.SetZero`, `Set`, `ConditionalSet`, `Neg`, `SetExtended` (table.go:11-40, 77-88) -/
  | nZero (n : Nat)
  | nSet (n m : Nat)
  | nCondSet (n m : Nat) (b : Bool)
  | nNeg (n m : Nat)
  | nSetExtended (n q : Nat)
  /-- `ScalarMultTable.Compute`, `ScalarMult`, `VarTimeScalarMult` (table.go:91-192); the point `e` is written -/
  | tCompute (t q : Nat)
  | tScalarMult (t e : Nat) (s : Bytes 32)
  | tVarTimeScalarMult (t e : Nat) (s : Bytes 32)
  /-- `ExtendedPoint.ToJacobiQuarticRistretto` (elligator.go:57-135), into the variables `j` to `j + 3` -/
  | eToJacobi (e j : Nat)
  /-- `ExtendedPoint.RistrettoElligator2Inverse` (elligator.go:17-50) -/
  | eInverse (e : Nat)
  /-- `JacobiPoint.Dual` (elligator.go:137-142) -/
  | jDual (j k : Nat)
  /-- `CompletedPoint.SetJacobiQuartic` (elligator.go:196-212) -/
  | cSetJacobi (c j : Nat)
deriving DecidableEq

/-- What the caller sees. -/
inductive Out where
  | unit
  | bool (b : Bool)
  | int32 (i : Int32)
  | nat (n : Nat)
  | bytes (b : Bytes 32)
  /-- the eight elements and the mask of `RistrettoElligator2Inverse` -/
  | inverse (fes : List (Bytes 32)) (mask : UInt8)
deriving DecidableEq

/-- The variables of a client. -/
structure Mem (F : Type) where
  fes : Nat → F
  exts : Nat → ExtPt F
  cpls : Nat → ComplPt F
  prjs : Nat → ProjPt F
  niels : Nat → NielsPt F
  tabs : Nat → Table F
  jacs : Nat → JacPt F

section
variable {F : Type} [FieldOps F]

def Mem.setFe (m : Mem F) (i : Nat) (v : F) : Mem F := { m with fes := fun k => if k = i then v else m.fes k }
def Mem.setE (m : Mem F) (i : Nat) (v : ExtPt F) : Mem F := { m with exts := fun k => if k = i then v else m.exts k }
def Mem.setC (m : Mem F) (i : Nat) (v : ComplPt F) : Mem F := { m with cpls := fun k => if k = i then v else m.cpls k }
def Mem.setP (m : Mem F) (i : Nat) (v : ProjPt F) : Mem F := { m with prjs := fun k => if k = i then v else m.prjs k }
def Mem.setN (m : Mem F) (i : Nat) (v : NielsPt F) : Mem F := { m with niels := fun k => if k = i then v else m.niels k }
def Mem.setT (m : Mem F) (i : Nat) (v : Table F) : Mem F := { m with tabs := fun k => if k = i then v else m.tabs k }
def Mem.setJ (m : Mem F) (i : Nat) (v : JacPt F) : Mem F := { m with jacs := fun k => if k = i then v else m.jacs k }

/-- Go's zero values; a table of zero values has 32 rows of 8 entries. -/
def Mem.init : Mem F where
  fes := fun _ => feZero
  exts := fun _ => ⟨feZero, feZero, feZero, feZero⟩
  cpls := fun _ => ⟨feZero, feZero, feZero, feZero⟩
  prjs := fun _ => ⟨feZero, feZero, feZero⟩
  niels := fun _ => ⟨feZero, feZero, feZero⟩
  tabs := fun _ => List.replicate 32 (List.replicate 8 ⟨feZero, feZero, feZero⟩)
  jacs := fun _ => ⟨feZero, feZero⟩

/-- The argument of a conditional assignment. -/
def bit (b : Bool) : Int32 := if b then 1 else 0

/-- `NielsPoint.Neg` (table.go:35-40), one statement after another. -/
def nielsNegI (m : Mem F) (n q : Nat) : Mem F :=
  let m := m.setN n { m.niels n with YMinusX := (m.niels q).YPlusX }
  let m := m.setN n { m.niels n with YPlusX := (m.niels q).YMinusX }
  m.setN n { m.niels n with XY2D := neg (m.niels q).XY2D }

/-- One call: the new state and what the caller sees, or `none` for a panic. -/
def exec (m : Mem F) : Cmd → Option (Mem F × Out)
  | .fZero f => some (m.setFe f feZero, .unit)
  | .fOne f => some (m.setFe f feOne, .unit)
  | .fI f => some (m.setFe f feI, .unit)
  | .fSet f a => some (m.setFe f (m.fes a), .unit)
  | .fAdd f a b => some (m.setFe f (feAdd (m.fes a) (m.fes b)), .unit)
  | .fSub f a b => some (m.setFe f (feSub (m.fes a) (m.fes b)), .unit)
  | .fNeg f a => some (m.setFe f (neg (m.fes a)), .unit)
  | .fMul f a b => some (m.setFe f (mul (m.fes a) (m.fes b)), .unit)
  | .fSquare f a => some (m.setFe f (square (m.fes a)), .unit)
  | .fDoubledSquare f a => some (m.setFe f (doubledSquare (m.fes a)), .unit)
  | .fInverse f a => some (m.setFe f (feInverse (m.fes a)), .unit)
  | .fAbs f a => some (m.setFe f (feAbs (m.fes a)), .unit)
  | .fExp22523 f a => some (m.setFe f (exp22523 (m.fes a)), .unit)
  | .fInvSqrt f a => some (m.setFe f (invSqrt (m.fes a)), .unit)
  | .fSqrt f a => some (m.setFe f (feSqrt (m.fes a)), .unit)
  | .fInvSqrtI f a =>
    let r := invSqrtI (m.fes a)
    some (m.setFe f r.1, .int32 r.2)
  | .fSetBytes f buf => some (m.setFe f (setBytes buf), .unit)
  | .fSetBigInt f x => some (m.setFe f (feSetBigInt x), .unit)
  | .fCondSet f a b => some (m.setFe f (condSet (m.fes f) (m.fes a) (bit b)), .unit)
  | .fBytes f => some (m, .bytes (bytes (m.fes f)))
  | .fBigInt f => some (m, .nat (feBigInt (m.fes f)))
  | .fIsNegativeI f => some (m, .int32 (isNegativeI (m.fes f)))
  | .fIsNonZeroI f => some (m, .int32 (isNonZeroI (m.fes f)))
  | .fIsOneI f => some (m, .int32 (isOneI (m.fes f)))
  | .fEqualsI f a => some (m, .int32 (feEqualsI (m.fes f) (m.fes a)))
  | .fEquals f a => some (m, .bool (feEquals (m.fes f) (m.fes a)))
  | .eZero e => some (m.setE e ExtPt.zero, .unit)
  | .eBase e => some (m.setE e ExtPt.base, .unit)
  | .eTorsion1 e => some (m.setE e ExtPt.torsion1, .unit)
  | .eTorsion2 e => some (m.setE e ExtPt.torsion2, .unit)
  | .eTorsion3 e => some (m.setE e ExtPt.torsion3, .unit)
  | .eSet e q => some (m.setE e (m.exts q), .unit)
  | .eCondSet e q b => some (m.setE e (ExtPt.condSet (m.exts e) (m.exts q) (bit b)), .unit)
  | .eAdd e q r => some (m.setE e (ExtPt.add (m.exts q) (m.exts r)), .unit)
  | .eSub e q r => some (m.setE e (ExtPt.sub (m.exts q) (m.exts r)), .unit)
  | .eDouble e q => some (m.setE e (ExtPt.double (m.exts q)), .unit)
  | .eNeg e q => some (m.setE e (ExtPt.neg (m.exts q)), .unit)
  | .eSetCompleted e c => some (m.setE e (m.cpls c).toExtended, .unit)
  | .eSetRistretto e buf =>
    let r := ExtPt.setRistretto (F := F) buf
    some (m.setE e r.1, .bool r.2)
  | .eRistretto e => some (m, .bytes (ExtPt.ristretto (m.exts e)))
  | .eEqualsI e q => some (m, .int32 (ExtPt.ristrettoEqualsI (m.exts e) (m.exts q)))
  | .eScalarMult e q s => some (m.setE e (scalarMult (m.exts q) s), .unit)
  | .eVarTimeScalarMult e q s => (varTimeScalarMult (m.exts q) s).map fun v => (m.setE e v, .unit)
  | .cAddExtended c q r => some (m.setC c (ComplPt.addExtended (m.exts q) (m.exts r)), .unit)
  | .cSubExtended c q r => some (m.setC c (ComplPt.subExtended (m.exts q) (m.exts r)), .unit)
  | .cDoubleExtended c q => some (m.setC c (ComplPt.doubleExtended (m.exts q)), .unit)
  | .cDoubleProjective c p => some (m.setC c (ComplPt.doubleProjective (m.prjs p)), .unit)
  | .cAddExtendedNiels c q n => some (m.setC c (ComplPt.addExtendedNiels (m.exts q) (m.niels n)), .unit)
  | .cSubExtendedNiels c q n => some (m.setC c (ComplPt.subExtendedNiels (m.exts q) (m.niels n)), .unit)
  | .cElligator c f => some (m.setC c (setRistrettoElligator2 (m.fes f)), .unit)
  | .pZero p => some (m.setP p ProjPt.zero, .unit)
  | .pSetExtended p q => some (m.setP p (m.exts q).toProjective, .unit)
  | .pSetCompleted p c => some (m.setP p (m.cpls c).toProjective, .unit)
  | .nZero n => some (m.setN n NielsPt.zero, .unit)
  | .nSet n q => some (m.setN n (m.niels q), .unit)
  | .nCondSet n q b => some (m.setN n (NielsPt.condSet (m.niels n) (m.niels q) (bit b)), .unit)
  | .nNeg n q => some (nielsNegI m n q, .unit)
  | .nSetExtended n q => some (m.setN n (NielsPt.ofExtended (m.exts q)), .unit)
  | .tCompute t q => some (m.setT t (tableCompute (m.exts q)), .unit)
  | .tScalarMult t e s => some (m.setE e (tableScalarMult (m.tabs t) s), .unit)
  | .tVarTimeScalarMult t e s => (tableVarTimeScalarMult (m.tabs t) s).map fun v => (m.setE e v, .unit)
  | .eToJacobi e j =>
    let r := toJacobiQuarticRistretto (m.exts e)
    let m := m.setE e (toJacobiQuarticRistrettoRecv (m.exts e))
    some ((((m.setJ j r.1).setJ (j + 1) r.2.1).setJ (j + 2) r.2.2.1).setJ (j + 3) r.2.2.2, .unit)
  | .eInverse e =>
    let r := ristrettoElligator2Inverse (m.exts e)
    some (m.setE e (toJacobiQuarticRistrettoRecv (m.exts e)),
      .inverse (r.map fun x => bytes x.1) (Point.inverseMask 0 r))
  | .jDual j k => some (m.setJ j (m.jacs k).dual, .unit)
  | .cSetJacobi c j => some (m.setC c (setJacobiQuartic (m.jacs j)), .unit)

/-- A program: the final state and what the caller saw, or `none` for a panic. -/
def run : Mem F → List Cmd → Option (Mem F × List Out)
  | m, [] => some (m, [])
  | m, c :: cs =>
    match exec m c with
    | none => none
    | some r =>
      match run r.1 cs with
      | none => none
      | some rs => some (rs.1, r.2 :: rs.2)

end

end Ristretto.Model.Ed
