import Verif.Model.EdMachine

/-!
# Programs over the exported methods of `FieldElement`, with the rewriting of receivers

`BytesInto` of the generic build reduces its receiver in place (field_generic.go:251-301).  The
methods that call it on a variable of the caller therefore change the limbs of that variable.
`Model.Ed.exec` leaves this out: in the default build `BytesInto` works on a copy
(field_radix51.go:213-215).
-/

namespace Ristretto.Model.Ed
open Ristretto.Model FieldOps
set_option autoImplicit false

section
variable {F : Type} [FieldOps F]

/-- `FieldElement.BytesInto` on a variable of the caller, as far as the variable is concerned
(field_generic.go:252-301). -/
def Mem.touchFe (m : Mem F) (f : Nat) : Mem F := m.setFe f (touch (m.fes f))

/-- `FieldElement.Abs` (field.go:112-118), one statement after another: `IsNegativeI` is called on
`x` after `fe` has been set, and before `ConditionalSet` starts. -/
def absI (m : Mem F) (f x : Nat) : Mem F :=
  let xNeg := neg (m.fes x)
  let m := m.setFe f (m.fes x)
  let b := isNegativeI (m.fes x)
  let m := m.touchFe x
  m.setFe f (condSet (m.fes f) xNeg b)

/-- One call.  `Bytes` (field.go:51-55), `BigInt` (field.go:167-175), `IsNegativeI`
(field.go:121-125), `IsNonZeroI` (field.go:128-142) and `Abs` (field.go:112-118) call `BytesInto` on
a variable of the caller.  `IsOneI`, `EqualsI` and `Equals` (field.go:145-160) call it on a local
variable, and so do `InvSqrt`, `Sqrt` and `InvSqrtI` (field.go:269-335), but for the receiver of
`Sqrt`, see `feSqrt`.  Calls on other types are left as in `exec`. -/
def gexec (m : Mem F) : Cmd → Option (Mem F × Out)
  | .fBytes f => some (m.touchFe f, .bytes (bytes (m.fes f)))
  | .fBigInt f => some (m.touchFe f, .nat (feBigInt (m.fes f)))
  | .fIsNegativeI f => some (m.touchFe f, .int32 (isNegativeI (m.fes f)))
  | .fIsNonZeroI f => some (m.touchFe f, .int32 (isNonZeroI (m.fes f)))
  | .fAbs f x => some (absI m f x, .unit)
  | c => exec m c

/-- A program: the final state and what the caller saw, or `none` for a panic. -/
def grun : Mem F → List Cmd → Option (Mem F × List Out)
  | m, [] => some (m, [])
  | m, c :: cs =>
    match gexec m c with
    | none => none
    | some r =>
      match grun r.1 cs with
      | none => none
      | some rs => some (rs.1, r.2 :: rs.2)

end

end Ristretto.Model.Ed
