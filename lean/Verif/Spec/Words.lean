import Verif.Model.Words
import Verif.Spec.Machine
import Verif.Spec.EdMachine

/-!
# What the methods compute on scalars that need not be reduced

A scalar variable holds a number below `2^256`, whatever it is.  Points and tables are as in Spec/Machine.lean.
-/

namespace Ristretto.Words
open Model Model.Words Spec.EdRange
set_option autoImplicit false

/-- The contents of the variables. -/
structure NState where
  pts : ℕ → Option RGroup
  scs : ℕ → ℕ
  tabs : ℕ → Option RGroup

/-- Nothing set. -/
def NState.init : NState := ⟨fun _ => none, fun _ => 0, fun _ => none⟩

def NState.setPt (a : NState) (p : ℕ) (v : Option RGroup) : NState :=
  { a with pts := fun k => if k = p then v else a.pts k }
def NState.setSc (a : NState) (s : ℕ) (v : ℕ) : NState :=
  { a with scs := fun k => if k = s then v else a.scs k }

/-- The result of `Sub`: `l` is added once if the difference is negative. -/
def subN (x y : ℕ) : ℕ := if y ≤ x then x - y else (x + l + 2 ^ 256 - y) % 2 ^ 256

/-- The result of `Add`: `l` is subtracted once, from the sum modulo `2^256`. -/
def addN (x y : ℕ) : ℕ := if (x + y) % 2 ^ 256 < l then (x + y) % 2 ^ 256 else (x + y) % 2 ^ 256 - l

/-- What `Equals` tests: the difference is zero, or its receiver is `l` smaller. -/
def eqN (x y : ℕ) : Prop := x = y ∨ x + l = y

/-- A multiple; `none`, a blank point, stays blank unless the factor is zero. -/
def zmulO (n : ℤ) : Option RGroup → Option RGroup
  | some g => some (n • g)
  | none => if n = 0 then some 0 else none

/-- Variable-time multiplication with a table panics if the top digit is too large. -/
def tableVarTime (n : ℕ) (a : NState) (p : ℕ) (g : Option RGroup) : Option (NState × Out) :=
  if topDigit 16 63 n ≤ 8 then some (a.setPt p (zmulO n g), .unit) else none

open Classical in
/-- One call. -/
noncomputable def nexec (sha256 : List UInt8 → Bytes 32) (sha512 : List UInt8 → Bytes 64) (a : NState) :
    Cmd → Option (NState × Out)
  | .pScalarMult p q s => some (a.setPt p (zmulO (Ed.byWindows (a.scs s)) (a.pts q)), .unit)
  | .pPublicScalarMult p q s => some (a.setPt p (zmulO (Ed.byNaf (a.scs s)) (a.pts q)), .unit)
  | .pScalarMultBase p s => some (a.setPt p (zmulO (Ed.byTable (a.scs s)) (some baseR)), .unit)
  | .pPublicScalarMultBase p s => tableVarTime (a.scs s) a p (some baseR)
  | .pScalarMultTable p t s => some (a.setPt p (zmulO (Ed.byTable (a.scs s)) (a.tabs t)), .unit)
  | .pPublicScalarMultTable p t s => tableVarTime (a.scs s) a p (a.tabs t)
  | .sZero s => some (a.setSc s 0, .unit)
  | .sOne s => some (a.setSc s 1, .unit)
  | .sSet s x => some (a.setSc s (a.scs x), .unit)
  | .sAdd s x y => some (a.setSc s (addN (a.scs x) (a.scs y)), .unit)
  | .sSub s x y => some (a.setSc s (subN (a.scs x) (a.scs y)), .unit)
  | .sNeg s x => some (a.setSc s (subN 0 (a.scs x)), .unit)
  | .sMul s x y => some (a.setSc s (a.scs x * a.scs y % l), .unit)
  | .sSquare s x => some (a.setSc s (a.scs x ^ 2 % l), .unit)
  | .sMulAdd s x y z => some (a.setSc s ((a.scs x * a.scs y + a.scs z) % l), .unit)
  | .sMulSub s x y z => some (a.setSc s (((a.scs x * a.scs y : ZMod l) - a.scs z).val), .unit)
  | .sInverse s x => some (a.setSc s ((a.scs x : ZMod l)⁻¹).val, .unit)
  | .sCondSet s x b => some (a.setSc s (if b then a.scs x else a.scs s), .unit)
  | .sSetBytes s buf => some (a.setSc s (leVal buf % 2 ^ 253 % l), .unit)
  | .sSetBytesStrict s buf =>
    if leVal buf < l then some (a.setSc s (leVal buf), .bool true) else some (a, .bool false)
  | .sSetReduced s buf => some (a.setSc s (leVal buf % l), .unit)
  | .sRand s buf => some (a.setSc s (leVal buf % l), .unit)
  | .sDerive s data => some (a.setSc s (leVal (sha512 data) % l), .unit)
  | .sDeriveShort s data => some (a.setSc s (leVal (sha512 data) % 2 ^ 128), .unit)
  | .sSetBigInt s x => some (a.setSc s (x : ZMod l).val, .unit)
  | .sSetUint64 s x => some (a.setSc s x.toNat, .unit)
  | .sUnmarshalBinary s data =>
    if data.length = 32 then some (a.setSc s (leNat data % 2 ^ 253 % l), .bool true) else some (a, .bool false)
  | .sUnmarshalText s txt =>
    match parseScalar txt with
    | .panic => none
    | .malformed => some (a, .bool false)
    | .bytes b => some (a.setSc s (leVal b % 2 ^ 253 % l), .bool true)
  | .sBytes s => some (a, .bytes (littleEndian (a.scs s) : Bytes 32).toList)
  | .sMarshalText s => some (a, .bytes (text32 (littleEndian (a.scs s))))
  | .sBigInt s => some (a, .int (a.scs s))
  | .sIsNonZeroI s => some (a, .int32 (if a.scs s = 0 then 0 else 1))
  | .sEqualsI s x => some (a, .int32 (if eqN (a.scs s) (a.scs x) then 1 else 0))
  | .sEquals s x => some (a, .bool (if eqN (a.scs s) (a.scs x) then true else false))
  -- the calls without scalars, as in Spec/Machine.lean
  | c => (aexec sha256 sha512 ⟨a.pts, fun _ => 0, a.tabs⟩ c).map fun r => (⟨r.1.pts, a.scs, r.1.tabs⟩, r.2)

/-- One step. -/
noncomputable def nstep (sha256 : List UInt8 → Bytes 32) (sha512 : List UInt8 → Bytes 64) (a : NState) :
    WCmd → Option (NState × Out)
  | .call c => nexec sha256 sha512 a c
  | .put s w => some (a.setSc s (scVal w), .unit)

/-- A program. -/
noncomputable def nrun (sha256 : List UInt8 → Bytes 32) (sha512 : List UInt8 → Bytes 64) :
    NState → List WCmd → Option (NState × List Out)
  | a, [] => some (a, [])
  | a, c :: cs => do
    let (a', o) ← nstep sha256 sha512 a c
    let (a'', os) ← nrun sha256 sha512 a' cs
    some (a'', o :: os)

/-- The calls of a program. -/
def calls (prog : List WCmd) : List Cmd := prog.filterMap fun | .call c => some c | .put _ _ => none

end Ristretto.Words
