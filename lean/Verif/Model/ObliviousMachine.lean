import Verif.Model.Oblivious
import Verif.Model.Machine

/-!
# Programs on words that nobody knows

The calls of `Model/Machine.lean` over expressions (`Model/Oblivious.lean`).  `sexec` looks at which method is called on which variables and at the
lengths of slices; the contents of points, scalars, tables and arguments are expressions.
-/

namespace Ristretto.Model.Obl
set_option autoImplicit false

/-- The contents of the variables of a client (compare `Model.Mem`). -/
structure SMem (K : Type) where
  pts : Nat → ExtPt K
  scs : Nat → SScalar
  tabs : Nat → Table K

/-- The hash functions `crypto/sha256.Sum256` and `crypto/sha512.Sum512`, and `edwards25519.BaseScalarMultTable` (compare `Model.Env`). -/
structure SEnv (K : Type) where
  sha256 : List U8 → SBytes 32
  sha512 : List U8 → SBytes 64
  baseTab : Table K

/-- What a call returns.  The comparisons with constants are the last thing a method does, and their outcome is what it returns. -/
inductive SOut where
  | unit
  | bool (b : Bool)
  /-- `x == 0` -/
  | isZero (x : I32)
  /-- `x == 1` -/
  | isOne (x : I32)
  /-- `x == y` on arrays of words -/
  | same (x y : SScalar)
  | int32 (x : I32)
  | bytes (l : List U8)
  /-- the buffer and the counter `nFound` of `LizardInto` -/
  | lizardInto (buf : SBytes 16) (nFound : U8)

section
variable {K : Type} [SymOps K]
open SymOps

/-- Assignment to a point variable. -/
def SMem.setPt (m : SMem K) (p : Nat) (v : ExtPt K) : SMem K := { m with pts := fun k => if k = p then v else m.pts k }
/-- Assignment to a scalar variable. -/
def SMem.setSc (m : SMem K) (s : Nat) (v : SScalar) : SMem K := { m with scs := fun k => if k = s then v else m.scs k }
/-- Assignment to a table variable. -/
def SMem.setTab (m : SMem K) (t : Nat) (v : Table K) : SMem K := { m with tabs := fun k => if k = t then v else m.tabs k }

/-- The contents of the variables at the start of a program: nothing is known about them except that tables have 32 rows of 8 entries. -/
def SMem.init : SMem K where
  pts := fun p => ⟨vars (.pt p 0), vars (.pt p 1), vars (.pt p 2), vars (.pt p 3)⟩
  scs := fun s => Vector.ofFn fun w => .var _ (.sc s w.val)
  tabs := fun t => (List.range 32).map fun i => (List.range 8).map fun j =>
    ⟨vars (.tab t i j 0), vars (.tab t i j 1), vars (.tab t i j 2)⟩

/-- An array argument of call `k`. -/
def argArray (k n : Nat) : SBytes n := Vector.ofFn fun j => .var _ (.arg k j.val)
/-- A slice argument of length `n` of call `k`. -/
def argSlice (k n : Nat) : List U8 := (List.range n).map fun j => .var _ (.arg k j)
/-- The flag given to call `k`, an `int32`. -/
def argFlag (k : Nat) : I32 := .var _ (.arg k 0)
/-- The number given to call `k`, a `uint64`. -/
def argWord (k : Nat) : U64 := .var _ (.arg k 0)
/-- `copy(buf[:], data)` into an array of 32 bytes. -/
def toArray32 (l : List U8) : SBytes 32 := Vector.ofFn fun i => l.getD i.val 0

/-- Call number `k` of a program (compare `Model.exec`; the citations are at `Model.Cmd`).  The data inside the `Cmd` is not looked at, only the length of a slice is; in
its place there are variables.  `v` is success or failure of `SetBytesStrict`, on which the code branches (scalar.go:108-110).  `none` for the methods that are not
treated here: the Public ones, the text formats, those using math/big, and `Lizard`. -/
def sexec (e : SEnv K) (k : Nat) (m : SMem K) (v : Option Out) : Cmd → Option (SMem K × SOut)
  | .pZero p => some (m.setPt p ExtPt.zero, .unit)
  | .pBase p => some (m.setPt p ExtPt.base, .unit)
  | .pSet p q => some (m.setPt p (m.pts q), .unit)
  | .pAdd p q r => some (m.setPt p (ExtPt.add (m.pts q) (m.pts r)), .unit)
  | .pDouble p q => some (m.setPt p (ExtPt.double (m.pts q)), .unit)
  | .pSub p q r => some (m.setPt p (ExtPt.sub (m.pts q) (m.pts r)), .unit)
  | .pNeg p q => some (m.setPt p (ExtPt.neg (m.pts q)), .unit)
  | .pBytes p => some (m, .bytes (ristretto (m.pts p)).toList)
  | .pSetBytes p _ =>
    let r := setRistrettoI (K := K) (argArray k 32)
    some (m.setPt p r.1, .isZero r.2)
  | .pSetElligator p _ => some (m.setPt p (setElligator (argArray k 32)), .unit)
  | .pRand p _ => some (m.setPt p (setElligator (argArray k 32)), .unit)
  | .pDerive p data => some (m.setPt p (setElligator (slice (e.sha512 (argSlice k data.length)) 0 32)), .unit)
  | .pDeriveDalek p data =>
    let hash := e.sha512 (argSlice k data.length)
    some (m.setPt p (ExtPt.add (setElligator (slice hash 0 32)) (setElligator (slice hash 32 32))), .unit)
  | .pSetLizard p _ => some (m.setPt p (setLizard e.sha256 (argArray k 16)), .unit)
  | .pLizardInto p _ =>
    let r := lizardInto e.sha256 (m.pts p) (argArray k 16)
    some (m.setPt p (toJacobiQuarticRistrettoRecv (m.pts p)), .lizardInto r.1 r.2)
  | .pEqualsI p q => some (m, .int32 (ristrettoEqualsI (m.pts p) (m.pts q)))
  | .pEquals p q => some (m, .isOne (ristrettoEqualsI (m.pts p) (m.pts q)))
  | .pCondSet p q _ => some (m.setPt p (ptCondSet (m.pts p) (m.pts q) (argFlag k)), .unit)
  | .pUnmarshalBinary p data =>
    if data.length ≠ 32 then some (m, .bool false)
    else
      let r := setRistrettoI (K := K) (toArray32 (argSlice k data.length))
      some (m.setPt p r.1, .isZero r.2)
  | .pScalarMult p q s => some (m.setPt p (pointScalarMult (m.pts q) (m.scs s)), .unit)
  | .pScalarMultBase p s => some (m.setPt p (scalarMultTable e.baseTab (m.scs s)), .unit)
  | .pScalarMultTable p t s => some (m.setPt p (scalarMultTable (m.tabs t) (m.scs s)), .unit)
  | .tCompute t p => some (m.setTab t (tableCompute (m.pts p)), .unit)
  | .sZero s => some (m.setSc s scZero, .unit)
  | .sOne s => some (m.setSc s (Model.scOne.map .lit), .unit)
  | .sSet s a => some (m.setSc s (m.scs a), .unit)
  | .sAdd s a b => some (m.setSc s (Sc.add (m.scs a) (m.scs b)), .unit)
  | .sSub s a b => some (m.setSc s (Sc.sub (m.scs a) (m.scs b)), .unit)
  | .sNeg s a => some (m.setSc s (Sc.neg (m.scs a)), .unit)
  | .sMul s a b => some (m.setSc s (Sc.mul (m.scs a) (m.scs b)), .unit)
  | .sSquare s a => some (m.setSc s (Sc.square (m.scs a)), .unit)
  | .sMulAdd s a b c => some (m.setSc s (Sc.mulAdd (m.scs a) (m.scs b) (m.scs c)), .unit)
  | .sMulSub s a b c => some (m.setSc s (Sc.mulSub (m.scs a) (m.scs b) (m.scs c)), .unit)
  | .sInverse s a => some (m.setSc s (Sc.inverse (m.scs a)), .unit)
  | .sCondSet s a _ => some (m.setSc s (Sc.condSet (m.scs s) (m.scs a) (argFlag k)), .unit)
  | .sSetBytes s _ => some (m.setSc s (Sc.setBytes (argArray k 32)), .unit)
  | .sSetBytesStrict s _ =>
    let t := Sc.words (argArray k 32)
    let r := Sc.sub t scL
    if v = some (.bool true) then some (m.setSc s t, .same r t) else some (m, .same r t)
  | .sSetReduced s _ => some (m.setSc s (Sc.setReduced (argArray k 64)), .unit)
  | .sRand s _ => some (m.setSc s (Sc.setReduced (argArray k 64)), .unit)
  | .sDerive s data => some (m.setSc s (Sc.setReduced (e.sha512 (argSlice k data.length))), .unit)
  | .sDeriveShort s data => some (m.setSc s (Sc.deriveShort (e.sha512 (argSlice k data.length))), .unit)
  | .sSetUint64 s _ => some (m.setSc s (Sc.setUint64 (argWord k)), .unit)
  | .sUnmarshalBinary s data =>
    if data.length = 32 then some (m.setSc s (Sc.setBytes (toArray32 (argSlice k data.length))), .bool true)
    else some (m, .bool false)
  | .sBytes s => some (m, .bytes (Sc.bytes (m.scs s)).toList)
  | .sIsNonZeroI s => some (m, .int32 (Sc.isNonZeroI (m.scs s)))
  | .sEqualsI s a => some (m, .int32 (Sc.equalsI (m.scs s) (m.scs a)))
  | .sEquals s a => some (m, .isZero (Sc.isNonZeroI (Sc.sub (m.scs s) (m.scs a))))
  | _ => none

/-- A program, from call number `k` on (compare `Model.run`), given the verdicts. -/
def srun (e : SEnv K) : Nat → SMem K → List Cmd → List (Option Out) → Option (SMem K × List SOut)
  | k, m, c :: cs, v :: vs => do
    let (m', o) ← sexec e k m v c
    let (m'', os) ← srun e (k + 1) m' cs vs
    some (m'', o :: os)
  | _, m, _, _ => some (m, [])

end
end Ristretto.Model.Obl
