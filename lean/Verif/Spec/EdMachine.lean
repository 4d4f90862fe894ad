import Verif.Model.EdMachine
import Verif.Spec.Abstract
import Verif.Spec.EdRange

/-!
# What the methods of package edwards25519 compute

The programs of `Verif.Model.EdMachine` on mathematical objects.  A field variable holds an element of GF(2^255-19).  A
variable of one of the four point types holds a point of the curve Edwards25519, whatever the coordinates, and a table
variable the point the table is for.  The points that occur are the even ones (`Even`): sums of a point with itself.
`none` is a point variable about which nothing is said: it was never set, it was the receiver of a failed
`SetRistretto`, or it was computed from such a variable.  A variable for a point of the Jacobi quartic holds a pair.

The multiplications are exact for every scalar: `Spec/EdRange.lean` says what is lost of a scalar that is too large.

`AStep a c a' o`: the call `c` may take the variables from `a` to `a'` and return `o`.  It is a relation because the
documentation leaves some results open, such as the sign of an inverse square root.
-/

namespace Ristretto.Ed
open Model Model.Ed Spec.EdRange
set_option autoImplicit false

/-- The contents of the variables. -/
structure AState where
  fes : ℕ → Fp
  exts : ℕ → Option Even
  cpls : ℕ → Option Even
  prjs : ℕ → Option Even
  niels : ℕ → Option Even
  tabs : ℕ → Option Even
  jacs : ℕ → Option (Fp × Fp)

/-- Nothing set; Go's zero value of a field element is the number 0. -/
def AState.init : AState :=
  ⟨fun _ => 0, fun _ => none, fun _ => none, fun _ => none, fun _ => none, fun _ => none, fun _ => none⟩

/-- One variable replaced. -/
def put {α : Type} (f : ℕ → α) (i : ℕ) (v : α) : ℕ → α := fun k => if k = i then v else f k

def AState.setFe (a : AState) (i : ℕ) (v : Fp) : AState := { a with fes := put a.fes i v }
def AState.setE (a : AState) (i : ℕ) (v : Option Even) : AState := { a with exts := put a.exts i v }
def AState.setC (a : AState) (i : ℕ) (v : Option Even) : AState := { a with cpls := put a.cpls i v }
def AState.setP (a : AState) (i : ℕ) (v : Option Even) : AState := { a with prjs := put a.prjs i v }
def AState.setN (a : AState) (i : ℕ) (v : Option Even) : AState := { a with niels := put a.niels i v }
def AState.setT (a : AState) (i : ℕ) (v : Option Even) : AState := { a with tabs := put a.tabs i v }
def AState.setJ (a : AState) (i : ℕ) (v : Option (Fp × Fp)) : AState := { a with jacs := put a.jacs i v }

/-- The group element a point stands for. -/
def classOf (P : Even) : RGroup := cls P P.2

/-- The sum of two points. -/
def addO : Option Even → Option Even → Option Even
  | some P, some Q => some (P + Q)
  | _, _ => none
/-- The difference of two points. -/
def subO : Option Even → Option Even → Option Even
  | some P, some Q => some (P - Q)
  | _, _ => none
/-- The negative of a point. -/
def negO : Option Even → Option Even
  | some P => some (-P)
  | none => none
/-- A multiple of a point. -/
def smulO (n : ℤ) : Option Even → Option Even
  | some P => some (n • P)
  | none => none
/-- The multiple `ScalarMult` computes: bit 255 is ignored, and a top digit above 16. -/
def byWindows (n : ℕ) : ℤ := (n % 2 ^ 255 : ℕ) - lost 32 50 16 (n % 2 ^ 255)
/-- The multiple `VarTimeScalarMult` computes: the carry out of the last place is lost. -/
def byNaf (n : ℕ) : ℤ := n - 2 ^ 256 * carryOut 256 n
/-- The multiple `ScalarMultTable.ScalarMult` computes: a top digit above 8 is ignored. -/
def byTable (n : ℕ) : ℤ := n - lost 16 63 8 n
/-- The other pair of a point. -/
def dualO : Option (Fp × Fp) → Option (Fp × Fp)
  | some j => some (-j.1, -j.2)
  | none => none

/-- A point killed by four. -/
def torsE (T : EPoint) (h : T ∈ E4) : Even := ⟨T, E4_le_Even h⟩
/-- The base point: the package takes the representative of the standard base point `(x, 4/5)` that differs from it by
a point of order four. -/
def baseE : Even := ⟨stdBase, stdBase_even⟩ - torsE torsI (mem_E4_cases.2 (by simp))

/-- `P` is the point `(x, y)` the decoding of `buf` ends in: `x` and `xy` are nonnegative, `y` is not zero, and
`(1 - y) / (1 + y)` is the square of the nonnegative number `buf` is the canonical form of. -/
def DecodedPoint (buf : Bytes 32) (P : EPoint) : Prop :=
  ∃ s : Fp, leVal buf = s.val ∧ ¬ IsNeg s ∧ ¬ IsNeg P.x ∧ ¬ IsNeg (P.x * P.y) ∧ P.y ≠ 0 ∧
    s * s * (1 + P.y) = 1 - P.y

/-- `v` holds four pairs: for a point outside the neutral class one above each of the four points that are identified with
it, in this order; for the neutral class `(0, 1)` twice, `(1, c)` and `(-1, c)` with `c = 2 i / sqrt(-d-1)`. -/
def FourPairs (P : Even) (v : Fin 4 → Fp × Fp) : Prop :=
  (classOf P ≠ 0 → (∀ i, OnJac (v i).1 (v i).2) ∧ OfJac (v 0).1 (v 0).2 P ∧ OfJac (v 1).1 (v 1).2 (P + torsM) ∧
    OfJac (v 2).1 (v 2).2 (P - torsI) ∧ OfJac (v 3).1 (v 3).2 (P + torsI)) ∧
  (classOf P = 0 → v = ![(0, 1), (0, 1), (1, 2 * sqrtM1 * eC), (-1, 2 * sqrtM1 * eC)])

/-- The flagged entries are the nonnegative numbers the Elligator map sends to the class of `P`, and no entry is flagged
twice; except for the neutral class, where the square root of `i / d` is missing and repetitions may occur. -/
def Preimages (P : Even) (fes : List (Bytes 32)) (mask : UInt8) : Prop :=
  fes.length = 8 ∧
  (∀ x : Fp, (∃ (j : ℕ) (b : Bytes 32), fes[j]? = some b ∧ mask.toNat.testBit j ∧ leVal b = x.val) ↔
    ¬ IsNeg x ∧ (∃ Q : Even, Elligator x Q ∧ classOf Q = classOf P) ∧ (classOf P = 0 → x ^ 2 * d ≠ sqrtM1)) ∧
  (classOf P ≠ 0 → ∀ (j k : ℕ) (b : Bytes 32), fes[j]? = some b → fes[k]? = some b → mask.toNat.testBit j →
    mask.toNat.testBit k → j = k)

open Classical in
/-- One call. -/
noncomputable def AStep (a : AState) : Cmd → AState → Out → Prop
  | .fZero f, a', o => a' = a.setFe f 0 ∧ o = .unit
  | .fOne f, a', o => a' = a.setFe f 1 ∧ o = .unit
  | .fI f, a', o => a' = a.setFe f sqrtM1 ∧ o = .unit
  | .fSet f x, a', o => a' = a.setFe f (a.fes x) ∧ o = .unit
  | .fAdd f x y, a', o => a' = a.setFe f (a.fes x + a.fes y) ∧ o = .unit
  | .fSub f x y, a', o => a' = a.setFe f (a.fes x - a.fes y) ∧ o = .unit
  | .fNeg f x, a', o => a' = a.setFe f (-a.fes x) ∧ o = .unit
  | .fMul f x y, a', o => a' = a.setFe f (a.fes x * a.fes y) ∧ o = .unit
  | .fSquare f x, a', o => a' = a.setFe f (a.fes x ^ 2) ∧ o = .unit
  | .fDoubledSquare f x, a', o => a' = a.setFe f (2 * a.fes x ^ 2) ∧ o = .unit
  | .fInverse f x, a', o => a' = a.setFe f (a.fes x)⁻¹ ∧ o = .unit
  | .fAbs f x, a', o => a' = a.setFe f (if IsNeg (a.fes x) then -a.fes x else a.fes x) ∧ o = .unit
  | .fExp22523 f x, a', o => a' = a.setFe f (a.fes x ^ (2 ^ 252 - 3)) ∧ o = .unit
  | .fInvSqrt f x, a', o =>
    ∃ r, (IsSquare (a.fes x) → a.fes x ≠ 0 → a.fes x * r ^ 2 = 1) ∧ (a.fes x = 0 → r = 0) ∧ a' = a.setFe f r ∧ o = .unit
  | .fSqrt f x, a', o => ∃ r, (IsSquare (a.fes x) → r ^ 2 = a.fes x) ∧ ¬ IsNeg r ∧ a' = a.setFe f r ∧ o = .unit
  | .fInvSqrtI f x, a', o =>
    ∃ r, a' = a.setFe f r ∧
      if a.fes x = 0 then r = 0 ∧ o = .int32 0
      else if IsSquare (a.fes x) then a.fes x * r ^ 2 = 1 ∧ o = .int32 1
      else sqrtM1 * a.fes x * r ^ 2 = 1 ∧ o = .int32 0
  | .fSetBytes f buf, a', o => a' = a.setFe f (feOfBytes buf) ∧ o = .unit
  | .fSetBigInt f x, a', o => a' = a.setFe f (x : Fp) ∧ o = .unit
  | .fCondSet f x b, a', o => a' = (if b then a.setFe f (a.fes x) else a) ∧ o = .unit
  | .fBytes f, a', o => a' = a ∧ ∃ b, o = .bytes b ∧ leVal b = (a.fes f).val
  | .fBigInt f, a', o => a' = a ∧ o = .nat (a.fes f).val
  | .fIsNegativeI f, a', o => a' = a ∧ o = .int32 (if IsNeg (a.fes f) then 1 else 0)
  | .fIsNonZeroI f, a', o => a' = a ∧ o = .int32 (if a.fes f ≠ 0 then 1 else 0)
  | .fIsOneI f, a', o => a' = a ∧ o = .int32 (if a.fes f = 1 then 1 else 0)
  | .fEqualsI f x, a', o => a' = a ∧ o = .int32 (if a.fes f = a.fes x then 1 else 0)
  | .fEquals f x, a', o => a' = a ∧ o = .bool (decide (a.fes f = a.fes x))
  | .eZero e, a', o => a' = a.setE e (some 0) ∧ o = .unit
  | .eBase e, a', o => a' = a.setE e (some baseE) ∧ o = .unit
  | .eTorsion1 e, a', o => a' = a.setE e (some (torsE torsM (mem_E4_cases.2 (by simp)))) ∧ o = .unit
  | .eTorsion2 e, a', o => a' = a.setE e (some (torsE torsI (mem_E4_cases.2 (by simp)))) ∧ o = .unit
  | .eTorsion3 e, a', o => a' = a.setE e (some (torsE (-torsI) (mem_E4_cases.2 (by simp)))) ∧ o = .unit
  | .eSet e q, a', o => a' = a.setE e (a.exts q) ∧ o = .unit
  | .eCondSet e q b, a', o => a' = (if b then a.setE e (a.exts q) else a) ∧ o = .unit
  | .eAdd e q r, a', o => a' = a.setE e (addO (a.exts q) (a.exts r)) ∧ o = .unit
  | .eSub e q r, a', o => a' = a.setE e (subO (a.exts q) (a.exts r)) ∧ o = .unit
  | .eDouble e q, a', o => a' = a.setE e (addO (a.exts q) (a.exts q)) ∧ o = .unit
  | .eNeg e q, a', o => a' = a.setE e (negO (a.exts q)) ∧ o = .unit
  | .eSetCompleted e c, a', o => a' = a.setE e (a.cpls c) ∧ o = .unit
  | .eSetRistretto e buf, a', o =>
    (∃ P : Even, decode buf = some (classOf P) ∧ DecodedPoint buf P ∧ a' = a.setE e (some P) ∧ o = .bool true) ∨
    (decode buf = none ∧ a' = a.setE e none ∧ o = .bool false)
  | .eRistretto e, a', o => a' = a ∧ ∃ b, o = .bytes b ∧ ∀ P, a.exts e = some P → b = encode (classOf P)
  | .eEqualsI e q, a', o => a' = a ∧ ∃ i, o = .int32 i ∧
      ∀ P Q, a.exts e = some P → a.exts q = some Q → i = if classOf P = classOf Q then 1 else 0
  | .eScalarMult e q s, a', o => a' = a.setE e (smulO (byWindows (leVal s)) (a.exts q)) ∧ o = .unit
  | .eVarTimeScalarMult e q s, a', o => a' = a.setE e (smulO (byNaf (leVal s)) (a.exts q)) ∧ o = .unit
  | .cAddExtended c q r, a', o => a' = a.setC c (addO (a.exts q) (a.exts r)) ∧ o = .unit
  | .cSubExtended c q r, a', o => a' = a.setC c (subO (a.exts q) (a.exts r)) ∧ o = .unit
  | .cDoubleExtended c q, a', o => a' = a.setC c (addO (a.exts q) (a.exts q)) ∧ o = .unit
  | .cDoubleProjective c p, a', o => a' = a.setC c (addO (a.prjs p) (a.prjs p)) ∧ o = .unit
  | .cAddExtendedNiels c q n, a', o => a' = a.setC c (addO (a.exts q) (a.niels n)) ∧ o = .unit
  | .cSubExtendedNiels c q n, a', o => a' = a.setC c (subO (a.exts q) (a.niels n)) ∧ o = .unit
  | .cElligator c f, a', o => ∃ P : Even, Elligator (a.fes f) P ∧ a' = a.setC c (some P) ∧ o = .unit
  | .pZero p, a', o => a' = a.setP p (some 0) ∧ o = .unit
  | .pSetExtended p q, a', o => a' = a.setP p (a.exts q) ∧ o = .unit
  | .pSetCompleted p c, a', o => a' = a.setP p (a.cpls c) ∧ o = .unit
  | .nZero n, a', o => a' = a.setN n (some 0) ∧ o = .unit
  | .nSet n q, a', o => a' = a.setN n (a.niels q) ∧ o = .unit
  | .nCondSet n q b, a', o => a' = (if b then a.setN n (a.niels q) else a) ∧ o = .unit
  | .nNeg n q, a', o => a' = a.setN n (if n = q then none else negO (a.niels q)) ∧ o = .unit
  | .nSetExtended n q, a', o => a' = a.setN n (a.exts q) ∧ o = .unit
  | .tCompute t q, a', o => a' = a.setT t (a.exts q) ∧ o = .unit
  | .tScalarMult t e s, a', o => a' = a.setE e (smulO (byTable (leVal s)) (a.tabs t)) ∧ o = .unit
  | .tVarTimeScalarMult t e s, a', o => a' = a.setE e (smulO (leVal s) (a.tabs t)) ∧ o = .unit
  | .eToJacobi e j, a', o => o = .unit ∧ ∃ v : Fin 4 → Option (Fp × Fp),
      a' = (((a.setJ j (v 0)).setJ (j + 1) (v 1)).setJ (j + 2) (v 2)).setJ (j + 3) (v 3) ∧
      (a.exts e = none → v = fun _ => none) ∧
      ∀ P, a.exts e = some P → ∃ w, FourPairs P w ∧ v = fun i => some (w i)
  | .eInverse e, a', o => a' = a ∧ ∃ fes mask, o = .inverse fes mask ∧ ∀ P, a.exts e = some P → Preimages P fes mask
  | .jDual j k, a', o => a' = a.setJ j (dualO (a.jacs k)) ∧ o = .unit
  | .cSetJacobi c j, a', o => o = .unit ∧ ∃ v, a' = a.setC c v ∧ (a.jacs j = none → v = none) ∧
      ∀ s t, a.jacs j = some (s, t) → OnJac s t ∧ ∃ P : Even, v = some P ∧ OfJac s t P ∧ ∀ Q, OfJac s t Q → Q = P

/-- A program. -/
inductive ARun : AState → List Cmd → AState → List Out → Prop
  | nil (a : AState) : ARun a [] a []
  | cons {a b c : AState} {cmd : Cmd} {cs : List Cmd} {o : Out} {os : List Out} :
      AStep a cmd b o → ARun b cs c os → ARun a (cmd :: cs) c (o :: os)

/-- Only a variable-time multiplication with a table panics, if the top digit of the scalar is above 8. -/
def Panics : Cmd → Prop
  | .tVarTimeScalarMult _ _ s => 8 < topDigit 16 63 (leVal s)
  | _ => False

end Ristretto.Ed
