import Verif.Spec.CrefMachine
import Verif.Model.CrefApi
import Mathlib.Data.Nat.Size

/-!
# The abstract machine of all of cref.c

The variables are those of Spec/CrefMachine.  `fe25519` values are not reduced by additions, so a program has to keep
within the preconditions that the comments of cref.c state on the limbs.  `fits` does this bookkeeping: every field
variable has a size, 1 for a constant or the result of a multiplication; sizes add up in additions.
-/

namespace Ristretto
set_option autoImplicit false
open Model Model.Cref

/-- `w` with `v` at `f`. -/
def setW (w : ℕ → ℕ) (f v : ℕ) : ℕ → ℕ := fun k => if k = f then v else w k

/-- The sizes after a call, if its preconditions are met.  Sums have size up to 10, operands of multiplications, tests and
`fe25519_pack` up to 3.  The receivers of `fe25519_triple` and `group_ge_multiscalarmult` must not be among the operands. -/
def weigh (w : ℕ → ℕ) : KCmd → Option (ℕ → ℕ)
  | .go (.feUnpack f _) => some (setW w f 1)
  | .go (.fePack f) => if w f ≤ 3 then some w else none
  | .go (.geElligator _ f) => if w f ≤ 3 then some w else none
  | .feSetOne r => some (setW w r 1)
  | .feSetZero r => some (setW w r 1)
  | .feNeg r x => some (setW w r (w x))
  | .feAdd r x y => if w x + w y ≤ 10 then some (setW w r (w x + w y)) else none
  | .feSub r x y => if w x + w y ≤ 10 then some (setW w r (w x + w y)) else none
  | .feDouble r x => if w x + w x ≤ 10 then some (setW w r (w x + w x)) else none
  | .feTriple r x => if r ≠ x ∧ w x + w x + w x ≤ 10 then some (setW w r (w x + w x + w x)) else none
  | .feMul r x y => if w x ≤ 3 ∧ w y ≤ 3 then some (setW w r 1) else none
  | .feSquare r x => if w x ≤ 3 then some (setW w r 1) else none
  | .feSquareDouble r x => if w x ≤ 3 then some (setW w r 1) else none
  | .feInvert r x => if w x ≤ 3 then some (setW w r 1) else none
  | .fePow2523 r x => if w x ≤ 3 then some (setW w r 1) else none
  | .feAbs r x => if w x ≤ 3 then some (setW w r (w x)) else none
  | .feCmov r x _ => some (setW w r (max (w r) (w x)))
  | .feIsZero x => if w x ≤ 3 then some w else none
  | .feIsOne x => if w x ≤ 2 then some w else none
  | .feIsNegative x => if w x ≤ 3 then some w else none
  | .feIsEq x y => if w x + w y ≤ 3 then some w else none
  | .geMultiScalarMult r xs => if r ∈ xs.map Prod.fst then none else some w
  | _ => some w

/-- The program meets the preconditions. -/
def fits : (ℕ → ℕ) → List KCmd → Bool
  | _, [] => true
  | w, c :: cs => match weigh w c with
    | some w' => fits w' cs
    | none => false

/-- 1 for true, 0 for false. -/
def bit (c : Prop) [Decidable c] : COut := .int (if c then 1 else 0)

open Classical in
/-- One call. -/
noncomputable def kaexec (a : CState) : KCmd → CState × COut
  | .go c => caexec a c
  | .scSetZero r => (a.setSc r 0, .unit)
  | .scSetOne r => (a.setSc r 1, .unit)
  | .scAdd r x y => (a.setSc r (a.scs x + a.scs y), .unit)
  | .scSub r x y => (a.setSc r (a.scs x - a.scs y), .unit)
  | .scNegate r x => (a.setSc r (-a.scs x), .unit)
  | .scMul r x y => (a.setSc r (a.scs x * a.scs y), .unit)
  | .scSquare r x => (a.setSc r (a.scs x * a.scs x), .unit)
  | .scInvert r x => (a.setSc r (a.scs x)⁻¹, .unit)
  | .scFrom64 r h => (a.setSc r ((leVal h : ℕ) : ZMod l), .unit)
  | .scIsOne x => (a, bit (a.scs x = 1))
  | .scIsZero x => (a, bit (a.scs x = 0))
  | .scEquals x y => (a, bit (a.scs x = a.scs y))
  | .scTstbit x pos => (a, bit ((a.scs x).val / 2 ^ (pos : ℕ) % 2 = 1))
  | .scBitlen x => (a, .int (Int32.ofNat (Nat.size (a.scs x).val)))
  | .feSetOne r => (a.setFe r 1, .unit)
  | .feSetZero r => (a.setFe r 0, .unit)
  | .feNeg r x => (a.setFe r (-a.fes x), .unit)
  | .feAdd r x y => (a.setFe r (a.fes x + a.fes y), .unit)
  | .feSub r x y => (a.setFe r (a.fes x - a.fes y), .unit)
  | .feDouble r x => (a.setFe r (2 * a.fes x), .unit)
  | .feTriple r x => (a.setFe r (3 * a.fes x), .unit)
  | .feMul r x y => (a.setFe r (a.fes x * a.fes y), .unit)
  | .feSquare r x => (a.setFe r (a.fes x ^ 2), .unit)
  | .feSquareDouble r x => (a.setFe r (2 * a.fes x ^ 2), .unit)
  | .feInvert r x => (a.setFe r (a.fes x)⁻¹, .unit)
  | .fePow2523 r x => (a.setFe r (a.fes x ^ (2 ^ 252 - 3)), .unit)
  | .feAbs r x => (a.setFe r (if (a.fes x).val % 2 = 1 then -a.fes x else a.fes x), .unit)
  | .feCmov r x b => (a.setFe r (if b then a.fes x else a.fes r), .unit)
  | .feIsZero x => (a, bit (a.fes x = 0))
  | .feIsOne x => (a, bit (a.fes x = 1))
  | .feIsNegative x => (a, bit ((a.fes x).val % 2 = 1))
  | .feIsEq x y => (a, bit (a.fes x = a.fes y))
  | .geSetNeutral r => (a.setPt r (some 0), .unit)
  | .geSetBase r => (a.setPt r (some baseR), .unit)
  | .geScalarMultBase r s => (a.setPt r (some ((a.scs s).val • baseR)), .unit)
  | .geMultiScalarMult r xs =>
    (a.setPt r ((xs.map fun xs => smulO (a.scs xs.2) (a.pts xs.1)).foldl addO (some 0)), .unit)
  | .geEquals x y => (a, bit (eqO (a.pts x) (a.pts y)))
  | .geIsNeutral x => (a, bit (eqO (a.pts x) (some 0)))

/-- A program. -/
noncomputable def karun : CState → List KCmd → CState × List COut
  | a, [] => (a, [])
  | a, c :: cs =>
    let r := kaexec a c
    let rs := karun r.1 cs
    (rs.1, r.2 :: rs.2)

/-- The method of the Go package that does the same, for the calls on scalars and group elements that have one. -/
def goOf : KCmd → Option Cmd
  | .go (.geUnpack g buf) => some (.pSetBytes g buf)
  | .go (.gePack g) => some (.pBytes g)
  | .go (.geNeg g x) => some (.pNeg g x)
  | .go (.geAdd g x y) => some (.pAdd g x y)
  | .go (.geDouble g x) => some (.pDouble g x)
  | .go (.geScalarMult g x s) => some (.pScalarMult g x s)
  | .go (.scUnpack s buf) => some (.sSetBytes s buf)
  | .go (.scPack s) => some (.sBytes s)
  | .scSetZero r => some (.sZero r)
  | .scSetOne r => some (.sOne r)
  | .scAdd r x y => some (.sAdd r x y)
  | .scSub r x y => some (.sSub r x y)
  | .scNegate r x => some (.sNeg r x)
  | .scMul r x y => some (.sMul r x y)
  | .scSquare r x => some (.sSquare r x)
  | .scInvert r x => some (.sInverse r x)
  | .scFrom64 r h => some (.sSetReduced r h)
  | .scIsZero x => some (.sIsNonZeroI x)
  | .scEquals x y => some (.sEqualsI x y)
  | .geSetNeutral r => some (.pZero r)
  | .geSetBase r => some (.pBase r)
  | .geScalarMultBase r s => some (.pScalarMultBase r s)
  | .geEquals x y => some (.pEqualsI x y)
  | _ => none

/-- What the caller of that method should see: `group_ge_unpack` returns 0 for success where `SetBytes` returns `true`, and
`scalar_iszero` is the negation of `IsNonZeroI`. -/
def seenOf : KCmd → COut → Out
  | .go (.geUnpack _ _), .int i => .bool (i = 0)
  | .scIsZero _, .int i => .int32 (1 - i)
  | _, .int i => .int32 i
  | _, .bytes b => .bytes b.toList
  | _, .unit => .unit

end Ristretto
