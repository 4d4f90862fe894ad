import Verif.Spec.Words
import Verif.Model.RecoverWords
import Mathlib.Algebra.BigOperators.Group.Finset.Basic

/-!
# Programs that recover from panics, on group elements and numbers below `2^256`
-/

namespace Ristretto.Words
open Model Model.Conc Spec.EdRange
set_option autoImplicit false

/-- Digit `i` of `n` in base 16, between -8 and 7: the difference of two rounded quotients. -/
def signedDigit (n i : ℕ) : ℤ := (topDigit 16 i n : ℤ) - 16 * topDigit 16 (i + 1) n

/-- The digits of `n` at the places 1, 3, ..., 61, as a number in base 256. -/
def oddPart (n : ℕ) : ℤ := ∑ j ∈ Finset.range 31, 256 ^ j * signedDigit n (2 * j + 1)

/-- What the variables hold after the call has panicked.  The variable-time multiplications with a table have added up the odd
digits but for the last, on which they panic; the other calls have done nothing. -/
noncomputable def afterPanic (a : NState) : QCmd → NState
  | .call (.call (.pPublicScalarMultBase p s)) => a.setPt p (zmulO (oddPart (a.scs s)) (some baseR))
  | .call (.call (.pPublicScalarMultTable p t s)) => a.setPt p (zmulO (oddPart (a.scs s)) (a.tabs t))
  | _ => a

/-- One call: `none` is a panic. -/
noncomputable def qstep (sha256 : List UInt8 → Bytes 32) (sha512 : List UInt8 → Bytes 64) (a : NState) :
    QCmd → Option (NState × Out)
  | .call (.call c) => nexec sha256 sha512 a c
  | .call (.pRandFails _) => none
  | .call (.sRandFails _) => none
  | .put s w => some (a.setSc s (scVal w), .unit)

/-- Calls one after another. -/
noncomputable def qrecover (sha256 : List UInt8 → Bytes 32) (sha512 : List UInt8 → Bytes 64) :
    NState → List QCmd → List (Option Out) × NState
  | a, [] => ([], a)
  | a, c :: cs =>
    match qstep sha256 sha512 a c with
    | none => let r := qrecover sha256 sha512 (afterPanic a c) cs; (none :: r.1, r.2)
    | some (a', o) => let r := qrecover sha256 sha512 a' cs; (some o :: r.1, r.2)

/-- The calls of a program that do not fail for lack of random bytes. -/
def qcalls (prog : List QCmd) : List Cmd := prog.filterMap fun | .call (.call c) => some c | _ => none

end Ristretto.Words
