import Mathlib.Data.Nat.Notation

/-!
# Which multiple a window method computes when the scalar is too large

Numbers only; nothing here mentions the code.

A window method with base `b` writes a number as `low + t * b^k`, where `low` has `k` signed digits between `-b/2` and
`b/2 - 1`, and `t`, the top digit, is not negative.  The table of multiples it looks digits up in ends at `m`.
-/

namespace Ristretto.Spec.EdRange
set_option autoImplicit false

/-- The top digit `t` of `n = low + t * b^k`: `low` lies between `-(b/2) * (1 + b + ... + b^(k-1))` and
`(b/2 - 1) * (1 + b + ... + b^(k-1))`, an interval of `b^k` numbers, so `t` is a rounded quotient. -/
def topDigit (b k n : ℕ) : ℕ := (n + b / 2 * ((b ^ k - 1) / (b - 1))) / b ^ k

/-- What is lost when the top digit is looked up in a table that ends at `m`, and counts as zero if it is not there. -/
def lost (b k m n : ℕ) : ℕ := if topDigit b k n ≤ m then 0 else topDigit b k n * b ^ k

/-- The carry that remains when a number `r` has been recoded from the right into odd digits between `-15` and `15`,
each followed by at least four zeros, and the `k` places of the recoding are used up. -/
def carryOut (k r : ℕ) : ℕ :=
  if k = 0 then r
  else if r % 2 = 0 then carryOut (k - 1) (r / 2)
  else if r % 32 < 16 then carryOut (k - 5) (r / 32)
  else carryOut (k - 5) (r / 32 + 1)
termination_by k
decreasing_by all_goals omega

end Ristretto.Spec.EdRange
