import Verif.Model.Cref
import Mathlib.Algebra.BigOperators.Fin

/-!
# The numbers the scalars of the C reference implementation stand for
-/

namespace Ristretto
open Model.Cref
set_option autoImplicit false

/-- The 32 digits of `s` are bytes and `n` is the number they stand for, the least significant digit first. -/
def IsNum (s : Sc) (n : ℕ) : Prop :=
  (∀ i : Fin 32, s[i].toNat < 256) ∧ ∑ i : Fin 32, s[i].toNat * 256 ^ (i : ℕ) = n

end Ristretto
