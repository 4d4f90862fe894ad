import Verif.Model.Scalar
import Mathlib.Tactic.Ring
import Mathlib.Tactic.Linarith

/-! Exact arithmetic on `Int64` when nothing overflows, and shifts. -/

namespace Ristretto.Proofs
set_option autoImplicit false

theorem i64_bmod {x : ℤ} (h1 : -2 ^ 63 ≤ x) (h2 : x < 2 ^ 63) : x.bmod (2 ^ 64) = x := by
  rw [Int.bmod_def]
  split <;> omega

theorem i64_add {a b : Int64} (h1 : -2 ^ 63 ≤ a.toInt + b.toInt) (h2 : a.toInt + b.toInt < 2 ^ 63) :
    (a + b).toInt = a.toInt + b.toInt := by rw [Int64.toInt_add, i64_bmod h1 h2]

theorem i64_sub {a b : Int64} (h1 : -2 ^ 63 ≤ a.toInt - b.toInt) (h2 : a.toInt - b.toInt < 2 ^ 63) :
    (a - b).toInt = a.toInt - b.toInt := by rw [Int64.toInt_sub, i64_bmod h1 h2]

theorem i64_mul {a b : Int64} (h1 : -2 ^ 63 ≤ a.toInt * b.toInt) (h2 : a.toInt * b.toInt < 2 ^ 63) :
    (a * b).toInt = a.toInt * b.toInt := by rw [Int64.toInt_mul, i64_bmod h1 h2]

theorem i64_shr (x k : Int64) (n : ℕ) (hk : (k.toBitVec.smod 64).toNat = n) :
    (x >>> k).toInt = x.toInt / 2 ^ n := by
  show (x >>> k).toBitVec.toInt = x.toBitVec.toInt / 2 ^ n
  rw [Int64.toBitVec_shiftRight, BitVec.sshiftRight', hk, BitVec.toInt_sshiftRight,
    Int.shiftRight_eq_div_pow]
  norm_cast

theorem i64_shl (x k : Int64) (n : ℕ) (hk : (k.toBitVec.smod 64).toNat = n) :
    (x <<< k).toInt = (x.toInt * 2 ^ n).bmod (2 ^ 64) := by
  show (x <<< k).toBitVec.toInt = (x.toBitVec.toInt * 2 ^ n).bmod (2 ^ 64)
  rw [Int64.toBitVec_shiftLeft, BitVec.shiftLeft_eq', hk, BitVec.toInt_shiftLeft, Nat.shiftLeft_eq]
  rw [BitVec.toInt_eq_toNat_bmod, Int.bmod_mul_bmod]
  push_cast
  rfl

theorem i64_shl' (x k : Int64) (n : ℕ) (hk : (k.toBitVec.smod 64).toNat = n)
    (h1 : -2 ^ 63 ≤ x.toInt * 2 ^ n) (h2 : x.toInt * 2 ^ n < 2 ^ 63) :
    (x <<< k).toInt = x.toInt * 2 ^ n := by rw [i64_shl x k n hk, i64_bmod h1 h2]

/-- For a nonnegative `Int64`, `toUInt64` is the same number. -/
theorem toUInt64_toNat (x : Int64) : (x.toUInt64.toNat : ℤ) = x.toInt % 2 ^ 64 := by
  show (x.toBitVec.toNat : ℤ) = x.toBitVec.toInt % 2 ^ 64
  rw [BitVec.toInt_eq_toNat_bmod]
  have := x.toBitVec.isLt
  rw [Int.bmod_def]
  split <;> omega

theorem toInt64_toInt (x : UInt64) (h : x.toNat < 2 ^ 63) : x.toInt64.toInt = x.toNat := by
  show x.toBitVec.toInt = x.toBitVec.toNat
  have h' : x.toBitVec.toNat < 2 ^ 63 := h
  rw [BitVec.toInt_eq_toNat_of_lt (by omega)]

end Ristretto.Proofs
