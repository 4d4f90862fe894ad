import Verif.Model.Word
import Mathlib.Tactic.Ring
import Mathlib.Tactic.Linarith
import Mathlib.Data.ZMod.Basic

/-! Helper lemmas about machine words. -/

namespace Ristretto.Proofs
open Model

/-- The number held by a `(hi, lo)` pair. -/
def v128 (a : UInt64 × UInt64) : ℕ := a.1.toNat * 2 ^ 64 + a.2.toNat

theorem bitsMul64_val (x y : UInt64) : v128 (bitsMul64 x y) = x.toNat * y.toNat := by
  have hx := x.toNat_lt
  have hy := y.toNat_lt
  have h : x.toNat * y.toNat < 2 ^ 64 * 2 ^ 64 := Nat.mul_lt_mul'' hx hy
  have h2 : x.toNat * y.toNat / 2 ^ 64 < 2 ^ 64 := Nat.div_lt_of_lt_mul h
  simp only [v128, bitsMul64, UInt64.toNat_ofNat', UInt64.toNat_mul]
  omega

theorem mulAcc_val (acc : UInt64 × UInt64) (x y : UInt64)
    (h : v128 acc + x.toNat * y.toNat < 2 ^ 128) :
    v128 (mulAcc acc x y) = v128 acc + x.toNat * y.toNat := by
  have hm := bitsMul64_val x y
  rw [← hm] at h ⊢
  clear hm
  unfold mulAcc
  generalize bitsMul64 x y = hl at *
  obtain ⟨a1, a2⟩ := acc
  obtain ⟨b1, b2⟩ := hl
  have := a1.toNat_lt
  have := a2.toNat_lt
  have := b1.toNat_lt
  have := b2.toNat_lt
  simp only [v128] at *
  simp only [bitsAdd64, UInt64.toNat_ofNat', UInt64.toNat_add, UInt64.toNat_zero, Nat.reducePow] at *
  omega

theorem shift51 (prev : UInt64 × UInt64) (h : v128 prev < 2 ^ 115) :
    ((prev.2 >>> 51) ||| (prev.1 <<< 13)).toNat = v128 prev / 2 ^ 51 := by
  obtain ⟨h1, l1⟩ := prev
  simp only [v128] at *
  have := h1.toNat_lt
  have := l1.toNat_lt
  rw [UInt64.toNat_or, UInt64.toNat_shiftRight, UInt64.toNat_shiftLeft]
  have e1 : (51 : UInt64).toNat % 64 = 51 := rfl
  have e2 : (13 : UInt64).toNat % 64 = 13 := rfl
  rw [e1, e2, Nat.shiftRight_eq_div_pow, Nat.shiftLeft_eq]
  have hs : h1.toNat * 2 ^ 13 < 2 ^ 64 := by
    have h51 : h1.toNat < 2251799813685248 := by simp only [Nat.reducePow] at *; omega
    clear h
    simp only [Nat.reducePow] at *; omega
  rw [Nat.mod_eq_of_lt hs, Nat.or_comm, ← Nat.shiftLeft_eq,
    ← Nat.shiftLeft_add_eq_or_of_lt (by simp only [Nat.reducePow] at *; omega), Nat.shiftLeft_eq]
  simp only [Nat.reducePow] at *
  omega

theorem carryAcc_val (prev acc : UInt64 × UInt64) (h : v128 prev < 2 ^ 115)
    (h2 : v128 acc + v128 prev / 2 ^ 51 < 2 ^ 128) :
    v128 (carryAcc prev acc) = v128 acc + v128 prev / 2 ^ 51 := by
  have hs := shift51 prev h
  rw [← hs] at h2 ⊢
  unfold carryAcc
  generalize (prev.2 >>> 51) ||| (prev.1 <<< 13) = c at *
  obtain ⟨a1, a2⟩ := acc
  have := a1.toNat_lt
  have := a2.toNat_lt
  have := c.toNat_lt
  simp only [v128] at *
  simp only [bitsAdd64, UInt64.toNat_ofNat', UInt64.toNat_add, UInt64.toNat_zero]
  omega

theorem and51 (x : UInt64) : (x &&& 0x7ffffffffffff).toNat = x.toNat % 2 ^ 51 := by
  rw [UInt64.toNat_and]
  exact Nat.and_two_pow_sub_one_eq_mod _ 51

theorem shr51 (x : UInt64) : (x >>> 51).toNat = x.toNat / 2 ^ 51 := by
  rw [UInt64.toNat_shiftRight]
  exact Nat.shiftRight_eq_div_pow _ 51

theorem low51 (a : UInt64 × UInt64) : (a.2 &&& 0x7ffffffffffff).toNat = v128 a % 2 ^ 51 := by
  rw [and51]
  simp only [v128]
  omega

theorem toNat_mul_of_lt (x y : UInt64) (h : x.toNat * y.toNat < 2 ^ 64) :
    (x * y).toNat = x.toNat * y.toNat := by
  rw [UInt64.toNat_mul, Nat.mod_eq_of_lt h]

theorem toNat_add_of_lt (x y : UInt64) (h : x.toNat + y.toNat < 2 ^ 64) :
    (x + y).toNat = x.toNat + y.toNat := by
  rw [UInt64.toNat_add, Nat.mod_eq_of_lt h]

end Ristretto.Proofs
