import Verif.Model.Word
import Mathlib.Tactic.Ring
import Mathlib.Tactic.Linarith
import Mathlib.Algebra.BigOperators.Group.Finset.Basic
import Mathlib.Algebra.BigOperators.Fin

/-! Byte strings and their little-endian values. -/

namespace Ristretto.Proofs
open Model
set_option autoImplicit false

theorem leNat_lt (l : List UInt8) : leNat l < 256 ^ l.length := by
  induction l with
  | nil => simp [leNat]
  | cons b bs ih =>
    have := b.toNat_lt
    simp only [leNat, List.length_cons, pow_succ]
    omega

theorem leVal_lt {n : ℕ} (v : Bytes n) : leVal v < 256 ^ n := by
  have := leNat_lt v.toList
  simpa [leVal] using this

theorem leNat_inj : ∀ {l m : List UInt8}, l.length = m.length → leNat l = leNat m → l = m := by
  intro l
  induction l with
  | nil => intro m h _; cases m with
    | nil => rfl
    | cons _ _ => simp at h
  | cons a l ih =>
    intro m h h2
    cases m with
    | nil => simp at h
    | cons b m =>
      simp only [List.length_cons, Nat.add_right_cancel_iff] at h
      simp only [leNat] at h2
      have ha := a.toNat_lt
      have hb := b.toNat_lt
      have h3 : a.toNat = b.toNat := by omega
      have h4 : leNat l = leNat m := by omega
      rw [ih h h4, UInt8.toNat_inj.1 h3]

theorem leVal_inj {n : ℕ} {v w : Bytes n} (h : leVal v = leVal w) : v = w := by
  have := leNat_inj (l := v.toList) (m := w.toList) (by simp) h
  exact Vector.toList_inj.1 this

theorem leNat_eq_sum (l : List UInt8) :
    leNat l = ∑ i ∈ Finset.range l.length, (l.getD i 0).toNat * 256 ^ i := by
  induction l with
  | nil => simp [leNat]
  | cons b bs ih =>
    rw [leNat, ih, List.length_cons, Finset.sum_range_succ']
    simp only [List.getD_cons_succ, List.getD_cons_zero, pow_zero, mul_one, pow_succ]
    rw [Finset.mul_sum, add_comm]
    congr 1
    apply Finset.sum_congr rfl
    intro i _
    ring

theorem leVal_eq_sum {n : ℕ} (v : Bytes n) :
    leVal v = ∑ i ∈ Finset.range n, (v.toList.getD i 0).toNat * 256 ^ i := by
  have hl : v.toList.length = n := by simp
  rw [leVal, leNat_eq_sum, hl]

theorem getD_eq {n : ℕ} (v : Bytes n) (i : ℕ) (h : i < n) : v.toList.getD i 0 = v[i] := by
  simp [List.getD_eq_getElem?_getD, h]

theorem leVal_32 (v : Bytes 32) : leVal v =
    v[0].toNat + 2 ^ 8 * v[1].toNat + 2 ^ 16 * v[2].toNat + 2 ^ 24 * v[3].toNat +
    2 ^ 32 * v[4].toNat + 2 ^ 40 * v[5].toNat + 2 ^ 48 * v[6].toNat + 2 ^ 56 * v[7].toNat +
    2 ^ 64 * v[8].toNat + 2 ^ 72 * v[9].toNat + 2 ^ 80 * v[10].toNat + 2 ^ 88 * v[11].toNat +
    2 ^ 96 * v[12].toNat + 2 ^ 104 * v[13].toNat + 2 ^ 112 * v[14].toNat + 2 ^ 120 * v[15].toNat +
    2 ^ 128 * v[16].toNat + 2 ^ 136 * v[17].toNat + 2 ^ 144 * v[18].toNat + 2 ^ 152 * v[19].toNat +
    2 ^ 160 * v[20].toNat + 2 ^ 168 * v[21].toNat + 2 ^ 176 * v[22].toNat + 2 ^ 184 * v[23].toNat +
    2 ^ 192 * v[24].toNat + 2 ^ 200 * v[25].toNat + 2 ^ 208 * v[26].toNat + 2 ^ 216 * v[27].toNat +
    2 ^ 224 * v[28].toNat + 2 ^ 232 * v[29].toNat + 2 ^ 240 * v[30].toNat + 2 ^ 248 * v[31].toNat := by
  rw [leVal_eq_sum]
  simp only [Finset.sum_range_succ, Finset.sum_range_zero]
  rw [getD_eq v 0 (by omega), getD_eq v 1 (by omega), getD_eq v 2 (by omega), getD_eq v 3 (by omega), getD_eq v 4 (by omega), getD_eq v 5 (by omega), getD_eq v 6 (by omega), getD_eq v 7 (by omega), getD_eq v 8 (by omega), getD_eq v 9 (by omega), getD_eq v 10 (by omega), getD_eq v 11 (by omega), getD_eq v 12 (by omega), getD_eq v 13 (by omega), getD_eq v 14 (by omega), getD_eq v 15 (by omega), getD_eq v 16 (by omega), getD_eq v 17 (by omega), getD_eq v 18 (by omega), getD_eq v 19 (by omega), getD_eq v 20 (by omega), getD_eq v 21 (by omega), getD_eq v 22 (by omega), getD_eq v 23 (by omega), getD_eq v 24 (by omega), getD_eq v 25 (by omega), getD_eq v 26 (by omega), getD_eq v 27 (by omega), getD_eq v 28 (by omega), getD_eq v 29 (by omega), getD_eq v 30 (by omega), getD_eq v 31 (by omega)]
  ring

end Ristretto.Proofs
