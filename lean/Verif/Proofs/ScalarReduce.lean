import Verif.Proofs.Int64
import Verif.Spec.Prime
import Mathlib.Algebra.BigOperators.Group.Finset.Basic
import Mathlib.Tactic.LinearCombination

/-!
# Reduction modulo l

An interval analysis of the reduction, run by the kernel, shows that no `int64` operation overflows.
Every carry keeps the value, every fold changes it by a multiple of `l`.
-/

namespace Ristretto.Proofs
open Model Scalar
set_option autoImplicit false

/-- The number held by the 24 limbs. -/
def limbVal (s : Limbs) : ℤ := ∑ i ∈ Finset.range 24, (s i).toInt * 2 ^ (21 * i)

theorem set_same (s : Limbs) (i : ℕ) (v : Int64) : Limbs.set s i v i = v := if_pos rfl
theorem set_ne (s : Limbs) {i k : ℕ} (v : Int64) (h : k ≠ i) : Limbs.set s i v k = s k := if_neg h

theorem limbVal_set (s : Limbs) (i : ℕ) (v : Int64) (hi : i < 24) :
    limbVal (Limbs.set s i v) = limbVal s + (v.toInt - (s i).toInt) * 2 ^ (21 * i) := by
  unfold limbVal
  have hm : i ∈ Finset.range 24 := Finset.mem_range.2 hi
  rw [← Finset.add_sum_erase _ _ hm, ← Finset.add_sum_erase _ _ hm, set_same]
  have : ∑ x ∈ (Finset.range 24).erase i, (Limbs.set s i v x).toInt * 2 ^ (21 * x) =
      ∑ x ∈ (Finset.range 24).erase i, (s x).toInt * 2 ^ (21 * x) := by
    apply Finset.sum_congr rfl
    intro x hx
    rw [set_ne _ _ (Finset.ne_of_mem_erase hx)]
  rw [this]; ring

/-! ## Intervals -/

/-- One interval per limb. -/
abbrev Bnds := List (ℤ × ℤ)

def Bnds.at (B : Bnds) (i : ℕ) : ℤ × ℤ := B.getD i (0, 0)

/-- Every limb lies in its interval. -/
def Within (s : Limbs) (B : Bnds) : Prop := B.length = 24 ∧
  ∀ i < 24, (B.at i).1 ≤ (s i).toInt ∧ (s i).toInt ≤ (B.at i).2

/-- The interval is far from overflow. -/
def small (b : ℤ × ℤ) : Bool := decide (-2 ^ 62 ≤ b.1) && decide (b.2 ≤ 2 ^ 62)

theorem Bnds.at_set (B : Bnds) (i k : ℕ) (b : ℤ × ℤ) (hi : i < B.length) :
    Bnds.at (List.set B i b) k = if k = i then b else B.at k := by
  unfold Bnds.at
  rw [List.getD_eq_getElem?_getD, List.getElem?_set]
  by_cases h : i = k
  · subst h; simp [hi]
  · rw [if_neg h, if_neg (Ne.symm h), List.getD_eq_getElem?_getD]

theorem Within.set {s : Limbs} {B : Bnds} (h : Within s B) {i : ℕ} (hi : i < 24) {v : Int64} {b : ℤ × ℤ}
    (hv : b.1 ≤ v.toInt ∧ v.toInt ≤ b.2) : Within (Limbs.set s i v) (List.set B i b) := by
  refine ⟨by rw [List.length_set]; exact h.1, ?_⟩
  intro k hk
  rw [Bnds.at_set B i k b (by rw [h.1]; exact hi)]
  by_cases he : k = i
  · subst he; rw [if_pos rfl, set_same]; exact hv
  · rw [if_neg he, set_ne _ _ he]; exact h.2 k hk

/-- `s_i += c; s_{i-1} -= c << 21` on intervals. -/
def absCarry (B : Bnds) (i : ℕ) (r : ℤ) (out : ℤ × ℤ) : Option Bnds :=
  let b := B.at i
  let b' := B.at (i + 1)
  let n := (b'.1 + (b.1 + r) / 2 ^ 21, b'.2 + (b.2 + r) / 2 ^ 21)
  if small b && small n && decide (i < 23) then
    some (List.set (List.set B (i + 1) n) i out)
  else none

/-- `s_i += s_j * c` on intervals. -/
def absAcc (B : Bnds) (i j : ℕ) (c : ℤ) : Option Bnds :=
  let m := if 0 ≤ c then ((B.at j).1 * c, (B.at j).2 * c) else ((B.at j).2 * c, (B.at j).1 * c)
  let n := ((B.at i).1 + m.1, (B.at i).2 + m.2)
  if small m && small n then some (List.set B i n) else none

/-- Interval semantics of the statement groups. -/
def absExec : RedOp → Bnds → Option Bnds
  | .carryR i, B => absCarry B i (2 ^ 20) (-2 ^ 20, 2 ^ 20 - 1)
  | .carryF i, B => absCarry B i 0 (0, 2 ^ 21 - 1)
  | .fold j, B =>
    if 12 ≤ j ∧ j < 24 then
      (absAcc B (j - 12) j 666643).bind fun B =>
      (absAcc B (j - 11) j 470296).bind fun B =>
      (absAcc B (j - 10) j 654183).bind fun B =>
      (absAcc B (j - 9) j (-997805)).bind fun B =>
      (absAcc B (j - 8) j 136657).bind fun B =>
      (absAcc B (j - 7) j (-683901)).bind fun B =>
      some (List.set B j (0, 0))
    else none

/-- What an operation does to the value: carries keep it, folds remove a multiple of `l`. -/
def opLoss : RedOp → Limbs → ℤ
  | .carryR _, _ => 0
  | .carryF _, _ => 0
  | .fold j, s => (s j).toInt * 2 ^ (21 * (j - 12)) * l

theorem small_iff (b : ℤ × ℤ) : small b = true ↔ -2 ^ 62 ≤ b.1 ∧ b.2 ≤ 2 ^ 62 := by
  simp [small]

theorem absCarry_spec {s : Limbs} {B B' : Bnds} (h : Within s B) (i : ℕ) (r : ℤ) (out : ℤ × ℤ) (c : Int64)
    (hc : c.toInt = ((s i).toInt + r) / 2 ^ 21) (hr : 0 ≤ r ∧ r ≤ 2 ^ 20)
    (ho : out = (-r, 2 ^ 21 - 1 - r)) (hB : absCarry B i r out = some B') :
    let s1 := Limbs.set s (i + 1) (s (i + 1) + c)
    let s2 := Limbs.set s1 i (s1 i - (c <<< 21))
    Within s2 B' ∧ limbVal s2 = limbVal s := by
  intro s1 s2
  unfold absCarry at hB
  simp only at hB
  split at hB
  · rename_i hcond
    simp only [Bool.and_eq_true, small_iff, decide_eq_true_eq] at hcond
    obtain ⟨⟨⟨hb1, hb2⟩, hn1, hn2⟩, hi⟩ := hcond
    cases hB
    have hsi := h.2 i (by omega)
    have hsi1 := h.2 (i + 1) (by omega)
    generalize hbv : B.at i = b at *
    generalize hbv' : B.at (i + 1) = b' at *
    have hdm := Int.emod_add_mul_ediv ((s i).toInt + r) (2 ^ 21)
    have hm0 := Int.emod_nonneg ((s i).toInt + r) (show (2 : ℤ) ^ 21 ≠ 0 by norm_num)
    have hm1 := Int.emod_lt_of_pos ((s i).toInt + r) (show (0 : ℤ) < 2 ^ 21 by norm_num)
    rw [← hc] at hdm
    have hcl : (b.1 + r) / 2 ^ 21 ≤ c.toInt := by
      rw [hc]; exact Int.ediv_le_ediv (by norm_num) (by omega)
    have hcu : c.toInt ≤ (b.2 + r) / 2 ^ 21 := by
      rw [hc]; exact Int.ediv_le_ediv (by norm_num) (by omega)
    have e1 : (s (i + 1) + c).toInt = (s (i + 1)).toInt + c.toInt := i64_add (by omega) (by omega)
    have e0 : s1 i = s i := set_ne _ _ (by omega)
    have esh : (c <<< 21).toInt = c.toInt * 2 ^ 21 := i64_shl' c 21 21 (by decide) (by omega) (by omega)
    have e2 : (s1 i - (c <<< 21)).toInt = (s i).toInt - c.toInt * 2 ^ 21 := by
      rw [e0, i64_sub (by rw [esh]; omega) (by rw [esh]; omega), esh]
    constructor
    · apply Within.set _ (by omega)
      · rw [e2, ho]; simp only; constructor <;> omega
      · apply Within.set h (by omega)
        rw [e1]; simp only; constructor <;> omega
    · rw [limbVal_set _ _ _ (by omega), limbVal_set _ _ _ (by omega), e2, e0, e1,
        show 21 * (i + 1) = 21 * i + 21 by ring, pow_add]
      ring
  · cases hB

theorem mul_bounds {a b x c : ℤ} (h1 : a ≤ x) (h2 : x ≤ b) :
    (if 0 ≤ c then (a * c, b * c) else (b * c, a * c)).1 ≤ x * c ∧
    x * c ≤ (if 0 ≤ c then (a * c, b * c) else (b * c, a * c)).2 := by
  split
  · constructor <;> nlinarith
  · constructor <;> nlinarith

theorem absAcc_add {s : Limbs} {B B' : Bnds} (h : Within s B) {i j : ℕ} (hi : i < 24) (hj : j < 24)
    (hij : i ≠ j) (c : Int64) (hB : absAcc B i j c.toInt = some B') :
    Within (Limbs.set s i (s i + s j * c)) B' ∧
    limbVal (Limbs.set s i (s i + s j * c)) = limbVal s + (s j).toInt * c.toInt * 2 ^ (21 * i) ∧
    Limbs.set s i (s i + s j * c) j = s j := by
  unfold absAcc at hB
  simp only at hB
  obtain ⟨hj1, hj2⟩ := h.2 j hj
  have hsi := h.2 i hi
  have hm := mul_bounds (c := c.toInt) hj1 hj2
  generalize hmv : (if 0 ≤ c.toInt then ((B.at j).1 * c.toInt, (B.at j).2 * c.toInt) else ((B.at j).2 * c.toInt, (B.at j).1 * c.toInt)) = m at *
  split at hB
  · rename_i hcond
    simp only [Bool.and_eq_true, small_iff] at hcond
    cases hB
    have e1 : (s j * c).toInt = (s j).toInt * c.toInt := i64_mul (by omega) (by omega)
    have e2 : (s i + s j * c).toInt = (s i).toInt + (s j).toInt * c.toInt := by
      rw [i64_add (by rw [e1]; omega) (by rw [e1]; omega), e1]
    refine ⟨?_, ?_, set_ne _ _ (Ne.symm hij)⟩
    · apply Within.set h hi
      rw [e2]; simp only; constructor <;> omega
    · rw [limbVal_set _ _ _ hi, e2]; ring
  · cases hB

theorem absAcc_sub {s : Limbs} {B B' : Bnds} (h : Within s B) {i j : ℕ} (hi : i < 24) (hj : j < 24)
    (hij : i ≠ j) (c : Int64) (hB : absAcc B i j (-c.toInt) = some B') :
    Within (Limbs.set s i (s i - s j * c)) B' ∧
    limbVal (Limbs.set s i (s i - s j * c)) = limbVal s - (s j).toInt * c.toInt * 2 ^ (21 * i) ∧
    Limbs.set s i (s i - s j * c) j = s j := by
  unfold absAcc at hB
  simp only at hB
  obtain ⟨hj1, hj2⟩ := h.2 j hj
  have hsi := h.2 i hi
  have hm := mul_bounds (c := -c.toInt) hj1 hj2
  generalize hmv : (if 0 ≤ -c.toInt then ((B.at j).1 * -c.toInt, (B.at j).2 * -c.toInt) else ((B.at j).2 * -c.toInt, (B.at j).1 * -c.toInt)) = m at *
  rw [mul_neg] at hm
  split at hB
  · rename_i hcond
    simp only [Bool.and_eq_true, small_iff] at hcond
    cases hB
    have e1 : (s j * c).toInt = (s j).toInt * c.toInt := i64_mul (by omega) (by omega)
    have e2 : (s i - s j * c).toInt = (s i).toInt - (s j).toInt * c.toInt := by
      rw [i64_sub (by rw [e1]; omega) (by rw [e1]; omega), e1]
    refine ⟨?_, ?_, set_ne _ _ (Ne.symm hij)⟩
    · apply Within.set h hi
      rw [e2]; simp only; constructor <;> omega
    · rw [limbVal_set _ _ _ hi, e2]; ring
  · cases hB

theorem exec_spec (o : RedOp) {s : Limbs} {B B' : Bnds} (h : Within s B) (hB : absExec o B = some B') :
    Within (o.exec s) B' ∧ limbVal (o.exec s) = limbVal s - opLoss o s := by
  cases o with
  | carryR i =>
    simp only [absExec] at hB
    have hs : (i < 23) ∧ small (B.at i) := by
      unfold absCarry at hB; simp only at hB
      split at hB
      · rename_i hc; simp only [Bool.and_eq_true, decide_eq_true_eq] at hc; exact ⟨hc.2, hc.1.1⟩
      · cases hB
    have hb := (small_iff _).1 hs.2
    have hsi := h.2 i (by omega)
    have h20 : ((1 : Int64) <<< 20).toInt = 2 ^ 20 := by decide
    have hc : ((s i + ((1 : Int64) <<< 20)) >>> 21).toInt = ((s i).toInt + 2 ^ 20) / 2 ^ 21 := by
      rw [i64_shr _ 21 21 (by decide), i64_add (by rw [h20]; omega) (by rw [h20]; omega), h20]
    have := absCarry_spec h i (2 ^ 20) _ _ hc (by norm_num) (by norm_num) hB
    simpa [opLoss, RedOp.exec] using this
  | carryF i =>
    simp only [absExec] at hB
    have hc : (s i >>> 21).toInt = ((s i).toInt + 0) / 2 ^ 21 := by
      rw [i64_shr _ 21 21 (by decide), add_zero]
    have := absCarry_spec h i 0 _ _ hc (by norm_num) (by norm_num) hB
    simpa [opLoss, RedOp.exec] using this
  | fold j =>
    simp only [absExec] at hB
    split at hB
    · rename_i hj
      obtain ⟨hj1, hj2⟩ := hj
      simp only [Option.bind_eq_some_iff] at hB
      obtain ⟨B1, h1, B2, h2, B3, h3, B4, h4, B5, h5, B6, h6, h7⟩ := hB
      simp only [RedOp.exec]
      obtain ⟨w1, v1, k1⟩ := absAcc_add h (i := j - 12) (by omega) hj2 (by omega) 666643 h1
      obtain ⟨w2, v2, k2⟩ := absAcc_add w1 (i := j - 11) (by omega) hj2 (by omega) 470296 h2
      obtain ⟨w3, v3, k3⟩ := absAcc_add w2 (i := j - 10) (by omega) hj2 (by omega) 654183 h3
      obtain ⟨w4, v4, k4⟩ := absAcc_sub w3 (i := j - 9) (by omega) hj2 (by omega) 997805 h4
      obtain ⟨w5, v5, k5⟩ := absAcc_add w4 (i := j - 8) (by omega) hj2 (by omega) 136657 h5
      obtain ⟨w6, v6, k6⟩ := absAcc_sub w5 (i := j - 7) (by omega) hj2 (by omega) 683901 h6
      cases h7
      refine ⟨Within.set w6 hj2 (by decide), ?_⟩
      rw [limbVal_set _ _ _ hj2, v6, v5, v4, v3, v2, v1, k6, k5, k4, k3, k2, k1]
      obtain ⟨m, rfl⟩ : ∃ m, j = m + 12 := ⟨j - 12, by omega⟩
      have e11 : m + 12 - 11 = m + 1 := by omega
      have e10 : m + 12 - 10 = m + 2 := by omega
      have e9 : m + 12 - 9 = m + 3 := by omega
      have e8 : m + 12 - 8 = m + 4 := by omega
      have e7 : m + 12 - 7 = m + 5 := by omega
      simp only [opLoss, Nat.add_sub_cancel, e11, e10, e9, e8, e7, mul_add, pow_add]
      have c1 : (666643 : Int64).toInt = 666643 := by decide
      have c2 : (470296 : Int64).toInt = 470296 := by decide
      have c3 : (654183 : Int64).toInt = 654183 := by decide
      have c4 : (997805 : Int64).toInt = 997805 := by decide
      have c5 : (136657 : Int64).toInt = 136657 := by decide
      have c6 : (683901 : Int64).toInt = 683901 := by decide
      have c0 : (0 : Int64).toInt = 0 := by decide
      rw [c1, c2, c3, c4, c5, c6, c0, l_eq]
      push_cast
      ring
    · cases hB

/-- Interval semantics of a sequence. -/
def absAll : List RedOp → Bnds → Option Bnds
  | [], B => some B
  | o :: os, B => (absExec o B).bind (absAll os)

theorem execAll_spec (os : List RedOp) : ∀ {s : Limbs} {B B' : Bnds}, Within s B → absAll os B = some B' →
    Within (execAll os s) B' ∧ ∃ k : ℤ, limbVal (execAll os s) = limbVal s + k * l := by
  induction os with
  | nil => intro s B B' h hB; cases hB; exact ⟨h, 0, by simp [execAll]⟩
  | cons o os ih =>
    intro s B B' h hB
    simp only [absAll, Option.bind_eq_some_iff] at hB
    obtain ⟨B1, h1, h2⟩ := hB
    obtain ⟨w, v⟩ := exec_spec o h h1
    obtain ⟨w2, k, v2⟩ := ih w h2
    refine ⟨w2, ?_⟩
    have hl : ∃ m : ℤ, opLoss o s = m * l := by
      cases o with
      | carryR i => exact ⟨0, by simp [opLoss]⟩
      | carryF i => exact ⟨0, by simp [opLoss]⟩
      | fold j => exact ⟨_, rfl⟩
    obtain ⟨m, hm⟩ := hl
    refine ⟨k - m, ?_⟩
    have : execAll (o :: os) s = execAll os (o.exec s) := rfl
    rw [this, v2, v, hm]; ring

/-- Carries keep the value exactly. -/
theorem execAll_carry (os : List RedOp) (hos : ∀ o ∈ os, ∀ j, o ≠ .fold j) : ∀ {s : Limbs} {B B' : Bnds},
    Within s B → absAll os B = some B' → Within (execAll os s) B' ∧ limbVal (execAll os s) = limbVal s := by
  induction os with
  | nil => intro s B B' h hB; cases hB; exact ⟨h, rfl⟩
  | cons o os ih =>
    intro s B B' h hB
    simp only [absAll, Option.bind_eq_some_iff] at hB
    obtain ⟨B1, h1, h2⟩ := hB
    obtain ⟨w, v⟩ := exec_spec o h h1
    obtain ⟨w2, v2⟩ := ih (fun o ho => hos o (by simp [ho])) w h2
    refine ⟨w2, ?_⟩
    have : execAll (o :: os) s = execAll os (o.exec s) := rfl
    have h0 : opLoss o s = 0 := by
      cases o with
      | carryR i => rfl
      | carryF i => rfl
      | fold j => exact absurd rfl (hos _ (by simp) j)
    rw [this, v2, v, h0]; ring

end Ristretto.Proofs
