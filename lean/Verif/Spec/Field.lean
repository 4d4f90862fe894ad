import Verif.Spec.Prime
import Mathlib.NumberTheory.LegendreSymbol.Basic
import Mathlib.Tactic.FieldSimp
import Mathlib.Tactic.LinearCombination

/-!
# The field GF(2^255-19) and the curve constants (specification)
-/

namespace Ristretto

/-- The field over which Edwards25519 is defined. -/
abbrev Fp := ZMod p

/-- "Negative" field elements: those whose representative in `[0, p)` is odd. -/
def IsNeg (x : Fp) : Prop := x.val % 2 = 1

instance (x : Fp) : Decidable (IsNeg x) := by unfold IsNeg; infer_instance

/-- The parameter of Edwards25519. -/
def d : Fp := -121665 / 121666

/-- The even square root of -1. -/
def sqrtM1 : Fp :=
  ((19681161376707505956807079304988542015446066515923890162744021073123829784752 : ℕ) : Fp)

/-! Arithmetic on numerals. -/

theorem natCast_eq_of_mod {a b : ℕ} (h : a % p = b % p) : (a : Fp) = (b : Fp) :=
  (ZMod.natCast_eq_natCast_iff' a b p).2 h

theorem natCast_ne_of_mod {a b : ℕ} (h : a % p ≠ b % p) : (a : Fp) ≠ (b : Fp) :=
  fun e => h ((ZMod.natCast_eq_natCast_iff' a b p).1 e)

theorem small_ne_zero (n : ℕ) (h0 : 0 < n) (h : n < p) : (n : Fp) ≠ 0 := by
  intro e
  rw [← Nat.cast_zero] at e
  have := (ZMod.natCast_eq_natCast_iff' n 0 p).1 e
  rw [Nat.mod_eq_of_lt h, Nat.zero_mod] at this
  omega

theorem two_ne_zero' : (2 : Fp) ≠ 0 := by
  have := small_ne_zero 2 (by norm_num) (by norm_num [p]); exact_mod_cast this

theorem four_ne_zero' : (4 : Fp) ≠ 0 := by
  have := small_ne_zero 4 (by norm_num) (by norm_num [p]); exact_mod_cast this

/-- The representative of `d` in `[0, p)`. -/
def dNat : ℕ := 37095705934669439343138083508754565189542113879843219016388785533085940283555

theorem d_eq : d = (dNat : Fp) := by
  have h0 : (121666 : Fp) ≠ 0 := by
    have := small_ne_zero 121666 (by norm_num) (by norm_num [p]); exact_mod_cast this
  have h1 : ((dNat * 121666 + 121665 : ℕ) : Fp) = ((0 : ℕ) : Fp) :=
    natCast_eq_of_mod (by norm_num [p, dNat])
  push_cast at h1
  rw [d, div_eq_iff h0]
  linear_combination -h1

theorem sqrtM1_sq : sqrtM1 * sqrtM1 = -1 := by
  have h : ((19681161376707505956807079304988542015446066515923890162744021073123829784752 *
    19681161376707505956807079304988542015446066515923890162744021073123829784752 + 1 : ℕ) : Fp) =
    ((0 : ℕ) : Fp) := natCast_eq_of_mod (by norm_num [p])
  rw [Nat.cast_add, Nat.cast_mul] at h
  simp only [sqrtM1]
  push_cast at h ⊢
  linear_combination h

theorem sqrtM1_ne_zero : sqrtM1 ≠ 0 := by
  intro h
  have := sqrtM1_sq
  rw [h] at this
  simp at this

theorem neg_one_isSquare : IsSquare (-1 : Fp) := ⟨sqrtM1, sqrtM1_sq.symm⟩

/-! Quadratic characters, by Euler's criterion evaluated in the kernel. -/

theorem nonsquare_of_powMod (n : ℕ) (h : powMod n (p / 2) p = p - 1) : ¬ IsSquare (n : Fp) := by
  have hp : p / 2 < 2 ^ 520 := by decide +kernel
  have hc := powMod_cast n (p / 2) p hp
  rw [h] at hc
  have hm1 : ((p - 1 : ℕ) : Fp) = -1 := by
    rw [Nat.cast_sub (by norm_num [p])]; simp
  rw [hm1] at hc
  intro hsq
  have hn0 : (n : Fp) ≠ 0 := by
    intro e
    rw [e, zero_pow (by norm_num [p])] at hc
    simp at hc
  have := (ZMod.euler_criterion p hn0).1 hsq
  rw [← hc] at this
  have h2 : (2 : Fp) = 0 := by linear_combination -this
  exact two_ne_zero' h2

theorem d_nonsquare : ¬ IsSquare d := by
  rw [d_eq]; exact nonsquare_of_powMod _ (by decide +kernel)

theorem two_nonsquare : ¬ IsSquare (2 : Fp) := by
  have := nonsquare_of_powMod 2 (by decide +kernel); exact_mod_cast this

theorem sqrtM1_nonsquare : ¬ IsSquare sqrtM1 := nonsquare_of_powMod _ (by decide +kernel)

theorem d_ne_zero : d ≠ 0 := fun h => d_nonsquare (h ▸ IsSquare.zero)

/-- Product of two nonsquares is a square (for a prime field). -/
theorem isSquare_mul_of_nonsquares {a b : Fp} (ha : ¬ IsSquare a) (hb : ¬ IsSquare b) :
    IsSquare (a * b) := by
  have ha0 : a ≠ 0 := fun h => ha (h ▸ IsSquare.zero)
  have hb0 : b ≠ 0 := fun h => hb (h ▸ IsSquare.zero)
  have h1 : a ^ (p / 2) = -1 := by
    rcases ZMod.pow_div_two_eq_neg_one_or_one p ha0 with h | h
    · exact absurd ((ZMod.euler_criterion p ha0).2 h) ha
    · exact h
  have h2 : b ^ (p / 2) = -1 := by
    rcases ZMod.pow_div_two_eq_neg_one_or_one p hb0 with h | h
    · exact absurd ((ZMod.euler_criterion p hb0).2 h) hb
    · exact h
  rw [ZMod.euler_criterion p (mul_ne_zero ha0 hb0), mul_pow, h1, h2]
  norm_num

/-- Square times nonsquare is a nonsquare. -/
theorem nonsquare_mul_of_square {a b : Fp} (ha : IsSquare a) (ha0 : a ≠ 0) (hb : ¬ IsSquare b) :
    ¬ IsSquare (a * b) := by
  rintro ⟨c, hc⟩
  obtain ⟨r, hr⟩ := ha
  apply hb
  refine ⟨c / r, ?_⟩
  have hr0 : r ≠ 0 := by rintro rfl; simp at hr; exact ha0 hr
  field_simp
  rw [hr] at hc
  linear_combination hc

/-! Signs. -/

theorem val_neg_of_ne_zero {x : Fp} (h : x ≠ 0) : (-x).val = p - x.val := by
  rw [ZMod.neg_val, if_neg h]

theorem isNeg_neg {x : Fp} (h : x ≠ 0) : IsNeg (-x) ↔ ¬ IsNeg x := by
  unfold IsNeg
  rw [val_neg_of_ne_zero h]
  have := ZMod.val_lt x
  have hp : p % 2 = 1 := by norm_num [p]
  omega

theorem not_isNeg_zero : ¬ IsNeg 0 := by simp [IsNeg]

theorem isNeg_one : IsNeg 1 := by
  unfold IsNeg
  rw [ZMod.val_one]

/-- Absolute value: the nonnegative one of `x`, `-x`. -/
def absFp (x : Fp) : Fp := if IsNeg x then -x else x

theorem absFp_not_neg (x : Fp) : ¬ IsNeg (absFp x) := by
  unfold absFp
  split
  · rename_i h
    have h0 : x ≠ 0 := by rintro rfl; exact not_isNeg_zero h
    rw [isNeg_neg h0]; simpa
  · assumption

theorem absFp_sq (x : Fp) : absFp x * absFp x = x * x := by
  unfold absFp; split <;> ring

/-- A nonnegative element is determined by its square. -/
theorem eq_of_sq_eq {x y : Fp} (hx : ¬ IsNeg x) (hy : ¬ IsNeg y) (h : x * x = y * y) : x = y := by
  rcases mul_self_eq_mul_self_iff.1 h with h | h
  · exact h
  · by_cases h0 : y = 0
    · rw [h, h0, neg_zero]
    · exfalso; apply hx; rw [h, isNeg_neg h0]; exact hy

/-- A square root of `1/(-1-d)`. -/
def eC : Fp := ((3426737609748780790789678635598812321241395039892825098523479107644843802371 : ℕ) : Fp)

theorem eC_sq : eC * eC * (-1 - d) = 1 := by
  have h : ((3426737609748780790789678635598812321241395039892825098523479107644843802371 *
    3426737609748780790789678635598812321241395039892825098523479107644843802371 * (1 + dNat) + 1 : ℕ) : Fp) =
    ((0 : ℕ) : Fp) := natCast_eq_of_mod (by norm_num [p, dNat])
  rw [d_eq, eC]
  push_cast at h ⊢
  linear_combination -h

end Ristretto
