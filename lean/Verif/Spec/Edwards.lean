import Verif.Spec.Field

/-!
# The Edwards25519 group (specification)

The points of the curve `-x^2 + y^2 = 1 + d x^2 y^2` over GF(2^255-19) with the Edwards addition
law are a commutative group.
-/

namespace Ristretto
set_option autoImplicit false

/-- The curve equation. -/
def OnCurve (x y : Fp) : Prop := -x ^ 2 + y ^ 2 = 1 + d * x ^ 2 * y ^ 2

/-- A point of Edwards25519. -/
@[ext] structure EPoint where
  x : Fp
  y : Fp
  on : OnCurve x y

namespace EPoint

/-- The addition law has no exceptional points: `-1` is a square and `d` is not. -/
theorem k_ne {x1 y1 x2 y2 : Fp} (h1 : OnCurve x1 y1) (h2 : OnCurve x2 y2) {ε : Fp}
    (hε : ε * ε = 1) : d * x1 * x2 * y1 * y2 ≠ ε := by
  intro hk
  unfold OnCurve at h1 h2
  have hi := sqrtM1_sq
  have hε0 : ε ≠ 0 := by rintro rfl; simp at hε
  have hx1 : x1 ≠ 0 := by rintro rfl; simp at hk; exact hε0 hk.symm
  have hy1 : y1 ≠ 0 := by rintro rfl; simp at hk; exact hε0 hk.symm
  have hx2 : x2 ≠ 0 := by rintro rfl; simp at hk; exact hε0 hk.symm
  have key : ∀ σ : Fp, σ * σ = 1 → (sqrtM1 * x1 + σ * ε * y1) ^ 2 =
      d * (x1 * y1) ^ 2 * (sqrtM1 * x2 + σ * y2) ^ 2 := by
    intro σ hσ
    have hk2 : d * x1 ^ 2 * y1 ^ 2 * (d * x2 ^ 2 * y2 ^ 2) = 1 := by
      rw [← hε, ← hk]; ring
    linear_combination (x1 ^ 2 - d * x1 ^ 2 * y1 ^ 2 * x2 ^ 2) * hi + h1
      + (-d * x1 ^ 2 * y1 ^ 2) * h2 - hk2
      + (2 * sqrtM1 * x1 * y1 * σ) * (-hk)
      + (y1 ^ 2 * ε * ε - d * x1 ^ 2 * y1 ^ 2 * y2 ^ 2) * hσ + y1 ^ 2 * hε
  have step : ∀ σ : Fp, σ * σ = 1 → sqrtM1 * x2 + σ * y2 = 0 := by
    intro σ hσ
    by_contra hne
    apply d_nonsquare
    refine ⟨(sqrtM1 * x1 + σ * ε * y1) / (x1 * y1 * (sqrtM1 * x2 + σ * y2)), ?_⟩
    have := key σ hσ
    field_simp
    linear_combination -this
  have s1 := step 1 (by ring)
  have s2 := step (-1) (by ring)
  have : 2 * (sqrtM1 * x2) = 0 := by linear_combination s1 + s2
  rcases mul_eq_zero.1 this with h | h
  · exact two_ne_zero' h
  · rcases mul_eq_zero.1 h with h | h
    · exact sqrtM1_ne_zero h
    · exact hx2 h

theorem one_add_k_ne {x1 y1 x2 y2 : Fp} (h1 : OnCurve x1 y1) (h2 : OnCurve x2 y2) :
    1 + d * x1 * x2 * y1 * y2 ≠ 0 := by
  intro h
  exact k_ne h1 h2 (ε := -1) (by ring) (by linear_combination h)

theorem one_sub_k_ne {x1 y1 x2 y2 : Fp} (h1 : OnCurve x1 y1) (h2 : OnCurve x2 y2) :
    1 - d * x1 * x2 * y1 * y2 ≠ 0 := by
  intro h
  exact k_ne h1 h2 (ε := 1) (by ring) (by linear_combination -h)

/-- x-coordinate of a sum. -/
def addX (x1 y1 x2 y2 : Fp) : Fp := (x1 * y2 + y1 * x2) / (1 + d * x1 * x2 * y1 * y2)

/-- y-coordinate of a sum. -/
def addY (x1 y1 x2 y2 : Fp) : Fp := (y1 * y2 + x1 * x2) / (1 - d * x1 * x2 * y1 * y2)

theorem addX_mul {x1 y1 x2 y2 : Fp} (h1 : OnCurve x1 y1) (h2 : OnCurve x2 y2) :
    addX x1 y1 x2 y2 * (1 + d * x1 * x2 * y1 * y2) = x1 * y2 + y1 * x2 :=
  div_mul_cancel₀ _ (one_add_k_ne h1 h2)

theorem addY_mul {x1 y1 x2 y2 : Fp} (h1 : OnCurve x1 y1) (h2 : OnCurve x2 y2) :
    addY x1 y1 x2 y2 * (1 - d * x1 * x2 * y1 * y2) = y1 * y2 + x1 * x2 :=
  div_mul_cancel₀ _ (one_sub_k_ne h1 h2)

theorem add_on {x1 y1 x2 y2 : Fp} (h1 : OnCurve x1 y1) (h2 : OnCurve x2 y2) :
    OnCurve (addX x1 y1 x2 y2) (addY x1 y1 x2 y2) := by
  have hp := one_add_k_ne h1 h2
  have hm := one_sub_k_ne h1 h2
  have hX := addX_mul h1 h2
  have hY := addY_mul h1 h2
  unfold OnCurve at *
  generalize addX x1 y1 x2 y2 = X at *
  generalize addY x1 y1 x2 y2 = Y at *
  generalize d = d at *
  have h : (1 + d * x1 * x2 * y1 * y2) ^ 2 * (1 - d * x1 * x2 * y1 * y2) ^ 2 *
      (-X ^ 2 + Y ^ 2 - (1 + d * X ^ 2 * Y ^ 2)) = 0 := by
    have e : (1 + d * x1 * x2 * y1 * y2) ^ 2 * (1 - d * x1 * x2 * y1 * y2) ^ 2 *
      (-X ^ 2 + Y ^ 2 - (1 + d * X ^ 2 * Y ^ 2)) =
      -(X * (1 + d * x1 * x2 * y1 * y2)) ^ 2 * (1 - d * x1 * x2 * y1 * y2) ^ 2 +
      (Y * (1 - d * x1 * x2 * y1 * y2)) ^ 2 * (1 + d * x1 * x2 * y1 * y2) ^ 2 -
      (1 + d * x1 * x2 * y1 * y2) ^ 2 * (1 - d * x1 * x2 * y1 * y2) ^ 2 -
      d * (X * (1 + d * x1 * x2 * y1 * y2)) ^ 2 * (Y * (1 - d * x1 * x2 * y1 * y2)) ^ 2 := by ring
    rw [e, hX, hY]
    clear hX hY e hp hm
    linear_combination ((1)*y2^4 + (-4)*x2^2*y2^2 + (-2)*x2^2*y2^2*d + (2)*x2^2*y2^4 + (1)*x2^4 + (-2)*x2^4*y2^2 +
      (-2)*x2^4*y2^4*d + (-1)*x2^4*y2^4*d^2 + (-1)*y1^2*x2^2*y2^4*d + (1)*y1^2*x2^4*y2^2*d +
      (1)*y1^2*x2^4*y2^4*d^2 + (1)*x1^2*x2^2*y2^4*d + (-1)*x1^2*x2^4*y2^2*d + (-1)*x1^2*x2^4*y2^4*d^2
      + (1)*x1^2*y1^2*x2^4*y2^4*d^3) * h1 + ((1) + (1)*y2^2 + (-1)*x2^2 + (2)*x2^2*y2^2 +
      (1)*x2^2*y2^2*d + (-1)*y1^2*y2^2 + (1)*y1^2*x2^2 + (-2)*y1^2*x2^2*y2^2 + (-2)*y1^2*x2^2*y2^2*d +
      (1)*y1^4*x2^2*y2^2*d + (1)*x1^2*y2^2 + (-1)*x1^2*x2^2 + (2)*x1^2*x2^2*y2^2 +
      (2)*x1^2*x2^2*y2^2*d + (1)*x1^4*x2^2*y2^2*d) * h2
  have h0 : (1 + d * x1 * x2 * y1 * y2) ^ 2 * (1 - d * x1 * x2 * y1 * y2) ^ 2 ≠ 0 :=
    mul_ne_zero (pow_ne_zero _ hp) (pow_ne_zero _ hm)
  exact sub_eq_zero.1 ((mul_eq_zero.1 h).resolve_left h0)

instance : Add EPoint := ⟨fun P Q => ⟨addX P.x P.y Q.x Q.y, addY P.x P.y Q.x Q.y, add_on P.on Q.on⟩⟩
instance : Zero EPoint := ⟨⟨0, 1, by unfold OnCurve; ring⟩⟩
instance : Neg EPoint := ⟨fun P => ⟨-P.x, P.y, by have := P.on; unfold OnCurve at *; linear_combination this⟩⟩

theorem add_x (P Q : EPoint) : (P + Q).x = addX P.x P.y Q.x Q.y := rfl
theorem add_y (P Q : EPoint) : (P + Q).y = addY P.x P.y Q.x Q.y := rfl
@[simp] theorem zero_x : (0 : EPoint).x = 0 := rfl
@[simp] theorem zero_y : (0 : EPoint).y = 1 := rfl
@[simp] theorem neg_x (P : EPoint) : (-P).x = -P.x := rfl
@[simp] theorem neg_y (P : EPoint) : (-P).y = P.y := rfl

theorem assocX {x1 y1 x2 y2 x3 y3 : Fp} (h1 : OnCurve x1 y1) (h2 : OnCurve x2 y2)
    (h3 : OnCurve x3 y3) : addX (addX x1 y1 x2 y2) (addY x1 y1 x2 y2) x3 y3 =
      addX x1 y1 (addX x2 y2 x3 y3) (addY x2 y2 x3 y3) := by
  have hl := one_add_k_ne (add_on h1 h2) h3
  have hr := one_add_k_ne h1 (add_on h2 h3)
  have p12 := one_add_k_ne h1 h2
  have m12 := one_sub_k_ne h1 h2
  have p23 := one_add_k_ne h2 h3
  have m23 := one_sub_k_ne h2 h3
  have hX := addX_mul h1 h2
  have hY := addY_mul h1 h2
  have hX' := addX_mul h2 h3
  have hY' := addY_mul h2 h3
  generalize addX x1 y1 x2 y2 = X at *
  generalize addY x1 y1 x2 y2 = Y at *
  generalize addX x2 y2 x3 y3 = X' at *
  generalize addY x2 y2 x3 y3 = Y' at *
  unfold OnCurve at h1 h2 h3
  unfold addX
  rw [div_eq_div_iff hl hr]
  clear hl hr
  generalize d = d at *
  have h : (1 + d * x1 * x2 * y1 * y2) * (1 - d * x1 * x2 * y1 * y2) *
      ((1 + d * x2 * x3 * y2 * y3) * (1 - d * x2 * x3 * y2 * y3)) *
      ((X * y3 + Y * x3) * (1 + d * x1 * X' * y1 * Y') - (x1 * Y' + y1 * X') * (1 + d * X * x3 * Y * y3)) = 0 := by
    have e : (1 + d * x1 * x2 * y1 * y2) * (1 - d * x1 * x2 * y1 * y2) *
      ((1 + d * x2 * x3 * y2 * y3) * (1 - d * x2 * x3 * y2 * y3)) *
      ((X * y3 + Y * x3) * (1 + d * x1 * X' * y1 * Y') - (x1 * Y' + y1 * X') * (1 + d * X * x3 * Y * y3)) =
      ((X * (1 + d * x1 * x2 * y1 * y2)) * (1 - d * x1 * x2 * y1 * y2) * y3 + (Y * (1 - d * x1 * x2 * y1 * y2)) * (1 + d * x1 * x2 * y1 * y2) * x3) * ((1 + d * x2 * x3 * y2 * y3) * (1 - d * x2 * x3 * y2 * y3) + d * x1 * y1 * (X' * (1 + d * x2 * x3 * y2 * y3)) * (Y' * (1 - d * x2 * x3 * y2 * y3))) -
      (x1 * (Y' * (1 - d * x2 * x3 * y2 * y3)) * (1 + d * x2 * x3 * y2 * y3) + y1 * (X' * (1 + d * x2 * x3 * y2 * y3)) * (1 - d * x2 * x3 * y2 * y3)) * ((1 + d * x1 * x2 * y1 * y2) * (1 - d * x1 * x2 * y1 * y2) + d * x3 * y3 * (X * (1 + d * x1 * x2 * y1 * y2)) * (Y * (1 - d * x1 * x2 * y1 * y2))) := by ring
    rw [e, hX, hY, hX', hY']
    clear hX hY hX' hY' e p12 m12 p23 m23
    linear_combination ((-1)*y1*x2*y2^4*x3^2*y3*d + (-1)*y1*x2^2*y2^3*x3*d + (-1)*y1*x2^2*y2^3*x3^3*d +
      (-1)*y1*x2^3*y2^2*y3*d + (1)*y1*x2^3*y2^2*y3^3*d + (1)*y1*x2^3*y2^4*x3^2*y3*d^2 +
      (1)*y1*x2^4*y2*x3*y3^2*d + (1)*y1*x2^4*y2^3*x3*y3^2*d^2 + (1)*x1*x2*y2^4*x3*y3^2*d +
      (-1)*x1*x2^2*y2^3*y3*d + (1)*x1*x2^2*y2^3*y3^3*d + (-1)*x1*x2^3*y2^2*x3*d +
      (-1)*x1*x2^3*y2^2*x3^3*d + (-1)*x1*x2^3*y2^4*x3*y3^2*d^2 + (-1)*x1*x2^4*y2*x3^2*y3*d +
      (-1)*x1*x2^4*y2^3*x3^2*y3*d^2) * h1 + ((1)*y1*y2*x3 + (-1)*y1*y2*x3*y3^2 + (1)*y1*y2*x3^3 +
      (1)*y1*y2*x3^3*y3^2*d + (1)*y1*x2*y3 + (-1)*y1*x2*y3^3 + (1)*y1*x2*x3^2*y3 +
      (1)*y1*x2*x3^2*y3^3*d + (-1)*y1*x2*y2^2*x3^2*y3*d + (-1)*y1*x2^2*y2*x3*y3^2*d + (-1)*y1^3*y2*x3
      + (1)*y1^3*y2*x3*y3^2 + (-1)*y1^3*y2*x3^3 + (-1)*y1^3*y2*x3^3*y3^2*d + (-1)*y1^3*x2*y3 +
      (1)*y1^3*x2*y3^3 + (-1)*y1^3*x2*x3^2*y3 + (-1)*y1^3*x2*x3^2*y3^3*d + (1)*y1^3*x2*y2^2*x3^2*y3*d
      + (1)*y1^3*x2^2*y2*x3*y3^2*d + (1)*x1*y2*y3 + (-1)*x1*y2*y3^3 + (1)*x1*y2*x3^2*y3 +
      (1)*x1*y2*x3^2*y3^3*d + (1)*x1*x2*x3 + (-1)*x1*x2*x3*y3^2 + (1)*x1*x2*x3^3 +
      (1)*x1*x2*x3^3*y3^2*d + (1)*x1*x2*y2^2*x3*y3^2*d + (1)*x1*x2^2*y2*x3^2*y3*d + (-1)*x1*y1^2*y2*y3
      + (1)*x1*y1^2*y2*y3^3 + (-1)*x1*y1^2*y2*x3^2*y3 + (-1)*x1*y1^2*y2*x3^2*y3^3*d +
      (-1)*x1*y1^2*x2*x3 + (1)*x1*y1^2*x2*x3*y3^2 + (-1)*x1*y1^2*x2*x3^3 + (-1)*x1*y1^2*x2*x3^3*y3^2*d
      + (-1)*x1*y1^2*x2*y2^2*x3*y3^2*d + (1)*x1*y1^2*x2*y2^2*x3^3*y3^2*d^2 +
      (-1)*x1*y1^2*x2^2*y2*x3^2*y3*d + (-1)*x1*y1^2*x2^2*y2*x3^2*y3^3*d^2 + (1)*x1^2*y1*y2*x3 +
      (-1)*x1^2*y1*y2*x3*y3^2 + (1)*x1^2*y1*y2*x3^3 + (1)*x1^2*y1*y2*x3^3*y3^2*d + (1)*x1^2*y1*x2*y3 +
      (-1)*x1^2*y1*x2*y3^3 + (1)*x1^2*y1*x2*x3^2*y3 + (1)*x1^2*y1*x2*x3^2*y3^3*d +
      (-1)*x1^2*y1*x2*y2^2*x3^2*y3*d + (-1)*x1^2*y1*x2*y2^2*x3^2*y3^3*d^2 +
      (-1)*x1^2*y1*x2^2*y2*x3*y3^2*d + (1)*x1^2*y1*x2^2*y2*x3^3*y3^2*d^2 + (1)*x1^3*y2*y3 +
      (-1)*x1^3*y2*y3^3 + (1)*x1^3*y2*x3^2*y3 + (1)*x1^3*y2*x3^2*y3^3*d + (1)*x1^3*x2*x3 +
      (-1)*x1^3*x2*x3*y3^2 + (1)*x1^3*x2*x3^3 + (1)*x1^3*x2*x3^3*y3^2*d + (1)*x1^3*x2*y2^2*x3*y3^2*d +
      (1)*x1^3*x2^2*y2*x3^2*y3*d) * h2 + ((-1)*y1*y2*x3 + (1)*y1*y2^3*x3 + (-1)*y1*x2*y3 +
      (1)*y1*x2*y2^2*y3 + (-1)*y1*x2^2*y2*x3 + (-1)*y1*x2^3*y3 + (1)*y1^3*y2*x3 + (-1)*y1^3*y2^3*x3 +
      (1)*y1^3*x2*y3 + (-1)*y1^3*x2*y2^2*y3 + (1)*y1^3*x2^2*y2*x3 + (1)*y1^3*x2^3*y3 + (-1)*x1*y2*y3 +
      (1)*x1*y2^3*y3 + (-1)*x1*x2*x3 + (1)*x1*x2*y2^2*x3 + (-1)*x1*x2^2*y2*y3 + (-1)*x1*x2^3*x3 +
      (1)*x1*y1^2*y2*y3 + (-1)*x1*y1^2*y2^3*y3 + (1)*x1*y1^2*x2*x3 + (-1)*x1*y1^2*x2*y2^2*x3 +
      (-1)*x1*y1^2*x2*y2^2*x3*d + (1)*x1*y1^2*x2^2*y2*y3 + (1)*x1*y1^2*x2^2*y2*y3*d +
      (1)*x1*y1^2*x2^3*x3 + (-1)*x1^2*y1*y2*x3 + (1)*x1^2*y1*y2^3*x3 + (-1)*x1^2*y1*x2*y3 +
      (1)*x1^2*y1*x2*y2^2*y3 + (1)*x1^2*y1*x2*y2^2*y3*d + (-1)*x1^2*y1*x2^2*y2*x3 +
      (-1)*x1^2*y1*x2^2*y2*x3*d + (-1)*x1^2*y1*x2^3*y3 + (-1)*x1^3*y2*y3 + (1)*x1^3*y2^3*y3 +
      (-1)*x1^3*x2*x3 + (1)*x1^3*x2*y2^2*x3 + (-1)*x1^3*x2^2*y2*y3 + (-1)*x1^3*x2^3*x3) * h3
  have h0 := mul_ne_zero (mul_ne_zero p12 m12) (mul_ne_zero p23 m23)
  exact sub_eq_zero.1 ((mul_eq_zero.1 h).resolve_left h0)

theorem assocY {x1 y1 x2 y2 x3 y3 : Fp} (h1 : OnCurve x1 y1) (h2 : OnCurve x2 y2)
    (h3 : OnCurve x3 y3) : addY (addX x1 y1 x2 y2) (addY x1 y1 x2 y2) x3 y3 =
      addY x1 y1 (addX x2 y2 x3 y3) (addY x2 y2 x3 y3) := by
  have hl := one_sub_k_ne (add_on h1 h2) h3
  have hr := one_sub_k_ne h1 (add_on h2 h3)
  have p12 := one_add_k_ne h1 h2
  have m12 := one_sub_k_ne h1 h2
  have p23 := one_add_k_ne h2 h3
  have m23 := one_sub_k_ne h2 h3
  have hX := addX_mul h1 h2
  have hY := addY_mul h1 h2
  have hX' := addX_mul h2 h3
  have hY' := addY_mul h2 h3
  generalize addX x1 y1 x2 y2 = X at *
  generalize addY x1 y1 x2 y2 = Y at *
  generalize addX x2 y2 x3 y3 = X' at *
  generalize addY x2 y2 x3 y3 = Y' at *
  unfold OnCurve at h1 h2 h3
  unfold addY
  rw [div_eq_div_iff hl hr]
  clear hl hr
  generalize d = d at *
  have h : (1 + d * x1 * x2 * y1 * y2) * (1 - d * x1 * x2 * y1 * y2) *
      ((1 + d * x2 * x3 * y2 * y3) * (1 - d * x2 * x3 * y2 * y3)) *
      ((Y * y3 + X * x3) * (1 - d * x1 * X' * y1 * Y') - (y1 * Y' + x1 * X') * (1 - d * X * x3 * Y * y3)) = 0 := by
    have e : (1 + d * x1 * x2 * y1 * y2) * (1 - d * x1 * x2 * y1 * y2) *
      ((1 + d * x2 * x3 * y2 * y3) * (1 - d * x2 * x3 * y2 * y3)) *
      ((Y * y3 + X * x3) * (1 - d * x1 * X' * y1 * Y') - (y1 * Y' + x1 * X') * (1 - d * X * x3 * Y * y3)) =
      ((Y * (1 - d * x1 * x2 * y1 * y2)) * (1 + d * x1 * x2 * y1 * y2) * y3 + (X * (1 + d * x1 * x2 * y1 * y2)) * (1 - d * x1 * x2 * y1 * y2) * x3) * ((1 + d * x2 * x3 * y2 * y3) * (1 - d * x2 * x3 * y2 * y3) - d * x1 * y1 * (X' * (1 + d * x2 * x3 * y2 * y3)) * (Y' * (1 - d * x2 * x3 * y2 * y3))) -
      (y1 * (Y' * (1 - d * x2 * x3 * y2 * y3)) * (1 + d * x2 * x3 * y2 * y3) + x1 * (X' * (1 + d * x2 * x3 * y2 * y3)) * (1 - d * x2 * x3 * y2 * y3)) * ((1 + d * x1 * x2 * y1 * y2) * (1 - d * x1 * x2 * y1 * y2) - d * x3 * y3 * (X * (1 + d * x1 * x2 * y1 * y2)) * (Y * (1 - d * x1 * x2 * y1 * y2))) := by ring
    rw [e, hX, hY, hX', hY']
    clear hX hY hX' hY' e p12 m12 p23 m23
    linear_combination ((1)*y1*x2*y2^4*x3*y3^2*d + (-1)*y1*x2^2*y2^3*y3*d + (1)*y1*x2^2*y2^3*y3^3*d +
      (-1)*y1*x2^3*y2^2*x3*d + (-1)*y1*x2^3*y2^2*x3^3*d + (-1)*y1*x2^3*y2^4*x3*y3^2*d^2 +
      (-1)*y1*x2^4*y2*x3^2*y3*d + (-1)*y1*x2^4*y2^3*x3^2*y3*d^2 + (-1)*x1*x2*y2^4*x3^2*y3*d +
      (-1)*x1*x2^2*y2^3*x3*d + (-1)*x1*x2^2*y2^3*x3^3*d + (-1)*x1*x2^3*y2^2*y3*d +
      (1)*x1*x2^3*y2^2*y3^3*d + (1)*x1*x2^3*y2^4*x3^2*y3*d^2 + (1)*x1*x2^4*y2*x3*y3^2*d +
      (1)*x1*x2^4*y2^3*x3*y3^2*d^2) * h1 + ((1)*y1*y2*y3 + (-1)*y1*y2*y3^3 + (1)*y1*y2*x3^2*y3 +
      (1)*y1*y2*x3^2*y3^3*d + (1)*y1*x2*x3 + (-1)*y1*x2*x3*y3^2 + (1)*y1*x2*x3^3 +
      (1)*y1*x2*x3^3*y3^2*d + (1)*y1*x2*y2^2*x3*y3^2*d + (1)*y1*x2^2*y2*x3^2*y3*d + (-1)*y1^3*y2*y3 +
      (1)*y1^3*y2*y3^3 + (-1)*y1^3*y2*x3^2*y3 + (-1)*y1^3*y2*x3^2*y3^3*d + (-1)*y1^3*x2*x3 +
      (1)*y1^3*x2*x3*y3^2 + (-1)*y1^3*x2*x3^3 + (-1)*y1^3*x2*x3^3*y3^2*d + (-1)*y1^3*x2*y2^2*x3*y3^2*d
      + (-1)*y1^3*x2^2*y2*x3^2*y3*d + (1)*x1*y2*x3 + (-1)*x1*y2*x3*y3^2 + (1)*x1*y2*x3^3 +
      (1)*x1*y2*x3^3*y3^2*d + (1)*x1*x2*y3 + (-1)*x1*x2*y3^3 + (1)*x1*x2*x3^2*y3 +
      (1)*x1*x2*x3^2*y3^3*d + (-1)*x1*x2*y2^2*x3^2*y3*d + (-1)*x1*x2^2*y2*x3*y3^2*d +
      (-1)*x1*y1^2*y2*x3 + (1)*x1*y1^2*y2*x3*y3^2 + (-1)*x1*y1^2*y2*x3^3 + (-1)*x1*y1^2*y2*x3^3*y3^2*d
      + (-1)*x1*y1^2*x2*y3 + (1)*x1*y1^2*x2*y3^3 + (-1)*x1*y1^2*x2*x3^2*y3 +
      (-1)*x1*y1^2*x2*x3^2*y3^3*d + (1)*x1*y1^2*x2*y2^2*x3^2*y3*d + (1)*x1*y1^2*x2*y2^2*x3^2*y3^3*d^2
      + (1)*x1*y1^2*x2^2*y2*x3*y3^2*d + (-1)*x1*y1^2*x2^2*y2*x3^3*y3^2*d^2 + (1)*x1^2*y1*y2*y3 +
      (-1)*x1^2*y1*y2*y3^3 + (1)*x1^2*y1*y2*x3^2*y3 + (1)*x1^2*y1*y2*x3^2*y3^3*d + (1)*x1^2*y1*x2*x3 +
      (-1)*x1^2*y1*x2*x3*y3^2 + (1)*x1^2*y1*x2*x3^3 + (1)*x1^2*y1*x2*x3^3*y3^2*d +
      (1)*x1^2*y1*x2*y2^2*x3*y3^2*d + (-1)*x1^2*y1*x2*y2^2*x3^3*y3^2*d^2 +
      (1)*x1^2*y1*x2^2*y2*x3^2*y3*d + (1)*x1^2*y1*x2^2*y2*x3^2*y3^3*d^2 + (1)*x1^3*y2*x3 +
      (-1)*x1^3*y2*x3*y3^2 + (1)*x1^3*y2*x3^3 + (1)*x1^3*y2*x3^3*y3^2*d + (1)*x1^3*x2*y3 +
      (-1)*x1^3*x2*y3^3 + (1)*x1^3*x2*x3^2*y3 + (1)*x1^3*x2*x3^2*y3^3*d + (-1)*x1^3*x2*y2^2*x3^2*y3*d
      + (-1)*x1^3*x2^2*y2*x3*y3^2*d) * h2 + ((-1)*y1*y2*y3 + (1)*y1*y2^3*y3 + (-1)*y1*x2*x3 +
      (1)*y1*x2*y2^2*x3 + (-1)*y1*x2^2*y2*y3 + (-1)*y1*x2^3*x3 + (1)*y1^3*y2*y3 + (-1)*y1^3*y2^3*y3 +
      (1)*y1^3*x2*x3 + (-1)*y1^3*x2*y2^2*x3 + (1)*y1^3*x2^2*y2*y3 + (1)*y1^3*x2^3*x3 + (-1)*x1*y2*x3 +
      (1)*x1*y2^3*x3 + (-1)*x1*x2*y3 + (1)*x1*x2*y2^2*y3 + (-1)*x1*x2^2*y2*x3 + (-1)*x1*x2^3*y3 +
      (1)*x1*y1^2*y2*x3 + (-1)*x1*y1^2*y2^3*x3 + (1)*x1*y1^2*x2*y3 + (-1)*x1*y1^2*x2*y2^2*y3 +
      (-1)*x1*y1^2*x2*y2^2*y3*d + (1)*x1*y1^2*x2^2*y2*x3 + (1)*x1*y1^2*x2^2*y2*x3*d +
      (1)*x1*y1^2*x2^3*y3 + (-1)*x1^2*y1*y2*y3 + (1)*x1^2*y1*y2^3*y3 + (-1)*x1^2*y1*x2*x3 +
      (1)*x1^2*y1*x2*y2^2*x3 + (1)*x1^2*y1*x2*y2^2*x3*d + (-1)*x1^2*y1*x2^2*y2*y3 +
      (-1)*x1^2*y1*x2^2*y2*y3*d + (-1)*x1^2*y1*x2^3*x3 + (-1)*x1^3*y2*x3 + (1)*x1^3*y2^3*x3 +
      (-1)*x1^3*x2*y3 + (1)*x1^3*x2*y2^2*y3 + (-1)*x1^3*x2^2*y2*x3 + (-1)*x1^3*x2^3*y3) * h3
  have h0 := mul_ne_zero (mul_ne_zero p12 m12) (mul_ne_zero p23 m23)
  exact sub_eq_zero.1 ((mul_eq_zero.1 h).resolve_left h0)

theorem addX_comm (x1 y1 x2 y2 : Fp) : addX x1 y1 x2 y2 = addX x2 y2 x1 y1 := by
  unfold addX; congr 1 <;> ring

theorem addY_comm (x1 y1 x2 y2 : Fp) : addY x1 y1 x2 y2 = addY x2 y2 x1 y1 := by
  unfold addY; congr 1 <;> ring

instance : AddCommGroup EPoint where
  add_assoc P Q R := EPoint.ext (assocX P.on Q.on R.on) (assocY P.on Q.on R.on)
  add_comm P Q := EPoint.ext (addX_comm _ _ _ _) (addY_comm _ _ _ _)
  zero_add P := by
    apply EPoint.ext
    · rw [add_x]; simp [addX]
    · rw [add_y]; simp [addY]
  add_zero P := by
    apply EPoint.ext
    · rw [add_x]; simp [addX]
    · rw [add_y]; simp [addY]
  neg_add_cancel P := by
    have h := P.on
    have hm := one_sub_k_ne (-P).on P.on
    apply EPoint.ext
    · rw [add_x]; simp only [addX, neg_x, neg_y, zero_x]; rw [div_eq_zero_iff]; left; ring
    · rw [add_y, addY, zero_y, div_eq_one_iff_eq hm]
      unfold OnCurve at h
      simp only [neg_x, neg_y]
      linear_combination h
  nsmul := nsmulRec
  zsmul := zsmulRec

end EPoint
end Ristretto
