import Verif.Spec.Elligator
import Verif.Proofs.RistrettoDecode

/-!
# The Elligator map is total, unique, and lands in the even points
-/

namespace Ristretto.Proofs
set_option autoImplicit false

theorem d_sub_one_ne_zero : d - 1 ≠ 0 := by
  intro h
  have : d = 1 := by linear_combination h
  exact d_nonsquare (this ▸ ⟨1, by ring⟩)

theorem neg_d_nonsquare : ¬ IsSquare (-d) := by
  intro h
  apply d_nonsquare
  obtain ⟨a, ha⟩ := h
  exact ⟨sqrtM1 * a, by linear_combination -ha - a * a * sqrtM1_sq⟩

theorem onePlusD_isSquare : IsSquare (1 + d) :=
  ⟨sqrtM1 / eC, by
    rw [div_mul_div_comm, eq_div_iff (mul_ne_zero eC_ne_zero eC_ne_zero)]
    linear_combination -sqrtM1_sq - eC_sq⟩

theorem onePlusD_ne : 1 + d ≠ 0 := by rw [add_comm]; exact dp1_ne_zero

theorem jac_s_ne {s t : Fp} (h : OnJac s t) : 1 + s * s ≠ 0 := by
  intro h0
  unfold OnJac at h
  have hs : s * s = -1 := by linear_combination h0
  rw [hs] at h
  have h4 : (1 + d) * (t * t) = d * 4 := by rw [h]; ring
  apply d_nonsquare
  obtain ⟨w, hw⟩ := onePlusD_isSquare
  refine ⟨w * t / 2, ?_⟩
  rw [div_mul_div_comm, eq_div_iff (mul_ne_zero two_ne_zero' two_ne_zero')]
  linear_combination -h4 + (t * t) * hw

theorem jac_t_ne {s t : Fp} (h : OnJac s t) : t ≠ 0 := by
  intro h0
  have hs := jac_s_ne h
  unfold OnJac at h
  rw [h0] at h
  apply neg_d_nonsquare
  by_cases h1 : 1 - s * s = 0
  · rw [h1] at h
    exfalso; exact hs (pow_eq_zero_iff two_ne_zero |>.1 (by linear_combination -h))
  · refine ⟨(1 + s * s) / (1 - s * s), ?_⟩
    rw [div_mul_div_comm, eq_div_iff (mul_ne_zero h1 h1)]
    linear_combination h

theorem ofJac_exists {s t : Fp} (h : OnJac s t) : ∃ P, OfJac s t P := by
  have hs := jac_s_ne h
  have ht := jac_t_ne h
  have hx : ∃ x : Fp, x * t = 2 * s * eC := ⟨2 * s * eC / t, div_mul_cancel₀ _ ht⟩
  have hy : ∃ y : Fp, y * (1 + s * s) = 1 - s * s := ⟨_, div_mul_cancel₀ _ hs⟩
  obtain ⟨x, hx⟩ := hx
  obtain ⟨y, hy⟩ := hy
  refine ⟨⟨x, y, ?_⟩, hx, hy⟩
  unfold OnCurve
  unfold OnJac at h
  have e := eC_sq
  -- multiply by t² (1+s²)²
  have hx2 : x * x * (t * t) = 4 * (s * s) * (eC * eC) := by
    linear_combination (x * t + 2 * s * eC) * hx
  have hy2 : y * y * ((1 + s * s) * (1 + s * s)) = (1 - s * s) ^ 2 := by
    linear_combination (y * (1 + s * s) + (1 - s * s)) * hy
  have hxt : x * x * (t * t) * (1 + d) = - (4 * (s * s)) := by
    linear_combination (1 + d) * hx2 - 4 * (s * s) * e
  have ht2 : (1 + d) * (t * t) ≠ 0 := mul_ne_zero onePlusD_ne (mul_ne_zero ht ht)
  have hne : ((1 + d) * (t * t)) * ((1 + s * s) * (1 + s * s)) ≠ 0 :=
    mul_ne_zero ht2 (mul_ne_zero hs hs)
  apply mul_left_cancel₀ hne
  linear_combination (-((1 + s * s) ^ 2) - d * (1 - s * s) ^ 2) * hxt +
    ((1 + d) * (t * t)  - d * ((1 + d) * (t * t) * (x * x))) * hy2 - 4 * (s * s) * h

theorem ofJac_unique {s t : Fp} (h : OnJac s t) {P Q : EPoint} (hP : OfJac s t P)
    (hQ : OfJac s t Q) : P = Q :=
  EPoint.ext (mul_right_cancel₀ (jac_t_ne h) (hP.1.trans hQ.1.symm))
    (mul_right_cancel₀ (jac_s_ne h) (hP.2.trans hQ.2.symm))

theorem ofJac_even {s t : Fp} {P : EPoint} (h : OfJac s t P) : P ∈ Even :=
  even_of_sq (s := s) (by linear_combination h.2)

theorem sq_not_sqrtM1 (r0 : Fp) (h : r0 ≠ 0) : ¬ IsSquare (sqrtM1 * (r0 * r0)) := by
  rw [mul_comm]
  exact nonsquare_mul_of_square ⟨r0, rfl⟩ (mul_ne_zero h h) sqrtM1_nonsquare

/-- `N` never vanishes. -/
theorem ellN_ne (r0 : Fp) : ellN (sqrtM1 * (r0 * r0)) ≠ 0 := by
  intro h
  rcases mul_eq_zero.1 h with h | h
  · have : (1 + d) * (d - 1) = 0 := by linear_combination -h
    rcases mul_eq_zero.1 this with h | h
    · exact onePlusD_ne h
    · exact d_sub_one_ne_zero h
  · by_cases h0 : r0 = 0
    · rw [h0] at h; simp at h
    · apply sq_not_sqrtM1 r0 h0
      exact ⟨sqrtM1, by linear_combination h - sqrtM1_sq⟩

theorem onJac_of_elligator {r0 s t : Fp} (h : ElligatorJac r0 s t) : OnJac s t := by
  unfold ElligatorJac at h
  simp only at h
  generalize sqrtM1 * (r0 * r0) = r at h
  unfold OnJac
  rcases h with ⟨-, rfl, rfl⟩ | ⟨hD, -, -, hs, ht⟩ | ⟨hD, -, -, hs, ht⟩
  · ring
  · have hs' : s * s * ellD r = ellN r := by rw [hs, div_mul_cancel₀ _ hD]
    have ht' : t * ellD r = -((r - 1) * (d - 1) ^ 2) - ellD r := by
      rw [ht, sub_mul, div_mul_cancel₀ _ hD, one_mul]
    apply mul_left_cancel₀ (mul_ne_zero hD hD)
    have e1 : ellD r * ellD r * ((1 + d) * (t * t)) =
        (1 + d) * (-((r - 1) * (d - 1) ^ 2) - ellD r) ^ 2 := by rw [← ht']; ring
    have e2 : ellD r * ellD r * (d * (1 - s * s) ^ 2 + (1 + s * s) ^ 2) =
        d * (ellD r - ellN r) ^ 2 + (ellD r + ellN r) ^ 2 := by rw [← hs']; ring
    rw [e1, e2]; unfold ellD ellN; ring
  · have hs' : s * s * ellD r = r * ellN r := by rw [hs, div_mul_cancel₀ _ hD]
    have ht' : t * ellD r = r * ((r - 1) * (d - 1) ^ 2) - ellD r := by
      rw [ht, sub_mul, div_mul_cancel₀ _ hD, one_mul]
    apply mul_left_cancel₀ (mul_ne_zero hD hD)
    have e1 : ellD r * ellD r * ((1 + d) * (t * t)) =
        (1 + d) * (r * ((r - 1) * (d - 1) ^ 2) - ellD r) ^ 2 := by rw [← ht']; ring
    have e2 : ellD r * ellD r * (d * (1 - s * s) ^ 2 + (1 + s * s) ^ 2) =
        d * (ellD r - r * ellN r) ^ 2 + (ellD r + r * ellN r) ^ 2 := by rw [← hs']; ring
    rw [e1, e2]; unfold ellD ellN; ring

theorem elligatorJac_unique {r0 s t s' t' : Fp} (h : ElligatorJac r0 s t)
    (h' : ElligatorJac r0 s' t') : s = s' ∧ t = t' := by
  unfold ElligatorJac at h h'
  simp only at h h'
  generalize sqrtM1 * (r0 * r0) = r at h h'
  rcases h with ⟨hD, rfl, rfl⟩ | ⟨hD, q, n, hs, rfl⟩ | ⟨hD, q, n, hs, rfl⟩ <;>
  rcases h' with ⟨hD', rfl, rfl⟩ | ⟨hD', q', n', hs', rfl⟩ | ⟨hD', q', n', hs', rfl⟩
  · exact ⟨rfl, rfl⟩
  · exact absurd hD hD'
  · exact absurd hD hD'
  · exact absurd hD' hD
  · exact ⟨eq_of_sq_eq n n' (hs.trans hs'.symm), rfl⟩
  · exact absurd q q'
  · exact absurd hD' hD
  · exact absurd q' q
  · refine ⟨neg_injective (eq_of_sq_eq n n' ?_), rfl⟩
    rw [neg_mul_neg, neg_mul_neg, hs, hs']

/-- The image of the Elligator map is a unique, even point. -/
theorem elligator_even {r0 : Fp} {P : EPoint} (h : Elligator r0 P) : P ∈ Even := by
  obtain ⟨s, t, -, hP⟩ := h
  exact ofJac_even hP

theorem elligator_unique {r0 : Fp} {P Q : EPoint} (h : Elligator r0 P) (h' : Elligator r0 Q) :
    P = Q := by
  obtain ⟨s, t, hj, hP⟩ := h
  obtain ⟨s', t', hj', hQ⟩ := h'
  obtain ⟨rfl, rfl⟩ := elligatorJac_unique hj hj'
  exact ofJac_unique (onJac_of_elligator hj) hP hQ

theorem neg_absFp_not_neg (x : Fp) : ¬ IsNeg (-(-absFp x)) := by
  rw [neg_neg]; exact absFp_not_neg x

/-- Every field element has an image. -/
theorem elligatorJac_exists (r0 : Fp) : ∃ s t, ElligatorJac r0 s t := by
  by_cases hD : ellD (sqrtM1 * (r0 * r0)) = 0
  · exact ⟨_, _, Or.inl ⟨hD, rfl, rfl⟩⟩
  by_cases hq : IsSquare (ellN (sqrtM1 * (r0 * r0)) / ellD (sqrtM1 * (r0 * r0)))
  · obtain ⟨a, ha⟩ := id hq
    exact ⟨absFp a, _, Or.inr (Or.inl ⟨hD, hq, absFp_not_neg a, by rw [absFp_sq, ha], rfl⟩)⟩
  · have : IsSquare (sqrtM1 * (r0 * r0) * (ellN (sqrtM1 * (r0 * r0)) / ellD (sqrtM1 * (r0 * r0)))) := by
      by_cases h0 : r0 = 0
      · rw [h0, mul_zero, mul_zero, zero_mul]; exact IsSquare.zero
      · exact isSquare_mul_of_nonsquares (sq_not_sqrtM1 r0 h0) hq
    obtain ⟨a, ha⟩ := this
    exact ⟨-absFp a, _, Or.inr (Or.inr ⟨hD, hq, neg_absFp_not_neg a, by
      rw [neg_mul_neg, absFp_sq, ← ha, mul_div_assoc], rfl⟩)⟩

theorem elligator_exists (r0 : Fp) : ∃ P, Elligator r0 P := by
  obtain ⟨s, t, h⟩ := elligatorJac_exists r0
  obtain ⟨P, hP⟩ := ofJac_exists (onJac_of_elligator h)
  exact ⟨P, s, t, h, hP⟩

theorem elligatorJac_neg {r0 s t : Fp} : ElligatorJac (-r0) s t ↔ ElligatorJac r0 s t := by
  unfold ElligatorJac
  rw [neg_mul_neg]

end Ristretto.Proofs
