import Verif.Proofs.EllMath

/-!
# Inverting the Elligator map
-/

namespace Ristretto.Proofs
set_option autoImplicit false

/-- `-d (1 - d²)` is not a square. -/
theorem d_dsq_nonsquare : ¬ IsSquare (d * (d * d - 1)) := by
  have h : d * (d * d - 1) = ((dNat * (dNat * dNat - 1) : ℕ) : Fp) := by
    rw [d_eq]
    push_cast [show 1 ≤ dNat * dNat by decide]
    ring
  rw [h]
  have hm : ((dNat * (dNat * dNat - 1) : ℕ) : Fp) = ((dNat * (dNat * dNat - 1) % p : ℕ) : Fp) :=
    natCast_eq_of_mod (by rw [Nat.mod_mod])
  rw [hm]
  exact nonsquare_of_powMod _ (by decide +kernel)

/-- The number `a` computed by the inverse from `t`. -/
def ellA (t : Fp) : Fp := (t + 1) * ((d + 1) / (d - 1))

theorem ellA_mul (t : Fp) : ellA t * (d - 1) = (t + 1) * (d + 1) := by
  unfold ellA; rw [mul_assoc, div_mul_cancel₀ _ d_sub_one_ne_zero]

/-- Neither `s² - a` nor `s² + a` vanishes on the quartic. -/
theorem s4_sub_a2_ne {s t : Fp} (h : OnJac s t) (hs : s ≠ 0) :
    s * s - ellA t ≠ 0 ∧ s * s + ellA t ≠ 0 := by
  have ha := ellA_mul t
  unfold OnJac at h
  have hu : s * s ≠ 0 := mul_ne_zero hs hs
  have hq : (1 + d) * ((t + 1) * (t + 1)) - 2 * ((1 + d) * (t + 1)) = (1 + d) * (s * s) ^ 2 + 2 * (1 - d) * (s * s) := by
    linear_combination h
  constructor
  · intro h0
    have e : ellA t = s * s := by linear_combination -h0
    rw [e] at ha
    -- u (d-1) = τ (d+1)
    have h1 : (d + 1) * (d + 1) * ((t + 1) * (t + 1)) = (s * s) ^ 2 * (d - 1) ^ 2 := by
      linear_combination -(s * s * (d - 1) + (t + 1) * (d + 1)) * ha
    have h2 : (s * s) ^ 2 * (4 * d) = 0 := by
      linear_combination h1 - (1 + d) * hq + 2 * (1 + d) * ha
    rcases mul_eq_zero.1 h2 with h3 | h3
    · exact hu (pow_eq_zero_iff two_ne_zero |>.1 h3)
    · rcases mul_eq_zero.1 h3 with h3 | h3
      · exact four_ne_zero' h3
      · exact d_ne_zero h3
  · intro h0
    have e : ellA t = -(s * s) := by linear_combination h0
    rw [e] at ha
    have h1 : (d + 1) * (d + 1) * ((t + 1) * (t + 1)) = (s * s) ^ 2 * (d - 1) ^ 2 := by
      linear_combination -(-(s * s) * (d - 1) + (t + 1) * (d + 1)) * ha
    have h2 : (s * s) * ((s * s) * d - (d * d - 1)) = 0 := by
      have : 4 * ((s * s) * ((s * s) * d - (d * d - 1))) = 0 := by
        linear_combination h1 - (1 + d) * hq + 2 * (1 + d) * ha
      exact (mul_eq_zero.1 this).resolve_left four_ne_zero'
    have h3 := (mul_eq_zero.1 h2).resolve_left hu
    apply d_dsq_nonsquare
    exact ⟨s * d, by linear_combination -d * h3⟩

/-- `(s, t)` with `s ≠ 0` nonnegative comes from `r0` iff `i r0² (s² - a) = s² + a`. -/
theorem elligatorJac_pos_iff {s t r0 : Fp} (h : OnJac s t) (hs : s ≠ 0) (hn : ¬ IsNeg s) :
    ElligatorJac r0 s t ↔ sqrtM1 * (r0 * r0) * (s * s - ellA t) = s * s + ellA t := by
  have hu : s * s ≠ 0 := mul_ne_zero hs hs
  have ha := ellA_mul t
  obtain ⟨hm, hp⟩ := s4_sub_a2_ne h hs
  have hN := ellN_ne r0
  have hdm := d_sub_one_ne_zero
  have hdp := onePlusD_ne
  unfold ElligatorJac
  simp only
  generalize sqrtM1 * (r0 * r0) = r at *
  constructor
  · rintro (⟨-, h0, -⟩ | ⟨hD, -, -, h1, h2⟩ | ⟨-, -, h0, -, -⟩)
    · exact absurd h0 hs
    · rw [eq_div_iff hD] at h1
      have h2' : (t + 1) * ellD r = -((r - 1) * (d - 1) ^ 2) := by
        rw [h2, sub_add_cancel, div_mul_cancel₀ _ hD]
      have h3 : ((d - 1) * (1 + d) * ellD r) * (r * (s * s - ellA t) - (s * s + ellA t)) = 0 := by
        unfold ellN at h1
        linear_combination (d - 1) * (1 + d) * (r - 1) * h1 - (1 + d) * ((r + 1) * ellD r) * ha
          - (1 + d) ^ 2 * (r + 1) * h2'
      have := (mul_eq_zero.1 h3).resolve_left (mul_ne_zero (mul_ne_zero hdm hdp) hD)
      linear_combination this
    · exact absurd ((isNeg_neg hs).not.1 h0) (not_not.2 hn)
  · intro hr
    right; left
    have hk : s * s * ellD r = ellN r := by
      have hne : (s * s - ellA t) * (s * s - ellA t) ≠ 0 := mul_ne_zero hm hm
      apply mul_left_cancel₀ hne
      have e1 : (s * s - ellA t) * (s * s - ellA t) * (s * s * ellD r) =
          -(s * s) * ((d * (s * s + ellA t) + (s * s - ellA t)) * ((s * s + ellA t) + d * (s * s - ellA t))) := by
        rw [← hr]; unfold ellD; ring
      have e2 : (s * s - ellA t) * (s * s - ellA t) * ellN r =
          (s * s - ellA t) * ((1 - d * d) * ((s * s + ellA t) + (s * s - ellA t))) := by
        rw [← hr]; unfold ellN; ring
      rw [e1, e2]
      unfold OnJac at h
      linear_combination (s * s) * ((1 + d) * h + (ellA t * (d - 1) + (t + 1) * (d + 1)) * ha
         - 2 * (1 + d) * ha)
    have hD : ellD r ≠ 0 := by
      intro h0; rw [h0, mul_zero] at hk; exact hN hk.symm
    have hq : s * s = ellN r / ellD r := by rw [eq_div_iff hD]; exact hk
    refine ⟨hD, ⟨s, hq.symm⟩, hn, hq, ?_⟩
    have h2 : (t + 1) * ellD r = -((r - 1) * (d - 1) ^ 2) := by
      have hne : (d + 1) * (s * s) * (s * s - ellA t) ≠ 0 :=
        mul_ne_zero (mul_ne_zero dp1_ne_zero hu) hm
      apply mul_left_cancel₀ hne
      unfold ellN at hk
      linear_combination ((d + 1) * (s * s - ellA t) * (t + 1)) * hk
        + (1 - d * d) * (t + 1) * (d + 1) * hr - 2 * (s * s) * (1 - d * d) * ha
        + (d + 1) * (s * s) * (d - 1) ^ 2 * hr
    rw [eq_sub_iff_add_eq, eq_div_iff hD]
    exact h2

/-- `(s, t)` with `s ≠ 0` negative comes from `r0` iff `i r0² (s² + a) = s² - a`. -/
theorem elligatorJac_neg_iff {s t r0 : Fp} (h : OnJac s t) (hs : s ≠ 0) (hn : IsNeg s) :
    ElligatorJac r0 s t ↔ sqrtM1 * (r0 * r0) * (s * s + ellA t) = s * s - ellA t := by
  have hu : s * s ≠ 0 := mul_ne_zero hs hs
  have ha := ellA_mul t
  obtain ⟨hm, hp⟩ := s4_sub_a2_ne h hs
  have hN := ellN_ne r0
  have hdm := d_sub_one_ne_zero
  have hdp := onePlusD_ne
  have hrs := sq_not_sqrtM1 r0
  have hr0 : r0 = 0 → sqrtM1 * (r0 * r0) = 0 := by rintro rfl; ring
  unfold ElligatorJac
  simp only
  generalize sqrtM1 * (r0 * r0) = r at *
  constructor
  · rintro (⟨-, h0, -⟩ | ⟨-, -, h0, -, -⟩ | ⟨hD, -, -, h1, h2⟩)
    · exact absurd h0 hs
    · exact absurd hn h0
    · rw [eq_div_iff hD] at h1
      have hr : r ≠ 0 := by
        intro h0; rw [h0, zero_mul, ← h0] at h1; exact mul_ne_zero hu hD (h1.trans h0)
      have h2' : (t + 1) * ellD r = r * ((r - 1) * (d - 1) ^ 2) := by
        rw [h2, sub_add_cancel, div_mul_cancel₀ _ hD]
      have h3 : ((d - 1) * (1 + d) * ellD r) * (r * (s * s + ellA t) - (s * s - ellA t)) = 0 := by
        unfold ellN at h1
        linear_combination (d - 1) * (1 + d) * (r - 1) * h1 + (1 + d) * ((r + 1) * ellD r) * ha
          + (1 + d) ^ 2 * (r + 1) * h2'
      have := (mul_eq_zero.1 h3).resolve_left (mul_ne_zero (mul_ne_zero hdm hdp) hD)
      linear_combination this
  · intro hr
    right; right
    have hrne : r ≠ 0 := by
      intro h0; rw [h0, zero_mul] at hr; exact hm hr.symm
    have hk : s * s * ellD r = r * ellN r := by
      have hne : (s * s + ellA t) * (s * s + ellA t) ≠ 0 := mul_ne_zero hp hp
      apply mul_left_cancel₀ hne
      have e1 : (s * s + ellA t) * (s * s + ellA t) * (s * s * ellD r) =
          -(s * s) * ((d * (s * s - ellA t) + (s * s + ellA t)) * ((s * s - ellA t) + d * (s * s + ellA t))) := by
        rw [← hr]; unfold ellD; ring
      have e2 : (s * s + ellA t) * (s * s + ellA t) * (r * ellN r) =
          (s * s - ellA t) * ((1 - d * d) * ((s * s - ellA t) + (s * s + ellA t))) := by
        rw [← hr]; unfold ellN; ring
      rw [e1, e2]
      unfold OnJac at h
      linear_combination (s * s) * ((1 + d) * h + (ellA t * (d - 1) + (t + 1) * (d + 1)) * ha
         - 2 * (1 + d) * ha)
    have hD : ellD r ≠ 0 := by
      intro h0; rw [h0, mul_zero] at hk; exact mul_ne_zero hrne hN hk.symm
    have hq : s * s = r * ellN r / ellD r := by rw [eq_div_iff hD]; exact hk
    refine ⟨hD, ?_, by rw [isNeg_neg hs]; exact not_not.2 hn, hq, ?_⟩
    · rintro ⟨b, hb⟩
      have hr0' : r0 ≠ 0 := fun h => hrne (hr0 h)
      apply hrs hr0'
      have hbr : s * s = r * (b * b) := by rw [hq, mul_div_assoc, hb]
      have hb0 : b ≠ 0 := by rintro rfl; rw [mul_zero, mul_zero] at hbr; exact hu hbr
      exact ⟨s / b, by rw [div_mul_div_comm, eq_div_iff (mul_ne_zero hb0 hb0), hbr]⟩
    · have h2 : (t + 1) * ellD r = r * ((r - 1) * (d - 1) ^ 2) := by
        have hne : (d + 1) * (s * s) * (s * s + ellA t) ≠ 0 :=
          mul_ne_zero (mul_ne_zero dp1_ne_zero hu) hp
        apply mul_left_cancel₀ hne
        unfold ellN at hk
        linear_combination ((d + 1) * (s * s + ellA t) * (t + 1)) * hk
          + r * ((1 - d * d) * (t + 1) * (d + 1) * hr - 2 * (s * s) * (1 - d * d) * ha
          - (d + 1) * (s * s) * (d - 1) ^ 2 * hr)
      rw [eq_sub_iff_add_eq, eq_div_iff hD]
      exact h2

/-- The only pairs with `s = 0` are `(0, 1)`, which Elligator never picks, and `(0, -1)`. -/
theorem jac_zero {t : Fp} (h : OnJac 0 t) : t = 1 ∨ t = -1 := by
  unfold OnJac at h
  have : (1 + d) * ((t - 1) * (t + 1)) = 0 := by linear_combination h
  rcases mul_eq_zero.1 ((mul_eq_zero.1 this).resolve_left onePlusD_ne) with h | h
  · left; linear_combination h
  · right; linear_combination h

theorem elligatorJac_zero_iff {t r0 : Fp} :
    ElligatorJac r0 0 t ↔ t = -1 ∧ (r0 = 0 ∨ ellD (sqrtM1 * (r0 * r0)) = 0) := by
  have hN := ellN_ne r0
  constructor
  · unfold ElligatorJac
    simp only
    rintro (⟨h, -, h'⟩ | ⟨hD, -, -, h1, -⟩ | ⟨hD, -, -, h1, h2⟩)
    · exact ⟨h', Or.inr h⟩
    · exfalso
      rw [eq_div_iff hD, zero_mul, zero_mul] at h1
      exact hN h1.symm
    · rw [eq_div_iff hD, zero_mul, zero_mul] at h1
      have h0 := (mul_eq_zero.1 h1.symm).resolve_right hN
      rw [h0] at h2
      refine ⟨by rw [h2]; simp, Or.inl ?_⟩
      exact mul_self_eq_zero.1 ((mul_eq_zero.1 h0).resolve_left sqrtM1_ne_zero)
  · rintro ⟨rfl, rfl | h⟩
    · obtain ⟨s, t, h⟩ := elligatorJac_exists 0
      have h' := id h
      unfold ElligatorJac at h
      simp only [mul_zero, zero_mul] at h
      have : s = 0 ∧ t = -1 := by
        rcases h with ⟨-, h, h'⟩ | ⟨hD, hq, -, hs, -⟩ | ⟨hD, -, -, hs, ht⟩
        · exact ⟨h, h'⟩
        · exfalso
          -- N/D = (1 - d²)/(-d)
          apply d_dsq_nonsquare
          rw [eq_div_iff hD] at hs
          unfold ellD ellN at hs
          exact ⟨s * d, by linear_combination d * hs⟩
        · rw [zero_div] at hs ht
          exact ⟨mul_self_eq_zero.1 hs, by rw [ht]; ring⟩
      obtain ⟨rfl, rfl⟩ := this
      exact h'
    · exact Or.inl ⟨h, rfl, rfl⟩

theorem ofJac_neg {s t : Fp} {P : EPoint} (h : OfJac s t P) : OfJac (-s) (-t) P :=
  ⟨by linear_combination -h.1, by linear_combination h.2⟩

theorem onJac_neg {s t : Fp} (h : OnJac s t) : OnJac (-s) (-t) := by
  unfold OnJac at *; linear_combination h

/-- A pair belonging to a point with `x ≠ 0` is on the quartic. -/
theorem onJac_of_ofJac {s t : Fp} {P : EPoint} (h : OfJac s t P) (hx : P.x ≠ 0) : OnJac s t := by
  have h1 := xden_rel (Q := P) (s := s) (by linear_combination h.2)
  have e := eC_sq
  unfold OnJac
  apply mul_left_cancel₀ (mul_ne_zero hx hx)
  linear_combination (1 + d) * (P.x * t + 2 * s * eC) * h.1 - (4 * (s * s)) * e + h1

/-- The pairs belonging to a point with `x ≠ 0` are determined up to sign. -/
theorem ofJac_pm {s t s' t' : Fp} {P : EPoint} (h : OfJac s t P) (h' : OfJac s' t' P)
    (hx : P.x ≠ 0) : (s' = s ∧ t' = t) ∨ (s' = -s ∧ t' = -t) := by
  have hy : 1 + P.y ≠ 0 := by
    intro hy
    have := h.2
    have e : P.y = -1 := by linear_combination hy
    rw [e] at this
    exact two_ne_zero' (by linear_combination -this)
  have hs : (s' - s) * (s' + s) = 0 := by
    have : (1 + P.y) * ((s' - s) * (s' + s)) = 0 := by linear_combination h'.2 - h.2
    exact (mul_eq_zero.1 this).resolve_left hy
  rcases mul_eq_zero.1 hs with h0 | h0
  · have e : s' = s := by linear_combination h0
    refine Or.inl ⟨e, mul_left_cancel₀ hx ?_⟩
    rw [h.1, h'.1, e]
  · have e : s' = -s := by linear_combination h0
    refine Or.inr ⟨e, mul_left_cancel₀ hx ?_⟩
    rw [h'.1, e]; linear_combination h.1

/-- Zeros of the denominator. -/
theorem ellD_zero_iff (r0 : Fp) : ellD (sqrtM1 * (r0 * r0)) = 0 ↔
    (r0 * r0 = sqrtM1 * d ∨ r0 * r0 * d = sqrtM1) := by
  unfold ellD
  have hi := sqrtM1_sq
  constructor
  · intro h
    rcases mul_eq_zero.1 (neg_eq_zero.1 h) with h | h
    · right; linear_combination (-sqrtM1) * h + (r0 * r0 * d) * hi
    · left; linear_combination (-sqrtM1) * h + (r0 * r0) * hi
  · rintro (h | h)
    · have : sqrtM1 * (r0 * r0) + d = 0 := by linear_combination sqrtM1 * h + d * hi
      rw [this]; ring
    · have : d * (sqrtM1 * (r0 * r0)) + 1 = 0 := by linear_combination sqrtM1 * h + hi
      rw [this]; ring

end Ristretto.Proofs
