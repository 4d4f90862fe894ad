import Verif.Spec.Ristretto
import Verif.Proofs.Lawful

/-!
# The Ristretto encoding is a bijection between cosets and valid encodings
-/

namespace Ristretto.Proofs
set_option autoImplicit false

theorem eC_ne_zero : eC ≠ 0 := by
  intro h; have := eC_sq; rw [h] at this; simp at this

theorem dp1_ne_zero : d + 1 ≠ 0 := by
  intro h; have := eC_sq
  rw [show -1 - d = -(d + 1) by ring, h] at this; simp at this

/-- The relation behind both the encoding and the evenness criterion. -/
theorem key_rel (P : EPoint) : (1 - P.y * P.y) * (1 + P.x * P.x) * (eC * eC) = P.x * P.x * (P.y * P.y) := by
  have on := P.on; unfold OnCurve at on
  have e := eC_sq
  linear_combination (P.x * P.x * (P.y * P.y)) * e - (eC * eC) * on

theorem one_sub_y_sq_of_even {P : EPoint} (h : P ∈ Even) : ∃ w : Fp, w * w = 1 - P.y * P.y := by
  obtain ⟨Q, rfl⟩ := mem_Even.1 h
  have hy := double_y Q
  have hm := EPoint.one_sub_k_ne Q.on Q.on
  have on := Q.on; unfold OnCurve at on
  have hk := key_rel Q
  have e0 := eC_ne_zero
  refine ⟨2 * Q.x * Q.y / (eC * (1 - d * Q.x * Q.x * Q.y * Q.y)), ?_⟩
  rw [div_mul_div_comm, div_eq_iff (mul_ne_zero (mul_ne_zero e0 hm) (mul_ne_zero e0 hm))]
  generalize (Q + Q).y = Y at *
  have hD : 1 - d * Q.x * Q.x * Q.y * Q.y = 2 + Q.x ^ 2 - Q.y ^ 2 := by linear_combination on
  rw [hD] at hy ⊢
  linear_combination (-4) * hk + (eC ^ 2) * (Y * (2 + Q.x ^ 2 - Q.y ^ 2) + (Q.y ^ 2 + Q.x ^ 2)) * hy

theorem add_torsI_x (P : EPoint) : (P + torsI).x = sqrtM1 * P.y := by
  rw [EPoint.add_x, EPoint.addX, torsI]; simp; ring
theorem add_torsI_y (P : EPoint) : (P + torsI).y = sqrtM1 * P.x := by
  rw [EPoint.add_y, EPoint.addY, torsI]; simp; ring
theorem add_neg_torsI_x (P : EPoint) : (P + -torsI).x = -(sqrtM1 * P.y) := by
  rw [EPoint.add_x, EPoint.addX, neg_torsI]; simp; ring
theorem add_neg_torsI_y (P : EPoint) : (P + -torsI).y = -(sqrtM1 * P.x) := by
  rw [EPoint.add_y, EPoint.addY, neg_torsI]; simp; ring
theorem add_torsM_x (P : EPoint) : (P + torsM).x = -P.x := by
  rw [EPoint.add_x, EPoint.addX, torsM]; simp
theorem add_torsM_y (P : EPoint) : (P + torsM).y = -P.y := by
  rw [EPoint.add_y, EPoint.addY, torsM]; simp

/-- The four members of a coset. -/
theorem coset_cases {P Q : EPoint} (h : Q - P ∈ E4) :
    (Q.x = P.x ∧ Q.y = P.y) ∨ (Q.x = -P.x ∧ Q.y = -P.y) ∨
    (Q.x = sqrtM1 * P.y ∧ Q.y = sqrtM1 * P.x) ∨ (Q.x = -(sqrtM1 * P.y) ∧ Q.y = -(sqrtM1 * P.x)) := by
  have hQ : Q = P + (Q - P) := by abel
  rcases mem_E4_cases.1 h with h | h | h | h <;> rw [h] at hQ <;> rw [hQ]
  · left; simp
  · right; left; exact ⟨add_torsM_x P, add_torsM_y P⟩
  · right; right; left; exact ⟨add_torsI_x P, add_torsI_y P⟩
  · right; right; right; exact ⟨add_neg_torsI_x P, add_neg_torsI_y P⟩

theorem torsM_mem : torsM ∈ E4 := mem_E4.2 (Or.inl rfl)
theorem torsI_mem : torsI ∈ E4 := mem_E4.2 (Or.inr rfl)

/-- The canonical representatives. -/
def Canon (Q : EPoint) : Prop := ¬ IsNeg Q.x ∧ ¬ IsNeg (Q.x * Q.y) ∧ Q.y ≠ 0 ∧ 1 + Q.y ≠ 0

theorem exists_canon_aux (P : EPoint) (h0 : P.x * P.y ≠ 0) (hn : ¬ IsNeg (P.x * P.y)) :
    ∃ Q : EPoint, Q - P ∈ E4 ∧ Canon Q := by
  have hx := left_ne_zero_of_mul h0
  have hy := right_ne_zero_of_mul h0
  have hy1 : ∀ R : EPoint, R.x ≠ 0 → 1 + R.y ≠ 0 := by
    intro R hR h
    have := x_sq_eq R
    have hr : R.y = -1 := by linear_combination h
    rw [hr] at this
    have := mul_eq_zero.1 (this.trans (by ring : ((-1) ^ 2 - 1 : Fp) = 0))
    rcases this with h | h
    · exact hR (mul_self_eq_zero.1 h)
    · exact dp1_ne_zero (by linear_combination h)
  by_cases hs : IsNeg P.x
  · refine ⟨P + torsM, by rw [add_sub_cancel_left]; exact torsM_mem, ?_, ?_, ?_, ?_⟩
    · rw [add_torsM_x, isNeg_neg hx]; exact not_not.2 hs
    · rw [add_torsM_x, add_torsM_y, neg_mul_neg]; exact hn
    · rw [add_torsM_y]; exact neg_ne_zero.2 hy
    · apply hy1; rw [add_torsM_x]; exact neg_ne_zero.2 hx
  · exact ⟨P, by rw [sub_self]; exact E4.zero_mem, hs, hn, hy, hy1 P hx⟩

theorem exists_canon (P : EPoint) : ∃ Q : EPoint, Q - P ∈ E4 ∧ Canon Q := by
  by_cases h0 : P.x * P.y = 0
  · refine ⟨0, ?_, ?_, ?_, ?_, ?_⟩
    · rw [zero_sub]; exact E4.neg_mem (mem_E4.2 (mul_eq_zero.1 h0))
    · exact not_isNeg_zero
    · simpa using not_isNeg_zero
    · simp
    · rw [EPoint.zero_y, one_add_one_eq_two]; exact two_ne_zero'
  · by_cases hn : IsNeg (P.x * P.y)
    · have e : (P + torsI).x * (P + torsI).y = -(P.x * P.y) := by
        rw [add_torsI_x, add_torsI_y]; linear_combination (P.x * P.y) * sqrtM1_sq
      obtain ⟨Q, hQ, hc⟩ := exists_canon_aux (P + torsI) (by rw [e]; exact neg_ne_zero.2 h0)
        (by rw [e, isNeg_neg h0]; exact not_not.2 hn)
      refine ⟨Q, ?_, hc⟩
      have : Q - P = (Q - (P + torsI)) + torsI := by abel
      rw [this]; exact E4.add_mem hQ torsI_mem
    · exact exists_canon_aux P h0 hn

theorem canon_unique {Q R : EPoint} (h : Q - R ∈ E4) (hQ : Canon Q) (hR : Canon R) : Q = R := by
  obtain ⟨q1, q2, q3, q4⟩ := hQ
  obtain ⟨r1, r2, r3, r4⟩ := hR
  have h1 : ∀ S : EPoint, S.x = 0 → 1 + S.y ≠ 0 → S.y = 1 := by
    intro S hS hne
    rcases y_of_x_zero hS with h | h
    · exact h
    · rw [h] at hne; simp at hne
  rcases coset_cases h with ⟨hx, hy⟩ | ⟨hx, hy⟩ | ⟨hx, hy⟩ | ⟨hx, hy⟩
  · exact EPoint.ext hx hy
  · by_cases h0 : R.x = 0
    · have q0 : Q.x = 0 := by rw [hx, h0, neg_zero]
      exact EPoint.ext (by rw [q0, h0]) (by rw [h1 Q q0 q4, h1 R h0 r4])
    · rw [hx, isNeg_neg h0] at q1; exact absurd r1 q1
  all_goals
    exfalso
    have e : Q.x * Q.y = -(R.x * R.y) := by
      rw [hx, hy]; linear_combination (R.x * R.y) * sqrtM1_sq
    have rx : R.x ≠ 0 := by
      intro h0; apply q3; rw [hy, h0]; simp
    rw [e, isNeg_neg (mul_ne_zero rx r3)] at q2
    exact q2 r2

theorem even_of_coset {P Q : EPoint} (h : Q - P ∈ E4) (hP : P ∈ Even) : Q ∈ Even := by
  have : Q = (Q - P) + P := by abel
  rw [this]; exact Even.add_mem (E4_le_Even h) hP

/-- Every even point has an encoding. -/
theorem enc_exists {P : EPoint} (h : P ∈ Even) : ∃ s, Enc P s := by
  obtain ⟨Q, hQ, q1, q2, q3, q4⟩ := exists_canon P
  obtain ⟨w, hw⟩ := one_sub_y_sq_of_even (even_of_coset hQ h)
  refine ⟨absFp (w / (1 + Q.y)), Q, hQ, q1, q2, q3, absFp_not_neg _, ?_⟩
  rw [absFp_sq, div_mul_div_comm, hw, div_mul_eq_mul_div, div_eq_iff (mul_ne_zero q4 q4)]
  ring

theorem enc_canon {P : EPoint} {s : Fp} (h : Enc P s) : ∃ Q : EPoint, Q - P ∈ E4 ∧ Canon Q ∧
    ¬ IsNeg s ∧ s * s * (1 + Q.y) = 1 - Q.y := by
  obtain ⟨Q, hQ, h1, h2, h3, h4, h5⟩ := h
  refine ⟨Q, hQ, ⟨h1, h2, h3, ?_⟩, h4, h5⟩
  intro h
  rw [h, mul_zero] at h5
  exact two_ne_zero' (by linear_combination h - h5)

/-- An encoding is unique. -/
theorem enc_unique {P : EPoint} {s t : Fp} (h : Enc P s) (h' : Enc P t) : s = t := by
  obtain ⟨Q, hQ, cQ, h1, h2⟩ := enc_canon h
  obtain ⟨R, hR, cR, h3, h4⟩ := enc_canon h'
  have : Q = R := canon_unique (by
    have : Q - R = (Q - P) - (R - P) := by abel
    rw [this]; exact E4.sub_mem hQ hR) cQ cR
  subst this
  apply eq_of_sq_eq h1 h3
  apply mul_right_cancel₀ cQ.2.2.2
  rw [h2, h4]

theorem one_add_sq_ne {s y : Fp} (h : s * s * (1 + y) = 1 - y) : 1 + s * s ≠ 0 := by
  intro h'
  exact two_ne_zero' (by linear_combination (1 + y) * h' - h)

/-- Encodings of different cosets differ. -/
theorem enc_inj {P R : EPoint} {s : Fp} (h : Enc P s) (h' : Enc R s) : P - R ∈ E4 := by
  obtain ⟨Q, hQ, cQ, h1, h2⟩ := enc_canon h
  obtain ⟨S, hS, cS, h3, h4⟩ := enc_canon h'
  have hy : Q.y = S.y := by
    apply mul_right_cancel₀ (one_add_sq_ne h2)
    linear_combination h2 - h4
  have : Q = S := ext_sign hy (iff_of_false cQ.1 cS.1)
  subst this
  have : P - R = (Q - R) - (Q - P) := by abel
  rw [this]; exact E4.sub_mem hS hQ

theorem enc_congr {P R : EPoint} {s : Fp} (h : P - R ∈ E4) : Enc P s ↔ Enc R s := by
  have key : ∀ {P R : EPoint}, P - R ∈ E4 → Enc P s → Enc R s := by
    rintro P R h ⟨Q, hQ, h'⟩
    refine ⟨Q, ?_, h'⟩
    have : Q - R = (Q - P) + (P - R) := by abel
    rw [this]; exact E4.add_mem hQ h
  refine ⟨key h, key ?_⟩
  rw [← neg_sub]; exact E4.neg_mem h

/-- Evenness criterion: a point with `(1-y)/(1+y)` a square is even. -/
theorem even_of_sq {P : EPoint} {s : Fp} (h : s * s * (1 + P.y) = 1 - P.y) : P ∈ Even := by
  have hk1 := one_add_sq_ne h
  by_cases hX : P.x = 0
  · exact E4_le_Even (mem_E4.2 (Or.inl hX))
  have e0 := eC_ne_zero
  have es := eC_sq
  have h2 := two_ne_zero'
  have d0 := d_ne_zero
  have on := P.on; unfold OnCurve at on
  -- s ≠ 0
  have s0 : s ≠ 0 := by
    rintro rfl
    have hy : P.y = 1 := by linear_combination h
    rw [hy] at on
    have : P.x * P.x * (d + 1) = 0 := by linear_combination -on
    rcases mul_eq_zero.1 this with h | h
    · exact hX (mul_self_eq_zero.1 h)
    · exact dp1_ne_zero h
  -- t with (1+d) t^2 = (1+d)(k^2+1) + 2(1-d)k
  have hx2 : P.x * P.x * (d * (1 - s * s) ^ 2 + (1 + s * s) ^ 2) = -4 * (s * s) := by
    have hy : P.y * (1 + s * s) = 1 - s * s := by linear_combination h
    have := x_sq_eq P
    linear_combination (1 + s * s) ^ 2 * this -
      (d * P.x ^ 2 - 1) * (P.y * (1 + s * s) + (1 - s * s)) * hy
  obtain ⟨t, ht⟩ : ∃ t, t * P.x = 2 * s * eC := ⟨2 * s * eC / P.x, div_mul_cancel₀ _ hX⟩
  have ht2 : (1 + d) * (t * t) = d * (1 - s * s) ^ 2 + (1 + s * s) ^ 2 := by
    apply mul_left_cancel₀ (mul_ne_zero hX hX)
    rw [hx2]
    linear_combination (1 + d) * (t * P.x + 2 * s * eC) * ht - 4 * s * s * es
  have key : ∀ u x : Fp, x * x = u → u ≠ 0 →
      d * (s * s) * u ^ 2 - (s * s * (1 - d) + (d + 1)) * u - s * s = 0 → P ∈ Even := by
    intro u x hxu hu hq
    have hx : x ≠ 0 := by rintro rfl; simp at hxu; exact hu hxu.symm
    have hu1 : 1 + u ≠ 0 := by
      intro h1
      apply dp1_ne_zero
      linear_combination hq - (d * (s * s) * (u - 1) - (s * s * (1 - d) + (d + 1))) * h1
    obtain ⟨y, hy⟩ : ∃ y, y * x = s * (1 + u) * eC := ⟨s * (1 + u) * eC / x, div_mul_cancel₀ _ hx⟩
    have hyy : u * (y * y) = s * s * (1 + u) ^ 2 * (eC * eC) := by
      linear_combination (y * x + s * (1 + u) * eC) * hy - y * y * hxu
    have hyk : y * y = 1 - s * s * (1 + u) := by
      apply mul_left_cancel₀ hu
      apply mul_right_cancel₀ (neg_ne_zero.2 dp1_ne_zero)
      linear_combination (-(d + 1)) * hyy + s * s * (1 + u) ^ 2 * es - hq
    have hon : OnCurve x y := by
      unfold OnCurve
      have : -u + y * y = 1 + d * u * (y * y) := by
        rw [hyk]
        linear_combination hq
      linear_combination this - hxu * (1 + d * (y * y))
    let Q : EPoint := ⟨x, y, hon⟩
    have hQy : (Q + Q).y = P.y := by
      have hd := double_y Q
      have hm := EPoint.one_sub_k_ne Q.on Q.on
      apply mul_right_cancel₀ hm
      rw [hd]
      change y ^ 2 + x ^ 2 = P.y * (1 - d * x * x * y * y)
      unfold OnCurve at hon
      have hD : 1 - d * x * x * y * y = (1 + u) * (1 + s * s) := by
        linear_combination hon + hxu - hyk
      rw [hD]
      linear_combination hxu + hyk - (1 + u) * h
    have hxx : (Q + Q).x * (Q + Q).x = P.x * P.x := by
      apply mul_right_cancel₀ (dy2_ne P.y)
      have h1 := x_sq_eq (Q + Q)
      rw [hQy] at h1
      rw [h1, x_sq_eq P]
    rcases mul_self_eq_mul_self_iff.1 hxx with h' | h'
    · exact mem_Even.2 ⟨Q, EPoint.ext h' hQy⟩
    · have : Q + Q = -P := EPoint.ext h' hQy
      have hm : -P ∈ Even := mem_Even.2 ⟨Q, this⟩
      simpa using Even.neg_mem hm
  have hden : 2 * d * (s * s) ≠ 0 := mul_ne_zero (mul_ne_zero h2 d0) (mul_ne_zero s0 s0)
  obtain ⟨u1, hu1⟩ : ∃ u, u * (2 * d * (s * s)) = (s * s * (1 - d) + (d + 1)) + (1 + d) * t :=
    ⟨_, div_mul_cancel₀ _ hden⟩
  obtain ⟨u2, hu2⟩ : ∃ u, u * (2 * d * (s * s)) = (s * s * (1 - d) + (d + 1)) - (1 + d) * t :=
    ⟨_, div_mul_cancel₀ _ hden⟩
  have h4 : (2 * d * (s * s)) * 2 ≠ 0 := mul_ne_zero hden h2
  have q1 : d * (s * s) * u1 ^ 2 - (s * s * (1 - d) + (d + 1)) * u1 - s * s = 0 := by
    apply mul_left_cancel₀ h4
    linear_combination (u1 * (2 * d * (s * s)) - (s * s * (1 - d) + (d + 1)) + (1 + d) * t) * hu1 +
      (1 + d) * ht2
  have q2 : d * (s * s) * u2 ^ 2 - (s * s * (1 - d) + (d + 1)) * u2 - s * s = 0 := by
    apply mul_left_cancel₀ h4
    linear_combination (u2 * (2 * d * (s * s)) - (s * s * (1 - d) + (d + 1)) - (1 + d) * t) * hu2 +
      (1 + d) * ht2
  have hprod : u1 * u2 * d = -1 := by
    apply mul_left_cancel₀ (mul_ne_zero h4 (mul_ne_zero s0 s0))
    have hsum : (u1 + u2) * (d * (s * s)) = s * s * (1 - d) + (d + 1) := by
      apply mul_left_cancel₀ h2
      linear_combination hu1 + hu2
    linear_combination (-4 * d * (s*s)) * q1 + (4 * d * (s * s)) * u1 * hsum
  have hu10 : u1 ≠ 0 := by rintro rfl; simp at hprod
  have hu20 : u2 ≠ 0 := by rintro rfl; simp at hprod
  by_cases hs1 : IsSquare u1
  · obtain ⟨x, hx⟩ := hs1
    exact key u1 x hx.symm hu10 q1
  · by_cases hs2 : IsSquare u2
    · obtain ⟨x, hx⟩ := hs2
      exact key u2 x hx.symm hu20 q2
    · exfalso
      have hp := isSquare_mul_of_nonsquares hs1 hs2
      have := nonsquare_mul_of_square hp (mul_ne_zero hu10 hu20) d_nonsquare
      rw [hprod] at this
      exact this neg_one_isSquare

theorem even_of_enc {P : EPoint} {s : Fp} (h : Enc P s) : P ∈ Even := by
  obtain ⟨Q, hQ, -, -, h2⟩ := enc_canon h
  have : P - Q ∈ E4 := by rw [← neg_sub]; exact E4.neg_mem hQ
  exact even_of_coset this (even_of_sq h2)

end Ristretto.Proofs
