import Verif.Spec.Rfc9496
import Verif.Proofs.Elligator
import Verif.Proofs.Api

/-!
# RFC 9496 and the abstract specification
-/

namespace Ristretto.Proofs.Rfc
open Rfc9496
set_option autoImplicit false

theorem D_eq : D = d := d_eq.symm
theorem SQRT_M1_eq : SQRT_M1 = sqrtM1 := rfl

theorem ONE_MINUS_D_SQ_eq : ONE_MINUS_D_SQ = 1 - d * d := by
  have h : ((1159843021668779879193775521855586647937357759715417654439879720876111806838 + dNat * dNat : ℕ) : Fp) =
    ((1 : ℕ) : Fp) := natCast_eq_of_mod (by norm_num [p, dNat])
  rw [d_eq, ONE_MINUS_D_SQ]
  push_cast at h ⊢
  linear_combination h

theorem D_MINUS_ONE_SQ_eq : D_MINUS_ONE_SQ = (d - 1) ^ 2 := by
  have h : ((40440834346308536858101042469323190826248399146238708352240133220865137265952 + 2 * dNat : ℕ) : Fp) =
    ((dNat * dNat + 1 : ℕ) : Fp) := natCast_eq_of_mod (by norm_num [p, dNat])
  rw [d_eq, D_MINUS_ONE_SQ]
  push_cast at h ⊢
  linear_combination h

theorem SQRT_AD_MINUS_ONE_eq : SQRT_AD_MINUS_ONE * eC = 1 := by
  have h : ((25063068953384623474111414158702152701244531502492656460079210482610430750235 *
    3426737609748780790789678635598812321241395039892825098523479107644843802371 : ℕ) : Fp) =
    ((1 : ℕ) : Fp) := natCast_eq_of_mod (by norm_num [p])
  rw [SQRT_AD_MINUS_ONE, eC]
  push_cast at h ⊢
  linear_combination h

theorem INVSQRT_A_MINUS_D_eq : INVSQRT_A_MINUS_D = -eC := by
  have h : ((54469307008909316920995813868745141605393597292927456921205312896311721017578 +
    3426737609748780790789678635598812321241395039892825098523479107644843802371 : ℕ) : Fp) =
    ((0 : ℕ) : Fp) := natCast_eq_of_mod (by norm_num [p])
  rw [INVSQRT_A_MINUS_D, eC]
  push_cast at h ⊢
  linear_combination h

theorem IS_NEGATIVE_iff (x : Fp) : IS_NEGATIVE x = true ↔ IsNeg x := by
  unfold IS_NEGATIVE IsNeg
  exact beq_iff_eq

theorem CT_ABS_eq (x : Fp) : CT_ABS x = absFp x := by
  unfold CT_ABS absFp
  simp only [IS_NEGATIVE_iff]

/-- What SQRT_RATIO_M1 returns (RFC 9496, section 4.2). -/
theorem sqrtRatio_spec (u v : Fp) :
    ¬ IsNeg (SQRT_RATIO_M1 u v).2 ∧
    (u = 0 → SQRT_RATIO_M1 u v = (true, 0)) ∧
    (u ≠ 0 → v = 0 → SQRT_RATIO_M1 u v = (false, 0)) ∧
    (u ≠ 0 → v ≠ 0 →
      ((SQRT_RATIO_M1 u v).1 = true ∧ IsSquare (u / v) ∧ v * ((SQRT_RATIO_M1 u v).2 * (SQRT_RATIO_M1 u v).2) = u) ∨
      ((SQRT_RATIO_M1 u v).1 = false ∧ ¬ IsSquare (u / v) ∧
        v * ((SQRT_RATIO_M1 u v).2 * (SQRT_RATIO_M1 u v).2) = sqrtM1 * u)) := by
  have hi := sqrtM1_sq
  unfold SQRT_RATIO_M1
  simp only [CT_ABS_eq, SQRT_M1_eq]
  refine ⟨absFp_not_neg _, ?_, ?_, ?_⟩
  · rintro rfl
    simp [absFp, not_isNeg_zero]
  · rintro hu rfl
    have h1 : (0 : Fp) ≠ u := hu.symm
    have h2 : (0 : Fp) ≠ -u := (neg_ne_zero.2 hu).symm
    have h3 : (0 : Fp) ≠ -u * sqrtM1 := (mul_ne_zero (neg_ne_zero.2 hu) sqrtM1_ne_zero).symm
    simp [absFp, not_isNeg_zero, h1, h2]
  · intro hu hv
    generalize hr : (u * v ^ 3) * (u * v ^ 7) ^ ((p - 5) / 8) = r
    obtain ⟨c, hc, hc4⟩ : ∃ c : Fp, v * r ^ 2 = u * c ∧ c ^ 4 = 1 := by
      refine ⟨(u * v ^ 7) ^ ((p - 1) / 4), ?_, ?_⟩
      · rw [← hr]
        have e : (p - 1) / 4 = 1 + (p - 5) / 8 * 2 := by norm_num [p]
        rw [e, pow_add, pow_mul]
        ring
      · rw [← pow_mul, show (p - 1) / 4 * 4 = p - 1 by norm_num [p]]
        exact ZMod.pow_card_sub_one_eq_one (mul_ne_zero hu (pow_ne_zero _ hv))
    clear hr
    rw [hc]
    have hr2 : r ^ 2 = u / v * c := by field_simp; linear_combination hc
    have cancel : ∀ a b : Fp, u * a = u * b ↔ a = b := fun a b => mul_right_inj' hu
    have e1 : ∀ a : Fp, (u * a == u) = decide (a = 1) := fun a => by
      rw [Bool.eq_iff_iff, beq_iff_eq, decide_eq_true_iff, ← cancel a 1, mul_one]
    have e2 : ∀ a : Fp, (u * a == -u) = decide (a = -1) := fun a => by
      rw [Bool.eq_iff_iff, beq_iff_eq, decide_eq_true_iff, ← cancel a (-1), mul_neg_one]
    have e3 : ∀ a : Fp, (u * a == -u * sqrtM1) = decide (a = -sqrtM1) := fun a => by
      rw [Bool.eq_iff_iff, beq_iff_eq, decide_eq_true_iff, ← cancel a (-sqrtM1), mul_neg, neg_mul]
    simp only [e1, e2, e3]
    have sq : ∀ a w : Fp, w * w = u / v * a → v * (absFp w * absFp w) = u * a := by
      intro a w h
      rw [absFp_sq, h]
      field_simp
    rcases fourth_root hc4 with rfl | rfl | rfl | rfl
    · left
      simp only [one_ne_neg_one, show (1 : Fp) ≠ -sqrtM1 from fun h => sqrtM1_ne_neg_one (by linear_combination h), decide_true,
        decide_false, Bool.or_false, Bool.false_eq_true, if_false, true_and]
      exact ⟨⟨r, by linear_combination -hr2⟩, by rw [sq 1 r (by linear_combination hr2), mul_one]⟩
    · left
      simp only [decide_true, Bool.true_or, Bool.or_true, if_true, true_and]
      exact ⟨⟨sqrtM1 * r, by linear_combination -r ^ 2 * hi + hr2⟩,
        by rw [sq 1 _ (by linear_combination r ^ 2 * hi - hr2), mul_one]⟩
    · right
      simp only [sqrtM1_ne_one, sqrtM1_ne_neg_one, neg_sqrtM1_ne.symm, decide_false, Bool.or_false, Bool.false_eq_true, if_false,
        true_and]
      refine ⟨?_, by rw [sq sqrtM1 r (by linear_combination hr2), mul_comm]⟩
      have h : (u / v) * (sqrtM1 * sqrtM1) = -(u / v) := by linear_combination (u / v) * hi
      intro hs
      obtain ⟨a, ha⟩ := hs
      have ha0 : a ≠ 0 := by
        rintro rfl
        rw [mul_zero] at ha
        exact div_ne_zero hu hv ha
      apply sqrtM1_nonsquare
      refine ⟨r / a, ?_⟩
      rw [ha] at hr2
      field_simp
      linear_combination -hr2
    · right
      have h1 : -sqrtM1 ≠ 1 := fun h => sqrtM1_ne_neg_one (by linear_combination -h)
      have h2 : -sqrtM1 ≠ -1 := fun h => sqrtM1_ne_one (by linear_combination -h)
      simp only [h1, h2, decide_false, decide_true, Bool.false_or, if_true, true_and]
      refine ⟨?_, by rw [sq sqrtM1 (sqrtM1 * r) (by linear_combination r ^ 2 * hi - hr2), mul_comm]⟩
      rintro ⟨a, ha⟩
      have ha0 : a ≠ 0 := by
        rintro rfl
        rw [mul_zero] at ha
        exact div_ne_zero hu hv ha
      apply neg_sqrtM1_nonsquare
      refine ⟨r / a, ?_⟩
      rw [ha] at hr2
      field_simp
      linear_combination -hr2

/-- The first half of decoding, for `σ` with `1 + σ² ≠ 0`. -/
theorem decode_square {σ isr : Fp}
    (h : (-(d * (1 - σ ^ 2) ^ 2) - (1 + σ ^ 2) ^ 2) * (1 + σ ^ 2) ^ 2 * (isr * isr) = 1) (X Y : Fp)
    (hX : X = 2 * σ * (isr * (1 + σ ^ 2)))
    (hY : Y = (1 - σ ^ 2) * (isr * (isr * (1 + σ ^ 2)) * (-(d * (1 - σ ^ 2) ^ 2) - (1 + σ ^ 2) ^ 2))) :
    Y * (1 + σ * σ) = 1 - σ * σ ∧ X * X * -(d * (1 - σ * σ) ^ 2 + (1 + σ * σ) ^ 2) = 4 * (σ * σ) := by
  constructor
  · rw [hY]; linear_combination (1 - σ * σ) * h
  · rw [hX]; linear_combination (4 * σ * σ) * h

theorem decode_spec (b : Bytes 32) :
    (∃ (e : Elem) (s : Fp) (Q : EPoint), Rfc9496.decode b = some e ∧ e = ⟨Q.x, Q.y, 1, Q.x * Q.y⟩ ∧ ¬ IsNeg s ∧
      DecodesTo s Q ∧ leVal b = s.val) ∨
    (Rfc9496.decode b = none ∧ ¬ ∃ (s : Fp) (Q : EPoint), ¬ IsNeg s ∧ DecodesTo s Q ∧ leVal b = s.val) := by
  unfold Rfc9496.decode
  by_cases hp : leVal b ≥ p
  · right
    rw [if_pos hp]
    refine ⟨rfl, ?_⟩
    rintro ⟨s, Q, -, -, h⟩
    have := ZMod.val_lt s
    omega
  rw [if_neg hp]
  have hval : leVal b = ((leVal b : ℕ) : Fp).val := by rw [ZMod.val_natCast, Nat.mod_eq_of_lt (by omega)]
  have huniq : ∀ s : Fp, leVal b = s.val → s = ((leVal b : ℕ) : Fp) := fun s h => by
    rw [h, ZMod.natCast_zmod_val]
  simp only
  generalize ((leVal b : ℕ) : Fp) = σ at *
  by_cases hn : IsNeg σ
  · right
    rw [if_pos ((IS_NEGATIVE_iff σ).2 hn)]
    refine ⟨rfl, ?_⟩
    rintro ⟨s, Q, h1, -, h2⟩
    rw [huniq s h2] at h1
    exact h1 hn
  rw [if_neg (fun h => hn ((IS_NEGATIVE_iff σ).1 h))]
  simp only [D_eq, CT_ABS_eq, IS_NEGATIVE_iff, Bool.or_eq_true, beq_iff_eq]
  obtain ⟨-, -, hz, hs⟩ := sqrtRatio_spec 1 ((-(d * (1 - σ ^ 2) ^ 2) - (1 + σ ^ 2) ^ 2) * (1 + σ ^ 2) ^ 2)
  generalize SQRT_RATIO_M1 1 ((-(d * (1 - σ ^ 2) ^ 2) - (1 + σ ^ 2) ^ 2) * (1 + σ ^ 2) ^ 2) = wr at *
  obtain ⟨w, isr⟩ := wr
  simp only at hz hs ⊢
  have hV : -(d * (1 - σ ^ 2) ^ 2) - (1 + σ ^ 2) ^ 2 = -(d * (1 - σ * σ) ^ 2 + (1 + σ * σ) ^ 2) := by ring
  have hV0 : -(d * (1 - σ ^ 2) ^ 2) - (1 + σ ^ 2) ^ 2 ≠ 0 := by rw [hV]; exact xden_ne _
  by_cases hw : w = false
  · right
    rw [if_pos (Or.inl (Or.inl hw))]
    refine ⟨rfl, ?_⟩
    rintro ⟨s, Q, -, hQ, h2⟩
    rw [huniq s h2] at hQ
    have h1k := one_add_sq_ne hQ.rel
    have hu2 : (1 + σ ^ 2) ^ 2 ≠ 0 := pow_ne_zero _ (by rw [pow_two]; exact h1k)
    rcases hs one_ne_zero (mul_ne_zero hV0 hu2) with h | h
    · rw [h.1] at hw; exact Bool.noConfusion hw
    · apply h.2.1
      have h3 := xden_square hQ.rel
      rw [← hV] at h3
      rw [one_div]
      exact (h3.mul ⟨1 + σ ^ 2, by ring⟩).inv
  · have hu2 : 1 + σ ^ 2 ≠ 0 := by
      intro h
      rw [h] at hz
      have := hz one_ne_zero (by ring)
      simp only [Prod.mk.injEq] at this
      exact hw this.1
    have h3 : (-(d * (1 - σ ^ 2) ^ 2) - (1 + σ ^ 2) ^ 2) * (1 + σ ^ 2) ^ 2 * (isr * isr) = 1 := by
      rcases hs one_ne_zero (mul_ne_zero hV0 (pow_ne_zero _ hu2)) with h | h
      · exact h.2.2
      · exact absurd h.1 hw
    obtain ⟨hy, hx⟩ := decode_square h3 _ _ rfl rfl
    generalize 2 * σ * (isr * (1 + σ ^ 2)) = X at *
    generalize (1 - σ ^ 2) * (isr * (isr * (1 + σ ^ 2)) * (-(d * (1 - σ ^ 2) ^ 2) - (1 + σ ^ 2) ^ 2)) = Y at *
    have h1k : 1 + σ * σ ≠ 0 := by rw [← pow_two]; exact hu2
    by_cases hret : (w = false ∨ IsNeg (absFp X * Y)) ∨ Y = 0
    · right
      rw [if_pos hret]
      refine ⟨rfl, ?_⟩
      rintro ⟨s, Q, -, hQ, h2⟩
      rw [huniq s h2] at hQ
      have hYQ : Y = Q.y := by
        apply mul_right_cancel₀ h1k
        rw [hy]; linear_combination -hQ.rel
      have hXQ : absFp X = Q.x := by
        apply eq_of_sq_eq (absFp_not_neg _) hQ.x_nonneg
        rw [absFp_sq]
        apply mul_right_cancel₀ (xden_ne (σ * σ))
        rw [hx, xden_rel hQ.rel]
      rw [hXQ, hYQ] at hret
      rcases hret with (h | h) | h
      · exact hw h
      · exact hQ.t_nonneg h
      · exact hQ.y_ne h
    · left
      rw [if_neg hret]
      simp only [not_or] at hret
      have hon : OnCurve (absFp X) Y := by
        unfold OnCurve
        have hx' : absFp X * absFp X = X * X := absFp_sq _
        apply mul_left_cancel₀ (mul_ne_zero (xden_ne (σ * σ)) (mul_ne_zero h1k h1k))
        generalize absFp X = x at *
        rw [← hx'] at hx
        linear_combination (-(1 + σ * σ) ^ 2 - d * (1 + σ * σ) ^ 2 * Y ^ 2 ) * hx +
          (-(d * (1 - σ * σ) ^ 2 + (1 + σ * σ) ^ 2) - d * 4 * σ * σ) * (Y * (1 + σ * σ) + (1 - σ * σ)) * hy
      exact ⟨_, σ, ⟨absFp X, Y, hon⟩, rfl, rfl, hn, ⟨absFp_not_neg _, hret.1.2, hret.2, by simp only; linear_combination hy⟩, hval⟩

theorem decodesTo_unique {s : Fp} {P Q : EPoint} (hP : DecodesTo s P) (hQ : DecodesTo s Q) : P = Q := by
  have h1k := one_add_sq_ne hP.rel
  apply EPoint.ext
  · apply eq_of_sq_eq hP.x_nonneg hQ.x_nonneg
    apply mul_right_cancel₀ (xden_ne (s * s))
    rw [xden_rel hP.rel, xden_rel hQ.rel]
  · apply mul_right_cancel₀ h1k
    linear_combination hP.rel - hQ.rel

theorem encode_spec {e : Elem} {P : EPoint} (he : e.Of P) (hP : P ∈ Even) : Enc P (encodeField e) := by
  obtain ⟨X, Y, Z, T⟩ := e
  have hp : Proj P X Y Z T := he
  unfold encodeField
  simp only [CT_ABS_eq, IS_NEGATIVE_iff, SQRT_M1_eq, INVSQRT_A_MINUS_D_eq]
  obtain ⟨-, -, hz, hs⟩ := sqrtRatio_spec 1 ((Z + Y) * (Z - Y) * (X * Y) ^ 2)
  generalize SQRT_RATIO_M1 1 ((Z + Y) * (Z - Y) * (X * Y) ^ 2) = wr at *
  obtain ⟨w, isr⟩ := wr
  simp only at hz hs ⊢
  by_cases h0 : P.x * P.y = 0
  · have hXY : X * Y = 0 := by
      rw [hp.x, hp.y]; linear_combination (Z * Z) * h0
    have his : isr = 0 := (Prod.mk.inj (hz one_ne_zero (by rw [hXY]; ring))).2
    have E0 : Enc P 0 := by
      have h : Enc 0 (0 : Fp) := by
        refine ⟨0, by rw [sub_self]; exact E4.zero_mem, not_isNeg_zero, ?_, ?_, not_isNeg_zero, ?_⟩
        · simpa using not_isNeg_zero
        · simp
        · simp
      exact (enc_congr (by rw [sub_zero]; exact mem_E4.2 (mul_eq_zero.1 h0))).2 h
    rw [his]
    simpa [absFp, not_isNeg_zero] using E0
  · have hisr : (X * Y) * (X * Y) * ((Z - Y) * (Z + Y)) ≠ 0 → IsSquare ((X * Y) * (X * Y) * ((Z - Y) * (Z + Y))) →
        (X * Y) * (X * Y) * ((Z - Y) * (Z + Y)) * (isr * isr) = 1 := by
      have e : (X * Y) * (X * Y) * ((Z - Y) * (Z + Y)) = (Z + Y) * (Z - Y) * (X * Y) ^ 2 := by ring
      rw [e]
      intro h1 h2
      rcases hs one_ne_zero h1 with h | h
      · exact h.2.2
      · exact absurd (by rw [one_div]; exact h2.inv) h.2.1
    obtain ⟨ez, en, eni⟩ := enc_algebra hp h0 hP hisr _ _ _ _ rfl rfl rfl rfl
    have hZ := hp.z
    have hx := left_ne_zero_of_mul h0
    have hy := right_ne_zero_of_mul h0
    have ez' : isr * ((Z + Y) * (Z - Y)) * (isr * (X * Y)) * T * Z = 1 := by linear_combination ez
    have hT : T * (isr * ((Z + Y) * (Z - Y)) * (isr * (X * Y)) * T) = P.x * P.y := by
      rw [show T * (isr * ((Z + Y) * (Z - Y)) * (isr * (X * Y)) * T) =
        (isr * ((Z + Y) * (Z - Y)) * (isr * (X * Y)) * T) * T by ring]
      conv_lhs => rw [hp.t]
      rw [hp.t] at ez'
      linear_combination (P.x * P.y) * ez'
    rw [hT]
    generalize isr * ((Z + Y) * (Z - Y)) * (isr * (X * Y)) * T = zi at *
    have fin : ∀ (Q : EPoint) (NX NY den : Fp), Q - P ∈ E4 → NX = Q.x * Z → NY = Q.y * Z →
        Q.x * Q.y ≠ 0 → ¬ IsNeg (Q.x * Q.y) →
        den * den * (Z * Z - NY * NY) = 1 →
        Enc P (absFp (den * (Z - (if IsNeg (NX * zi) then -NY else NY)))) := by
      intro Q NX NY den hQ hNX hNY hQ0 hQn hden
      have e1 : NX * zi = Q.x := by rw [hNX]; linear_combination Q.x * ez'
      rw [e1]
      have hQx := left_ne_zero_of_mul hQ0
      have hQy := right_ne_zero_of_mul hQ0
      by_cases hs : IsNeg Q.x
      · rw [if_pos hs]
        refine ⟨Q + torsM, ?_, ?_, ?_, ?_, absFp_not_neg _, ?_⟩
        · have : Q + torsM - P = (Q - P) + torsM := by abel
          rw [this]; exact E4.add_mem hQ torsM_mem
        · rw [add_torsM_x, isNeg_neg hQx]; exact not_not.2 hs
        · rw [add_torsM_x, add_torsM_y, neg_mul_neg]; exact hQn
        · rw [add_torsM_y]; exact neg_ne_zero.2 hQy
        · rw [absFp_sq, add_torsM_y]
          rw [hNY] at hden ⊢
          linear_combination (1 + Q.y) * hden
      · rw [if_neg hs]
        refine ⟨Q, hQ, hs, hQn, hQy, absFp_not_neg _, ?_⟩
        rw [absFp_sq]
        rw [hNY] at hden ⊢
        linear_combination (1 - Q.y) * hden
    by_cases hn : IsNeg (P.x * P.y)
    · simp only [if_pos hn]
      have e : (P + torsI).x * (P + torsI).y = -(P.x * P.y) := by
        rw [add_torsI_x, add_torsI_y]; linear_combination (P.x * P.y) * sqrtM1_sq
      refine fin (P + torsI) _ _ _ (by rw [add_sub_cancel_left]; exact torsI_mem) ?_ ?_ ?_ ?_ ?_
      · rw [add_torsI_x, hp.y]; ring
      · rw [add_torsI_y, hp.x]; ring
      · rw [e]; exact neg_ne_zero.2 h0
      · rw [e, isNeg_neg h0]; exact not_not.2 hn
      · linear_combination eni - (eC * (isr * ((Z - Y) * (Z + Y)))) ^ 2 * X ^ 2 * sqrtM1_sq
    · simp only [if_neg hn]
      exact fin P _ _ _ (by rw [sub_self]; exact E4.zero_mem) hp.x hp.y h0 hn en

theorem equals_spec {e f : Elem} {P Q : EPoint} (he : e.Of P) (hf : f.Of Q) : Rfc9496.equals e f = true ↔ P - Q ∈ E4 := by
  have hz := mul_ne_zero he.z hf.z
  unfold Rfc9496.equals
  rw [sub_mem_E4_iff, Bool.or_eq_true, beq_iff_eq, beq_iff_eq, he.x, he.y, hf.x, hf.y]
  apply or_congr
  · constructor
    · intro h; apply mul_right_cancel₀ hz; linear_combination h
    · intro h; linear_combination (e.z * f.z) * h
  · constructor
    · intro h; apply mul_right_cancel₀ hz; linear_combination -h
    · intro h; linear_combination -(e.z * f.z) * h

private theorem mul_div_cancel₀' {a b : Fp} (h : b ≠ 0) : b * (a / b) = a := by
  rw [mul_comm]; exact div_mul_cancel₀ a h

theorem map_spec (t : Fp) : ∃ P, Elligator t P ∧ (MAP t).Of P := by
  have hS := SQRT_AD_MINUS_ONE_eq
  have hS0 : SQRT_AD_MINUS_ONE ≠ 0 := left_ne_zero_of_mul (by rw [hS]; exact one_ne_zero)
  unfold MAP
  simp only [CT_ABS_eq, SQRT_M1_eq, D_eq, ONE_MINUS_D_SQ_eq, D_MINUS_ONE_SQ_eq]
  have hr : sqrtM1 * t ^ 2 = sqrtM1 * (t * t) := by rw [pow_two]
  have hN := ellN_ne t
  have hu : (sqrtM1 * t ^ 2 + 1) * (1 - d * d) = ellN (sqrtM1 * (t * t)) := by unfold ellN; ring
  have hv : (-1 - sqrtM1 * t ^ 2 * d) * (sqrtM1 * t ^ 2 + d) = ellD (sqrtM1 * (t * t)) := by unfold ellD; ring
  rw [hu, hv, hr]
  have main : ∀ s τ N : Fp, ElligatorJac t s τ → N = ellD (sqrtM1 * (t * t)) * τ → ellD (sqrtM1 * (t * t)) ≠ 0 →
      ∃ P, Elligator t P ∧ Elem.Of ⟨2 * s * ellD (sqrtM1 * (t * t)) * (1 + s ^ 2), (1 - s ^ 2) * (N * SQRT_AD_MINUS_ONE),
        N * SQRT_AD_MINUS_ONE * (1 + s ^ 2), 2 * s * ellD (sqrtM1 * (t * t)) * (1 - s ^ 2)⟩ P := by
    intro s τ N hj hN hD
    have hon := onJac_of_elligator hj
    obtain ⟨P, hP⟩ := ofJac_exists hon
    have h1 := jac_s_ne hon
    have h2 := jac_t_ne hon
    obtain ⟨hx, hy⟩ := hP
    refine ⟨P, ⟨s, τ, hj, hx, hy⟩, ⟨?_, ?_, ?_, ?_⟩⟩
    · rw [hN]
      exact mul_ne_zero (mul_ne_zero (mul_ne_zero hD h2) hS0) (by rw [pow_two]; exact h1)
    · simp only [hN]
      linear_combination (-SQRT_AD_MINUS_ONE * ellD (sqrtM1 * (t * t)) * (1 + s ^ 2)) * hx -
        2 * s * ellD (sqrtM1 * (t * t)) * (1 + s ^ 2) * hS
    · simp only [hN]
      linear_combination (-SQRT_AD_MINUS_ONE * ellD (sqrtM1 * (t * t)) * τ) * hy
    · simp only [hN]
      linear_combination (-SQRT_AD_MINUS_ONE * ellD (sqrtM1 * (t * t)) * P.y * (1 + s ^ 2)) * hx -
        2 * s * ellD (sqrtM1 * (t * t)) * (1 + s ^ 2) * P.y * hS - 2 * s * ellD (sqrtM1 * (t * t)) * hy
  obtain ⟨hnn, -, hz, hs⟩ := sqrtRatio_spec (ellN (sqrtM1 * (t * t))) (ellD (sqrtM1 * (t * t)))
  generalize SQRT_RATIO_M1 (ellN (sqrtM1 * (t * t))) (ellD (sqrtM1 * (t * t))) = wr at *
  obtain ⟨w, s⟩ := wr
  simp only at hnn hz hs ⊢
  by_cases hD : ellD (sqrtM1 * (t * t)) = 0
  · obtain ⟨rfl, rfl⟩ := Prod.mk.inj (hz hN hD)
    refine ⟨0, ⟨0, -1, Or.inl ⟨hD, rfl, rfl⟩, by simp, by simp⟩, ?_⟩
    rw [hD]
    have hr0 : sqrtM1 * (t * t) ≠ 0 := by
      intro h
      rw [h] at hD
      unfold ellD at hD
      apply d_ne_zero
      linear_combination -hD
    have hr1 : sqrtM1 * (t * t) - 1 ≠ 0 := by
      intro h
      have h' : sqrtM1 * (t * t) = 1 := by linear_combination h
      rw [h'] at hD
      unfold ellD at hD
      have : (1 + d) * (1 + d) = 0 := by linear_combination -hD
      exact onePlusD_ne (mul_self_eq_zero.1 this)
    have hd1 := pow_ne_zero 2 d_sub_one_ne_zero
    simp only [Bool.false_eq_true, if_false, zero_mul, absFp, if_neg not_isNeg_zero, neg_zero, mul_zero, sub_zero]
    refine ⟨?_, ?_, ?_, ?_⟩
    · simp only
      rw [zero_pow two_ne_zero, add_zero, mul_one]
      exact mul_ne_zero (mul_ne_zero (mul_ne_zero hr0 hr1) hd1) hS0
    · simp
    · simp
    · simp
  · rcases hs hN hD with ⟨rfl, h1, h2⟩ | ⟨rfl, h1, h2⟩
    · simp only [if_true]
      refine main s (-((sqrtM1 * (t * t) - 1) * (d - 1) ^ 2) / ellD (sqrtM1 * (t * t)) - 1) _
        (Or.inr (Or.inl ⟨hD, h1, hnn, ?_, rfl⟩)) ?_ hD
      · rw [eq_div_iff hD]; linear_combination h2
      · rw [mul_sub (ellD _), mul_div_cancel₀' hD]
        ring
    · simp only [Bool.false_eq_true, if_false]
      refine main (-absFp (s * t)) (sqrtM1 * (t * t) * ((sqrtM1 * (t * t) - 1) * (d - 1) ^ 2) / ellD (sqrtM1 * (t * t)) - 1) _
        (Or.inr (Or.inr ⟨hD, h1, by rw [neg_neg]; exact absFp_not_neg _, ?_, rfl⟩)) ?_ hD
      · rw [neg_mul_neg, absFp_sq, eq_div_iff hD]; linear_combination (t * t) * h2
      · rw [mul_sub (ellD _), mul_div_cancel₀' hD]
        ring

end Ristretto.Proofs.Rfc
