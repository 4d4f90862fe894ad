import Verif.Proofs.RistrettoCode

/-!
# Decoding
-/

namespace Ristretto.Proofs
open Model FieldOps LawfulField
set_option autoImplicit false

variable {F : Type} [LawfulField F]

theorem constantTimeCompare_spec {n : ℕ} (x y : Bytes n) : ExtPt.constantTimeCompare x y = flag (x = y) := rfl

theorem flag_beq_true {R : Prop} [Decidable R] (h : R) : (flag R == 0) = false := by
  rw [flag, if_pos h]; rfl

theorem flag_beq_false {R : Prop} [Decidable R] (h : ¬ R) : (flag R == 0) = true := by
  rw [flag, if_neg h]; rfl

/-- The representative `(x, y)` encoded by `s`. -/
structure DecodesTo (s : Fp) (Q : EPoint) : Prop where
  x_nonneg : ¬ IsNeg Q.x
  t_nonneg : ¬ IsNeg (Q.x * Q.y)
  y_ne : Q.y ≠ 0
  rel : s * s * (1 + Q.y) = 1 - Q.y

theorem xden_rel {Q : EPoint} {s : Fp} (h : s * s * (1 + Q.y) = 1 - Q.y) :
    Q.x * Q.x * -(d * (1 - s * s) ^ 2 + (1 + s * s) ^ 2) = 4 * (s * s) := by
  have hy : Q.y * (1 + s * s) = 1 - s * s := by linear_combination h
  have := x_sq_eq Q
  linear_combination -((1 + s * s) ^ 2) * this +
      (d * Q.x ^ 2 - 1) * (Q.y * (1 + s * s) + (1 - s * s)) * hy

theorem xden_ne (k : Fp) : -(d * (1 - k) ^ 2 + (1 + k) ^ 2) ≠ 0 := by
  intro h
  by_cases h1 : 1 - k = 0
  · have : k = 1 := by linear_combination -h1
    rw [this] at h
    exact four_ne_zero' (by linear_combination -h)
  · apply d_nonsquare
    refine ⟨sqrtM1 * (1 + k) / (1 - k), ?_⟩
    rw [div_mul_div_comm, eq_div_iff (mul_ne_zero h1 h1)]
    linear_combination -h - (1 + k) ^ 2 * sqrtM1_sq

theorem xden_square {Q : EPoint} {s : Fp} (h : s * s * (1 + Q.y) = 1 - Q.y) :
    IsSquare (-(d * (1 - s * s) ^ 2 + (1 + s * s) ^ 2)) := by
  have hx := xden_rel h
  by_cases h0 : Q.x = 0
  · have hs : s * s = 0 := by
      rw [h0] at hx
      have : 4 * (s * s) = 0 := by rw [← hx]; ring
      exact (mul_eq_zero.1 this).resolve_left four_ne_zero'
    rw [hs]
    refine ⟨eC⁻¹, ?_⟩
    rw [← mul_inv]
    apply eq_inv_of_mul_eq_one_left
    linear_combination eC_sq
  · refine ⟨2 * s / Q.x, ?_⟩
    rw [div_mul_div_comm, eq_div_iff (mul_ne_zero h0 h0)]
    linear_combination hx

/-- What `SetRistretto` writes, and when it accepts. -/
theorem setRistretto_spec (buf : Bytes 32) :
    (∃ (s : Fp) (Q : EPoint), ¬ IsNeg s ∧ DecodesTo s Q ∧ leVal buf = s.val ∧
      (ExtPt.setRistretto (F := F) buf).2 = true ∧ IsPt (ExtPt.setRistretto (F := F) buf).1 Q) ∨
    ((¬ ∃ (s : Fp) (Q : EPoint), ¬ IsNeg s ∧ DecodesTo s Q ∧ leVal buf = s.val) ∧
      (ExtPt.setRistretto (F := F) buf).2 = false ∧
      (ExtPt.setRistretto (F := F) buf).1 = ⟨feZero, feZero, feZero, feZero⟩) := by
  obtain ⟨s0, s0e⟩ := setBytes_law (F := F) buf
  obtain ⟨s1, s1e⟩ := touch_law s0
  obtain ⟨s2, s2e⟩ := square_law (bd16 s1)
  obtain ⟨yd, yde⟩ := add_law (bd_feOne (F := F)) s2 (by norm_num)
  obtain ⟨yn, yne⟩ := sub_law (bd_feOne (F := F)) (bd16 s2) (by norm_num)
  obtain ⟨yd2, yd2e⟩ := square_law (bd26 yd)
  obtain ⟨xd1, xd1e⟩ := square_law (bd36 yn)
  obtain ⟨xd2, xd2e⟩ := mul_law (bd16 xd1) (bd16 (bd_feD (F := F)))
  obtain ⟨xd3, xd3e⟩ := add_law xd2 yd2 (by norm_num)
  obtain ⟨xd4, xd4e⟩ := neg_law (bd26 xd3)
  obtain ⟨t, te⟩ := mul_law (bd26 xd4) (bd16 yd2)
  obtain ⟨ir, ir0, irs⟩ := invSqrt_spec (bd16 t)
  obtain ⟨c1, c1e⟩ := square_law (bd16 ir)
  obtain ⟨c2, c2e⟩ := mul_law (bd16 c1) (bd16 t)
  obtain ⟨xi, xie⟩ := mul_law (bd16 ir) (bd26 yd)
  obtain ⟨yi1, yi1e⟩ := mul_law (bd16 xi) (bd16 ir)
  obtain ⟨yi2, yi2e⟩ := mul_law (bd16 yi1) (bd26 xd4)
  obtain ⟨x1, x1e⟩ := mul_law (bd16 s1) (bd16 xi)
  obtain ⟨x2, x2e⟩ := add_law x1 x1 (by norm_num)
  obtain ⟨x3, x3e⟩ := touch_law x2
  obtain ⟨x4, x4e⟩ := neg_law (bd26 x3)
  obtain ⟨y1, y1e⟩ := mul_law (bd36 yn) (bd16 yi2)
  obtain ⟨y2, y2e⟩ := touch_law y1
  rw [eval_feOne] at yde yne
  rw [eval_feD] at xd2e
  have hs : ∃ σ : Fp, eval (setBytes buf : F) = σ := ⟨_, rfl⟩
  obtain ⟨σ, hσ⟩ := hs
  rw [hσ] at s1e
  rw [s1e] at s2e x1e
  rw [s2e] at yde yne
  rw [yde] at yd2e xie
  rw [yne] at xd1e y1e
  rw [xd1e] at xd2e
  rw [xd2e, yd2e] at xd3e
  rw [xd3e] at xd4e
  rw [xd4e, yd2e] at te
  rw [te] at ir0 irs c2e
  rw [c1e] at c2e
  unfold ExtPt.setRistretto ExtPt.setRistrettoI
  simp only
  have hbuf2 := bytes_law (bd112 s0)
  rw [hσ] at hbuf2
  have hneg : ((bytes (setBytes buf : F))[0] &&& 1).toUInt32.toInt32 = flag (IsNeg σ) := by
    have := isNegativeI_spec (bd112 s0)
    rw [hσ] at this
    exact this
  rw [constantTimeCompare_spec, one_sub_flag, hneg, flag_or]
  have hcanon : ¬ (¬ buf = bytes (setBytes buf : F)) ↔ leVal buf = σ.val := by
    rw [not_not, ← hbuf2]
    exact ⟨fun h => congrArg leVal h, fun h => leVal_inj h⟩
  -- name the intermediate values
  generalize (mul (mul (mul (invSqrt (mul (neg (add (mul (square (sub feOne (square (touch (setBytes buf : F))))) feD) (square (add feOne (square (touch (setBytes buf : F))))))) (square (add feOne (square (touch (setBytes buf : F))))))) (add feOne (square (touch (setBytes buf : F))))) (invSqrt (mul (neg (add (mul (square (sub feOne (square (touch (setBytes buf : F))))) feD) (square (add feOne (square (touch (setBytes buf : F))))))) (square (add feOne (square (touch (setBytes buf : F)))))))) (neg (add (mul (square (sub feOne (square (touch (setBytes buf : F))))) feD) (square (add feOne (square (touch (setBytes buf : F)))))))) = yDenInv at *
  generalize hY : mul (sub feOne (square (touch (setBytes buf : F)))) yDenInv = Y at *
  generalize hmX : (mul (touch (setBytes buf : F)) (mul (invSqrt (mul (neg (add (mul (square (sub feOne (square (touch (setBytes buf : F))))) feD) (square (add feOne (square (touch (setBytes buf : F))))))) (square (add feOne (square (touch (setBytes buf : F))))))) (add feOne (square (touch (setBytes buf : F)))))) = mX at *
  generalize hX : add mX mX = X at *
  generalize mul (square (invSqrt (mul (neg (add (mul (square (sub feOne (square (touch (setBytes buf : F))))) feD) (square (add feOne (square (touch (setBytes buf : F))))))) (square (add feOne (square (touch (setBytes buf : F)))))))) (mul (neg (add (mul (square (sub feOne (square (touch (setBytes buf : F))))) feD) (square (add feOne (square (touch (setBytes buf : F))))))) (square (add feOne (square (touch (setBytes buf : F)))))) = chk at *
  generalize eval (invSqrt (mul (neg (add (mul (square (sub feOne (square (touch (setBytes buf : F))))) feD) (square (add feOne (square (touch (setBytes buf : F))))))) (square (add feOne (square (touch (setBytes buf : F))))))) = isr at *
  rw [isOneI_spec (bd16 c2), one_sub_flag, flag_or, isNegativeI_spec (bd212 x2), condSet_flag]
  have hXabs : bd 2 (if IsNeg (eval X) then neg (touch X) else touch X) ∧
      eval (if IsNeg (eval X) then neg (touch X) else touch X) = absFp (eval X) := by
    unfold absFp
    split
    · exact ⟨x4, x4e.trans (by rw [x3e])⟩
    · exact ⟨x3, x3e⟩
  generalize (if IsNeg (eval X) then neg (touch X) else touch X) = X' at *
  obtain ⟨bX', eX'⟩ := hXabs
  obtain ⟨bT, eT⟩ := mul_law (bd26 bX') (bd16 y1)
  obtain ⟨bT', eT'⟩ := touch_law bT
  rw [isNegativeI_spec (bd112 bT), flag_or, isNonZeroI_spec (bd112 y1), one_sub_flag, flag_or]
  simp only [condSet_flag]
  have hxv : eval X = 2 * (σ * (isr * (1 + σ * σ))) := by rw [x2e, x1e, xie]; ring
  have hyv : eval Y = (1 - σ * σ) * (isr * (1 + σ * σ) * isr * -(d * (1 - σ * σ) ^ 2 + (1 + σ * σ) ^ 2)) := by
    rw [y1e, yi2e, yi1e, xie, xd4e]; ring
  have hchk : eval chk = isr * isr * (-(d * (1 - σ * σ) ^ 2 + (1 + σ * σ) ^ 2) * (1 + σ * σ) ^ 2) := by
    rw [c2e]; ring
  have hD : ∀ h : isr * isr * (-(d * (1 - σ * σ) ^ 2 + (1 + σ * σ) ^ 2) * (1 + σ * σ) ^ 2) = 1,
      eval Y * (1 + σ * σ) = 1 - σ * σ ∧
      eval X * eval X * -(d * (1 - σ * σ) ^ 2 + (1 + σ * σ) ^ 2) = 4 * (σ * σ) := by
    intro h
    constructor
    · rw [hyv]; linear_combination (1 - σ * σ) * h
    · rw [hxv]; linear_combination (4 * σ * σ) * h
  by_cases hret : ((((¬ buf = bytes (setBytes buf : F)) ∨ IsNeg σ) ∨ ¬ eval chk = 1) ∨ IsNeg (eval (mul X' Y))) ∨
      ¬ eval Y ≠ 0
  · -- rejected
    right
    refine ⟨?_, ?_, ?_⟩
    · rintro ⟨s, Q, hsn, hQ, hval⟩
      have hsσ : σ = s := by
        rw [← hσ, s0e, hval, Nat.mod_eq_of_lt (lt_trans (ZMod.val_lt s) (by norm_num [p])), ZMod.natCast_zmod_val]
      subst hsσ
      have h1k := one_add_sq_ne hQ.rel
      have hsq := xden_square hQ.rel
      have hne := xden_ne (σ * σ)
      have hchk1 : isr * isr * (-(d * (1 - σ * σ) ^ 2 + (1 + σ * σ) ^ 2) * (1 + σ * σ) ^ 2) = 1 := by
        have e : -((1 - σ * σ) * (1 - σ * σ) * d + (1 + σ * σ) * (1 + σ * σ)) * ((1 + σ * σ) * (1 + σ * σ)) =
            -(d * (1 - σ * σ) ^ 2 + (1 + σ * σ) ^ 2) * ((1 + σ * σ) * (1 + σ * σ)) := by ring
        rw [e] at irs
        have := irs (mul_ne_zero hne (mul_ne_zero h1k h1k)) (hsq.mul ⟨_, rfl⟩)
        linear_combination this
      obtain ⟨hy, hx⟩ := hD hchk1
      have hYQ : eval Y = Q.y := by
        apply mul_right_cancel₀ h1k
        rw [hy]; linear_combination -hQ.rel
      have hXQ : absFp (eval X) = Q.x := by
        apply eq_of_sq_eq (absFp_not_neg _) hQ.x_nonneg
        rw [absFp_sq]
        apply mul_right_cancel₀ hne
        rw [hx, xden_rel hQ.rel]
      rcases hret with (((h | h) | h) | h) | h
      · exact (hcanon.2 hval) h
      · exact hsn h
      · exact h (hchk.trans hchk1)
      · rw [eT, eX', hXQ, hYQ] at h; exact hQ.t_nonneg h
      · rw [hYQ] at h; exact h hQ.y_ne
    · exact flag_beq_true hret
    · rw [if_pos hret, if_pos hret, if_pos hret, if_pos hret]
  · left
    have hret' := hret
    simp only [not_or, not_not] at hret
    obtain ⟨⟨⟨⟨h1, h2⟩, h3⟩, h4⟩, h5⟩ := hret
    rw [hchk] at h3
    obtain ⟨hy, hx⟩ := hD h3
    have h1k : 1 + σ * σ ≠ 0 := by intro h; rw [h] at h3; simp at h3
    have hon : OnCurve (absFp (eval X)) (eval Y) := by
      unfold OnCurve
      have hx' : absFp (eval X) * absFp (eval X) = eval X * eval X := absFp_sq _
      apply mul_left_cancel₀ (mul_ne_zero (xden_ne (σ * σ)) (mul_ne_zero h1k h1k))
      generalize absFp (eval X) = x at *
      generalize eval Y = y at *
      rw [← hx'] at hx
      linear_combination (-(1 + σ * σ) ^ 2 - d * (1 + σ * σ) ^ 2 * y ^ 2 ) * hx +
        (-(d * (1 - σ * σ) ^ 2 + (1 + σ * σ) ^ 2) - d * 4 * σ * σ) * (y * (1 + σ * σ) + (1 - σ * σ)) * hy
    have hnT : ¬ IsNeg (absFp (eval X) * eval Y) := by rw [← eX', ← eT]; exact h4
    refine ⟨σ, ⟨absFp (eval X), eval Y, hon⟩, h2, ⟨absFp_not_neg _, hnT, h5, ?_⟩, ?_, ?_, ?_⟩
    · simp only; linear_combination hy
    · exact hcanon.1 (not_not.2 h1)
    · exact flag_beq_false hret'
    · rw [if_neg hret', if_neg hret', if_neg hret', if_neg hret']
      refine ⟨bX', bd12 y2, bd12 bd_feOne, bd12 bT', ?_⟩
      simp only [eX', y2e, eval_feOne, eT', eT]
      exact ⟨one_ne_zero, by ring, by ring, by ring⟩

end Ristretto.Proofs
