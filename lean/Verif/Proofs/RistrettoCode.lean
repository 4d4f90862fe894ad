import Verif.Proofs.Curve
import Verif.Proofs.RistrettoMath

/-!
# Equality, encoding and decoding of points
-/

namespace Ristretto.Proofs
open Model FieldOps LawfulField
set_option autoImplicit false

variable {F : Type} [LawfulField F]

theorem flag_or (a b : Prop) [Decidable a] [Decidable b] : flag a ||| flag b = flag (a ∨ b) := by
  unfold flag; by_cases ha : a <;> by_cases hb : b <;> simp [ha, hb]

theorem flag_and (a b : Prop) [Decidable a] [Decidable b] : flag a &&& flag b = flag (a ∧ b) := by
  unfold flag; by_cases ha : a <;> by_cases hb : b <;> simp [ha, hb]

theorem flag_eq_zero (a : Prop) [Decidable a] : flag a = 0 ↔ ¬ a := by
  unfold flag; by_cases ha : a <;> simp [ha]

theorem flag_eq_one (a : Prop) [Decidable a] : flag a = 1 ↔ a := by
  unfold flag; by_cases ha : a <;> simp [ha]

/-- Two points are in the same coset iff `x1 y2 = x2 y1` or `x1 x2 = y1 y2`. -/
theorem sub_mem_E4_iff (P Q : EPoint) : P - Q ∈ E4 ↔ P.x * Q.y = Q.x * P.y ∨ P.x * Q.x = P.y * Q.y := by
  rw [mem_E4, sub_eq_add_neg, EPoint.add_x, EPoint.add_y]
  have hX := EPoint.addX_mul P.on (-Q).on
  have hY := EPoint.addY_mul P.on (-Q).on
  have hp := EPoint.one_add_k_ne P.on (-Q).on
  have hm := EPoint.one_sub_k_ne P.on (-Q).on
  rw [EPoint.neg_x, EPoint.neg_y] at *
  constructor
  · rintro (h | h)
    · left; rw [h] at hX; linear_combination -hX
    · right; rw [h] at hY; linear_combination hY
  · rintro (h | h)
    · left
      have : EPoint.addX P.x P.y (-Q.x) Q.y * (1 + d * P.x * -Q.x * P.y * Q.y) = 0 := by
        rw [hX]; linear_combination h
      exact (mul_eq_zero.1 this).resolve_right hp
    · right
      have : EPoint.addY P.x P.y (-Q.x) Q.y * (1 - d * P.x * -Q.x * P.y * Q.y) = 0 := by
        rw [hY]; linear_combination -h
      exact (mul_eq_zero.1 this).resolve_right hm

theorem ristrettoEqualsI_spec {q r : ExtPt F} {P Q : EPoint} (hq : IsPt q P) (hr : IsPt r Q)
    [Decidable (P - Q ∈ E4)] : q.ristrettoEqualsI r = flag (P - Q ∈ E4) := by
  obtain ⟨a, ae⟩ := mul_law (bd26 hq.bX) (bd26 hr.bY)
  obtain ⟨b, be⟩ := mul_law (bd26 hr.bX) (bd26 hq.bY)
  obtain ⟨c, ce⟩ := mul_law (bd26 hq.bX) (bd26 hr.bX)
  obtain ⟨e, ee⟩ := mul_law (bd26 hq.bY) (bd26 hr.bY)
  unfold ExtPt.ristrettoEqualsI
  simp only [feEqualsI_spec (bd16 a) (bd16 b), feEqualsI_spec (bd16 c) (bd16 e), one_sub_flag, flag_and]
  apply flag_congr
  rw [ae, be, ce, ee, hq.proj.x, hq.proj.y, hr.proj.x, hr.proj.y, sub_mem_E4_iff, not_and_or, not_not, not_not]
  have hz := mul_ne_zero hq.proj.z hr.proj.z
  apply or_congr
  · constructor
    · intro h; apply mul_right_cancel₀ hz; linear_combination h
    · intro h; linear_combination (eval q.Z * eval r.Z) * h
  · constructor
    · intro h; apply mul_right_cancel₀ hz; linear_combination h
    · intro h; linear_combination (eval q.Z * eval r.Z) * h

/-- The algebra of `RistrettoInto`, with the two sign decisions as parameters. -/
theorem enc_algebra {P : EPoint} {X Y Z T isr : Fp} (hp : Proj P X Y Z T)
    (h0 : P.x * P.y ≠ 0) (hPe : P ∈ Even)
    (hisr : (X * Y) * (X * Y) * ((Z - Y) * (Z + Y)) ≠ 0 → IsSquare ((X * Y) * (X * Y) * ((Z - Y) * (Z + Y))) →
      (X * Y) * (X * Y) * ((Z - Y) * (Z + Y)) * (isr * isr) = 1)
    (u1 i1 i2 zInv : Fp) (hu1 : u1 = (Z - Y) * (Z + Y)) (hi1 : i1 = isr * u1) (hi2 : i2 = isr * (X * Y))
    (hzi : zInv = i1 * i2 * T) :
    zInv * Z = 1 ∧ i2 * i2 * (Z * Z - Y * Y) = 1 ∧ (eC * i1) * (eC * i1) * (Z * Z + X * X) = 1 := by
  have hx := left_ne_zero_of_mul h0
  have hy := right_ne_zero_of_mul h0
  obtain ⟨w, hw⟩ := one_sub_y_sq_of_even hPe
  have hk := key_rel P
  have w0 : w ≠ 0 := by
    rintro rfl
    apply h0
    have : (P.x * P.y) * (P.x * P.y) = 0 := by linear_combination (-(1 + P.x * P.x) * (eC * eC)) * hw - hk
    exact mul_self_eq_zero.1 this
  have hz := hp.z
  have hw' : (X * Y) * (X * Y) * ((Z - Y) * (Z + Y)) =
      (P.x * P.y * w * Z ^ 3) * (P.x * P.y * w * Z ^ 3) := by
    rw [hp.x, hp.y]
    linear_combination (-(P.x * P.y * P.x * P.y) * Z ^ 6) * hw
  have hne : (P.x * P.y * w * Z ^ 3) ≠ 0 := mul_ne_zero (mul_ne_zero h0 w0) (pow_ne_zero _ hz)
  have hI := hisr (by rw [hw']; exact mul_ne_zero hne hne) ⟨_, hw'⟩
  have e1 : zInv * Z = 1 := by
    rw [hzi, hi1, hi2, hu1]
    have : T * Z = X * Y := by rw [hp.t, hp.x, hp.y]; ring
    linear_combination hI + (isr * ((Z - Y) * (Z + Y)) * (isr * (X * Y))) * this
  have e2 : i2 * i2 * (Z * Z - Y * Y) = 1 := by
    rw [hi2]; linear_combination hI
  refine ⟨e1, e2, ?_⟩
  have hXY : X * Y ≠ 0 := by rw [hp.x, hp.y]; exact mul_ne_zero (mul_ne_zero hx hz) (mul_ne_zero hy hz)
  apply mul_left_cancel₀ (mul_ne_zero hXY hXY)
  have hk2 : (Z * Z - Y * Y) * (Z * Z + X * X) * (eC * eC) = X * Y * (X * Y) := by
    rw [hp.x, hp.y]; linear_combination Z ^ 4 * hk
  rw [hi1, hu1]
  linear_combination (eC * eC * (Z * Z - Y * Y) * (Z * Z + X * X)) * hI + hk2

/-- `RistrettoInto` writes the encoding of the coset. -/
theorem ristretto_spec {q : ExtPt F} {P : EPoint} (hq : IsPt q P) (hP : P ∈ Even) :
    ∃ s : Fp, Enc P s ∧ leVal q.ristretto = s.val := by
  obtain ⟨d1, d1e⟩ := add_law hq.bZ hq.bY (by norm_num)
  obtain ⟨u, ue⟩ := sub_law hq.bZ (bd26 hq.bY) (by norm_num)
  obtain ⟨u1, u1e⟩ := mul_law (bd46 u) (bd46 d1)
  obtain ⟨u2, u2e⟩ := mul_law (bd26 hq.bX) (bd26 hq.bY)
  obtain ⟨r1, r1e⟩ := square_law (bd16 u2)
  obtain ⟨r2, r2e⟩ := mul_law (bd16 r1) (bd16 u1)
  obtain ⟨isr, isr0, isrs⟩ := invSqrt_spec (bd16 r2)
  obtain ⟨i1, i1e⟩ := mul_law (bd16 isr) (bd16 u1)
  obtain ⟨i2, i2e⟩ := mul_law (bd16 isr) (bd16 u2)
  obtain ⟨z1, z1e⟩ := mul_law (bd16 i1) (bd16 i2)
  obtain ⟨z2, z2e⟩ := mul_law (bd16 z1) (bd26 hq.bT)
  obtain ⟨dd, dde⟩ := mul_law (bd16 z2) (bd26 hq.bT)
  obtain ⟨nx, nxe⟩ := mul_law (bd26 hq.bY) (bd16 (bd_feI (F := F)))
  obtain ⟨ny, nye⟩ := mul_law (bd26 hq.bX) (bd16 (bd_feI (F := F)))
  obtain ⟨dn, dne⟩ := mul_law (bd16 (bd_feInvSqrtMinusDMinusOne (F := F))) (bd16 i1)
  rw [eval_feI] at nxe nye
  rw [eval_feInvSqrtMinusDMinusOne] at dne
  rw [d1e, ue] at u1e
  rw [r1e, u1e, u2e] at r2e
  rw [r2e] at isr0 isrs
  -- the final part, common to all branches
  have tail : ∀ (nx ny den : F), bd 2 nx → bd 2 ny → bd 2 den →
      ∃ s : Fp, leVal (
        let d := mul nx (mul (mul (mul (invSqrt (mul (square (mul q.X q.Y)) (mul (sub q.Z q.Y) (add q.Z q.Y)))) (mul (sub q.Z q.Y) (add q.Z q.Y))) (mul (invSqrt (mul (square (mul q.X q.Y)) (mul (sub q.Z q.Y) (add q.Z q.Y)))) (mul q.X q.Y))) q.T)
        let b := isNegativeI d
        let d := FieldOps.neg ny
        let ny := FieldOps.condSet ny d b
        let s := FieldOps.sub q.Z ny
        let s := mul s den
        let b := isNegativeI s
        let s := touch s
        let d := FieldOps.neg s
        let s := FieldOps.condSet s d b
        bytes s) = s.val ∧ s = absFp ((eval q.Z - (if IsNeg (eval nx * eval (mul (mul (mul (invSqrt (mul (square (mul q.X q.Y)) (mul (sub q.Z q.Y) (add q.Z q.Y)))) (mul (sub q.Z q.Y) (add q.Z q.Y))) (mul (invSqrt (mul (square (mul q.X q.Y)) (mul (sub q.Z q.Y) (add q.Z q.Y)))) (mul q.X q.Y))) q.T)) then -eval ny else eval ny)) * eval den) := by
    intro nx ny den bnx bny bden
    generalize hzz : mul (mul (mul (invSqrt (mul (square (mul q.X q.Y)) (mul (sub q.Z q.Y) (add q.Z q.Y)))) (mul (sub q.Z q.Y) (add q.Z q.Y))) (mul (invSqrt (mul (square (mul q.X q.Y)) (mul (sub q.Z q.Y) (add q.Z q.Y)))) (mul q.X q.Y))) q.T = zI at *
    obtain ⟨a, ae⟩ := mul_law (bd26 bnx) (bd16 z2)
    obtain ⟨n, ne⟩ := neg_law (bd26 bny)
    simp only [isNegativeI_spec (bd112 a), condSet_flag, ae]
    have hny : bd 2 (if IsNeg (eval nx * eval zI) then FieldOps.neg ny else ny) ∧
        eval (if IsNeg (eval nx * eval zI) then FieldOps.neg ny else ny) =
        if IsNeg (eval nx * eval zI) then -eval ny else eval ny := by
      split
      · exact ⟨n, ne⟩
      · exact ⟨bny, rfl⟩
    generalize (if IsNeg (eval nx * eval zI) then FieldOps.neg ny else ny) = ny' at *
    obtain ⟨b1, e1⟩ := hny
    rw [← e1]
    obtain ⟨s1, s1e⟩ := sub_law hq.bZ (bd26 b1) (by norm_num)
    obtain ⟨s2, s2e⟩ := mul_law (bd46 s1) (bd26 bden)
    obtain ⟨s3, s3e⟩ := touch_law s2
    obtain ⟨s4, s4e⟩ := neg_law (bd16 s3)
    refine ⟨_, ?_, rfl⟩
    rw [isNegativeI_spec (bd112 s2), condSet_flag, s2e, s1e, absFp]
    split
    · rw [bytes_law (bd212 s4), s4e, s3e, s2e, s1e]
    · rw [bytes_law (bd112 s3), s3e, s2e, s1e]
  unfold ExtPt.ristretto
  simp only
  rw [isNegativeI_spec (bd112 dd), one_sub_flag]
  simp only [condSet_flag]
  by_cases h0 : P.x * P.y = 0
  · -- the identity
    have hXY : eval q.X * eval q.Y = 0 := by
      rw [hq.proj.x, hq.proj.y]; linear_combination (eval q.Z * eval q.Z) * h0
    have his : eval (invSqrt (mul (square (mul q.X q.Y)) (mul (sub q.Z q.Y) (add q.Z q.Y)))) = 0 :=
      isr0 (by rw [hXY]; ring)
    have E0 : Enc P 0 := by
      have h : Enc 0 (0 : Fp) := by
        refine ⟨0, by rw [sub_self]; exact E4.zero_mem, not_isNeg_zero, ?_, ?_, not_isNeg_zero, ?_⟩
        · simpa using not_isNeg_zero
        · simp
        · simp
      exact (enc_congr (by rw [sub_zero]; exact mem_E4.2 (mul_eq_zero.1 h0))).2 h
    refine ⟨0, E0, ?_⟩
    split
    · obtain ⟨s, h1, h2⟩ := tail q.X q.Y _ hq.bX hq.bY (bd12 i2)
      rw [h1, h2, i2e, his]; simp [absFp, not_isNeg_zero]
    · obtain ⟨s, h1, h2⟩ := tail _ _ _ (bd12 nx) (bd12 ny) (bd12 dn)
      rw [h1, h2, dne, i1e, his]; simp [absFp, not_isNeg_zero]
  · obtain ⟨ez, en, eni⟩ := enc_algebra hq.proj h0 hP isrs _ _ _ _ rfl
      (i1e.trans (by rw [u1e])) (i2e.trans (by rw [u2e])) (z2e.trans (by rw [z1e]))
    have hZ := hq.proj.z
    have hx := left_ne_zero_of_mul h0
    have hy := right_ne_zero_of_mul h0
    rw [dde]
    have hT : eval (mul (mul (mul (invSqrt (mul (square (mul q.X q.Y)) (mul (sub q.Z q.Y) (add q.Z q.Y)))) (mul (sub q.Z q.Y) (add q.Z q.Y))) (mul (invSqrt (mul (square (mul q.X q.Y)) (mul (sub q.Z q.Y) (add q.Z q.Y)))) (mul q.X q.Y))) q.T) * eval q.T = P.x * P.y := by
      rw [hq.proj.t]; linear_combination (P.x * P.y) * ez
    rw [hT]
    -- final algebra
    have fin : ∀ (Q : EPoint) (NX NY den : Fp), Q - P ∈ E4 → NX = Q.x * eval q.Z → NY = Q.y * eval q.Z →
        Q.x * Q.y ≠ 0 → ¬ IsNeg (Q.x * Q.y) →
        den * den * (eval q.Z * eval q.Z - NY * NY) = 1 →
        ∀ zi : Fp, zi * eval q.Z = 1 →
        Enc P (absFp ((eval q.Z - (if IsNeg (NX * zi) then -NY else NY)) * den)) := by
      intro Q NX NY den hQ hNX hNY hQ0 hQn hden zi hzi
      have e1 : NX * zi = Q.x := by rw [hNX]; linear_combination Q.x * hzi
      rw [e1]
      have hQx := left_ne_zero_of_mul hQ0
      have hQy := right_ne_zero_of_mul hQ0
      by_cases hs : IsNeg Q.x
      · rw [if_pos hs]
        refine ⟨Q + torsM, ?_, ?_, ?_, ?_, absFp_not_neg _, ?_⟩
        · have : Q + torsM - P = (Q - P) + torsM := by abel
          rw [this]; exact E4.add_mem hQ torsM_mem
        · rw [add_torsM_x, isNeg_neg hQx]; exact not_not.2 hs
        · rw [add_torsM_x, add_torsM_y, neg_mul_neg]; exact hQn
        · rw [add_torsM_y]; exact neg_ne_zero.2 hQy
        · rw [absFp_sq, add_torsM_y]
          rw [hNY] at hden ⊢
          linear_combination (1 + Q.y) * hden
      · rw [if_neg hs]
        refine ⟨Q, hQ, hs, hQn, hQy, absFp_not_neg _, ?_⟩
        rw [absFp_sq]
        rw [hNY] at hden ⊢
        linear_combination (1 - Q.y) * hden
    by_cases hn : IsNeg (P.x * P.y)
    · rw [if_neg (not_not.2 hn), if_neg (not_not.2 hn), if_neg (not_not.2 hn)]
      obtain ⟨s, h1, h2⟩ := tail _ _ _ (bd12 nx) (bd12 ny) (bd12 dn)
      refine ⟨s, ?_, h1⟩
      rw [h2, nxe, nye]
      have e : (P + torsI).x * (P + torsI).y = -(P.x * P.y) := by
        rw [add_torsI_x, add_torsI_y]; linear_combination (P.x * P.y) * sqrtM1_sq
      refine fin (P + torsI) _ _ _ (by rw [add_sub_cancel_left]; exact torsI_mem) ?_ ?_ ?_ ?_ ?_ _ ez
      · rw [add_torsI_x, hq.proj.y]; ring
      · rw [add_torsI_y, hq.proj.x]; ring
      · rw [e]; exact neg_ne_zero.2 h0
      · rw [e, isNeg_neg h0]; exact not_not.2 hn
      · rw [dne]; linear_combination eni - (eC * eval (mul (invSqrt (mul (square (mul q.X q.Y)) (mul (sub q.Z q.Y) (add q.Z q.Y)))) (mul (sub q.Z q.Y) (add q.Z q.Y)))) ^ 2 * (eval q.X) ^ 2 * sqrtM1_sq
    · rw [if_pos hn, if_pos hn, if_pos hn]
      obtain ⟨s, h1, h2⟩ := tail q.X q.Y _ hq.bX hq.bY (bd12 i2)
      refine ⟨s, ?_, h1⟩
      rw [h2]
      exact fin P _ _ _ (by rw [sub_self]; exact E4.zero_mem) hq.proj.x hq.proj.y h0 hn en _ ez

end Ristretto.Proofs
