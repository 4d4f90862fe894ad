import Verif.Proofs.EllInvMath
import Verif.Proofs.Elligator

/-!
# `elligator2Inverse` and `RistrettoElligator2Inverse`
-/

namespace Ristretto.Proofs
open Model FieldOps LawfulField
set_option autoImplicit false

variable {F : Type} [LawfulField F]

theorem isNeg_neg_sqrtID : ¬ IsNeg sqrtID := by
  unfold IsNeg sqrtID
  rw [ZMod.val_natCast]
  decide +kernel

/-- What `elligator2Inverse` has to return on the pair `(s, t)`. -/
structure EllInvResult (s t : Fp) (f : F) (ret : Int32) : Prop where
  bits : ret = 0 ∨ ret = 1
  bound : bd 6 f
  some : ret = 1 → ¬ IsNeg (eval f) ∧ (s ≠ 0 → ElligatorJac (eval f) s t) ∧
    (s = 0 → (t = 1 → eval f = sqrtID) ∧ (t = -1 → eval f = 0))
  none : ret = 0 → s ≠ 0 ∧ ∀ r0, ¬ ElligatorJac r0 s t

theorem bd_feZero6 : bd 6 (feZero : F) := bd16 bd_feZero

theorem elligator2Inverse_spec {q : JacPt F} {s t : Fp} (h : IsJac q s t) (hj : OnJac s t) :
    EllInvResult s t (elligator2Inverse q).1 (elligator2Inverse q).2 := by
  obtain ⟨t1, t1e⟩ := touch_law h.bS
  obtain ⟨a1, a1e⟩ := add_law h.bT (bd_feOne (F := F)) (by norm_num)
  obtain ⟨a2, a2e⟩ := mul_law (bd46 a1) (bd16 (bd_feDp1OverDm1 (F := F)))
  obtain ⟨a3, a3e⟩ := square_law (bd16 a2)
  obtain ⟨s2, s2e⟩ := square_law (bd26 t1)
  obtain ⟨s4, s4e⟩ := square_law (bd16 s2)
  obtain ⟨v, ve⟩ := sub_law s4 (bd16 a3) (by norm_num)
  obtain ⟨y, ys⟩ := invSqrtI_spec (bd36 v)
  obtain ⟨n, ne⟩ := neg_law (bd16 s2)
  have hDp : eval (feDp1OverDm1 : F) = (d + 1) / (d - 1) := by
    rw [eq_div_iff d_sub_one_ne_zero]; exact eval_feDp1OverDm1
  rw [t1e, h.hS] at s2e
  rw [a1e, h.hT, eval_feOne, hDp] at a2e
  have a2e' : eval (mul (add q.T feOne) feDp1OverDm1 : F) = ellA t := a2e
  rw [a2e'] at a3e
  rw [s2e] at s4e ne
  rw [s4e, a3e] at ve
  rw [ve] at ys
  unfold elligator2Inverse
  simp only
  rw [isNonZeroI_spec (bd212 h.bS), feEqualsI_spec (bd36 h.bT) (bd16 (bd_feOne (F := F))),
    condSet_flag, one_sub_flag, isNegativeI_spec (bd212 t1), condSet_flag, h.hS, h.hT, t1e, h.hS,
    eval_feOne]
  generalize (mul (add q.T feOne) feDp1OverDm1 : F) = A at *
  generalize (square (touch q.S) : F) = S2 at *
  generalize invSqrtI (sub (square S2) (square A)) = yb at *
  -- the candidate
  have hx : bd 6 (feAbsSelf (mul (add A (if IsNeg s then neg S2 else S2)) yb.1)) ∧
      eval (feAbsSelf (mul (add A (if IsNeg s then neg S2 else S2)) yb.1)) =
        absFp ((ellA t + (if IsNeg s then -(s * s) else s * s)) * eval yb.1) := by
    by_cases hn : IsNeg s
    · rw [if_pos hn, if_pos hn]
      obtain ⟨u1, u2⟩ := add_law a2 n (by norm_num)
      obtain ⟨u3, u4⟩ := mul_law (bd36 u1) (bd16 y)
      obtain ⟨u5, u6⟩ := feAbsSelf_spec (bd16 u3)
      exact ⟨u5, by rw [u6, u4, u2, a2e', ne]⟩
    · rw [if_neg hn, if_neg hn]
      obtain ⟨u1, u2⟩ := add_law a2 s2 (by norm_num)
      obtain ⟨u3, u4⟩ := mul_law (bd26 u1) (bd16 y)
      obtain ⟨u5, u6⟩ := feAbsSelf_spec (bd16 u3)
      exact ⟨u5, by rw [u6, u4, u2, a2e', s2e]⟩
  generalize feAbsSelf (mul (add A (if IsNeg s then neg S2 else S2)) yb.1) = X at *
  obtain ⟨hx1, hx2⟩ := hx
  have hbq : yb.2 = 1 ∨ yb.2 = 0 := by
    rcases ys with ⟨h, -⟩ | ⟨h, -⟩ | ⟨h, -⟩
    · exact Or.inl h
    · exact Or.inr h
    · exact Or.inr h
  by_cases h0 : s = 0
  · -- s = 0: done from the start
    have e1 : flag (¬ (s ≠ 0)) = 1 := by rw [flag, if_pos (not_not.2 h0)]
    rw [e1]
    have e2 : ∀ b : Int32, b = 1 ∨ b = 0 → (1 : Int32) ||| b = 1 := by
      rintro b (rfl | rfl) <;> rfl
    have e3 : (1 : Int32) - 1 = 0 := rfl
    rw [e2 _ hbq, e2 (1 - yb.2) (by rcases hbq with h | h <;> rw [h]; exacts [Or.inr rfl, Or.inl rfl]),
      e3, LawfulField.condSet_zero]
    refine ⟨Or.inr rfl, ?_, fun _ => ⟨?_, fun h => absurd h0 h, fun _ => ⟨fun ht => ?_, fun ht => ?_⟩⟩,
      fun h => absurd h (by decide)⟩
    · split
      · exact bd26 bd_feSqrtID
      · exact bd16 bd_feZero
    · split
      · rw [eval_feSqrtID]; exact isNeg_neg_sqrtID
      · rw [eval_feZero]; exact not_isNeg_zero
    · rw [if_pos ht, eval_feSqrtID]
    · rw [if_neg (by rw [ht]; exact one_ne_neg_one.symm), eval_feZero]
  · have e1 : flag (¬ (s ≠ 0)) = 0 := by rw [flag, if_neg (not_not.2 h0)]
    rw [e1]
    have e2 : ∀ b : Int32, b = 1 ∨ b = 0 → (0 : Int32) ||| b = b := by
      rintro b (rfl | rfl) <;> rfl
    rw [e2 _ hbq, e2 (1 - yb.2) (by rcases hbq with h | h <;> rw [h]; exacts [Or.inr rfl, Or.inl rfl])]
    obtain ⟨hm, hp⟩ := s4_sub_a2_ne hj h0
    have hvne : s * s * (s * s) - ellA t * ellA t ≠ 0 := by
      have : s * s * (s * s) - ellA t * ellA t = (s * s - ellA t) * (s * s + ellA t) := by ring
      rw [this]; exact mul_ne_zero hm hp
    rcases ys with ⟨hb, hy⟩ | ⟨hb, -, hy⟩ | ⟨-, hz, -⟩
    · -- square: no preimage
      rw [hb]
      have e3 : (1 : Int32) - 1 = 0 := rfl
      rw [e3, LawfulField.condSet_zero]
      refine ⟨Or.inl rfl, ?_, fun h => absurd h (by decide), fun _ => ⟨h0, fun r0 hr => ?_⟩⟩
      · split
        · exact bd26 bd_feSqrtID
        · exact bd16 bd_feZero
      · apply sqrtM1_nonsquare
        by_cases hn : IsNeg s
        · rw [elligatorJac_neg_iff hj h0 hn] at hr
          have hr0 : r0 ≠ 0 := by
            rintro rfl; apply hm; rw [← hr]; ring
          refine ⟨(s * s - ellA t) * eval yb.1 / r0, ?_⟩
          rw [div_mul_div_comm, eq_div_iff (mul_ne_zero hr0 hr0)]
          linear_combination (eval yb.1 ^ 2 * (s * s - ellA t)) * hr - (sqrtM1 * (r0 * r0)) * hy
        · rw [elligatorJac_pos_iff hj h0 hn] at hr
          have hr0 : r0 ≠ 0 := by
            rintro rfl; apply hp; rw [← hr]; ring
          refine ⟨(s * s + ellA t) * eval yb.1 / r0, ?_⟩
          rw [div_mul_div_comm, eq_div_iff (mul_ne_zero hr0 hr0)]
          linear_combination (eval yb.1 ^ 2 * (s * s + ellA t)) * hr - (sqrtM1 * (r0 * r0)) * hy
    · rw [hb]
      have e3 : (1 : Int32) - 0 = 1 := rfl
      rw [e3, LawfulField.condSet_one]
      refine ⟨Or.inr rfl, hx1, fun _ => ⟨by rw [hx2]; exact absFp_not_neg _, fun _ => ?_,
        fun h => absurd h h0⟩, fun h => absurd h (by decide)⟩
      by_cases hn : IsNeg s
      · rw [if_pos hn] at hx2
        rw [elligatorJac_neg_iff hj h0 hn, hx2, absFp_sq]
        linear_combination (sqrtM1 * (s * s - ellA t)) * hy - (s * s - ellA t) * sqrtM1_sq
      · rw [if_neg hn] at hx2
        rw [elligatorJac_pos_iff hj h0 hn, hx2, absFp_sq]
        linear_combination (sqrtM1 * (s * s + ellA t)) * hy - (s * s + ellA t) * sqrtM1_sq
    · exact absurd hz hvne

theorem dual_isJac {q : JacPt F} {s t : Fp} (h : IsJac q s t) :
    IsJac (elligator2InverseRecv q).dual (-s) (-t) := by
  obtain ⟨a, ae⟩ := touch_law h.bS
  obtain ⟨b, be⟩ := touch_law a
  obtain ⟨c, ce⟩ := neg_law (bd26 b)
  obtain ⟨e, ee⟩ := neg_law (bd36 h.bT)
  exact ⟨c, bd_mono (by norm_num) e, by
    show eval (neg (touch (touch q.S))) = _
    rw [ce, be, ae, h.hS], by
    show eval (neg q.T) = _
    rw [ee, h.hT]⟩

/-- The four points of the quartic computed for a point with `x y ≠ 0`: one above each member
of its class. -/
theorem toJacobi_regular {q : ExtPt F} {P : EPoint} (h : IsPt q P) (hP : P ∈ Even)
    (h0 : P.x * P.y ≠ 0) : ∃ s0 t0 s1 t1 s2 t2 s3 t3 : Fp,
      IsJac (toJacobiQuarticRistretto q).1 s0 t0 ∧ OfJac s0 t0 P ∧
      IsJac (toJacobiQuarticRistretto q).2.1 s1 t1 ∧ OfJac s1 t1 (P + torsM) ∧
      IsJac (toJacobiQuarticRistretto q).2.2.1 s2 t2 ∧ OfJac s2 t2 (P + -torsI) ∧
      IsJac (toJacobiQuarticRistretto q).2.2.2 s3 t3 ∧ OfJac s3 t3 (P + torsI) := by
  obtain ⟨pz, px, py, -⟩ := h.proj
  have hx := left_ne_zero_of_mul h0
  have hy := right_ne_zero_of_mul h0
  obtain ⟨X2, X2e⟩ := square_law (bd26 h.bX)
  obtain ⟨Y2, Y2e⟩ := square_law (bd26 h.bY)
  obtain ⟨Y4, Y4e⟩ := square_law (bd16 Y2)
  obtain ⟨Z2, Z2e⟩ := square_law (bd26 h.bZ)
  obtain ⟨zm, zme⟩ := sub_law h.bZ (bd26 h.bY) (by norm_num)
  obtain ⟨zp, zpe⟩ := add_law h.bZ h.bY (by norm_num)
  obtain ⟨zy, zye⟩ := sub_law Z2 (bd16 Y2) (by norm_num)
  obtain ⟨g1, g1e⟩ := mul_law (bd16 Y4) (bd16 X2)
  obtain ⟨g2, g2e⟩ := mul_law (bd16 g1) (bd36 zy)
  obtain ⟨g, -, gs⟩ := invSqrt_spec (bd16 g2)
  obtain ⟨den, dene⟩ := mul_law (bd16 g) (bd16 Y2)
  obtain ⟨sx, sxe⟩ := mul_law (bd16 den) (bd46 zm)
  obtain ⟨spx, spxe⟩ := mul_law (bd16 den) (bd46 zp)
  obtain ⟨s0, s0e⟩ := mul_law (bd16 sx) (bd26 h.bX)
  obtain ⟨s1', s1e'⟩ := mul_law (bd16 spx) (bd26 h.bX)
  obtain ⟨s1, s1e⟩ := neg_law (bd16 s1')
  obtain ⟨tm, tme⟩ := mul_law (bd16 (bd_feDoubleInvSqrtMinusDMinusOne (F := F))) (bd26 h.bZ)
  obtain ⟨t0, t0e⟩ := mul_law (bd16 tm) (bd16 sx)
  obtain ⟨t1, t1e⟩ := mul_law (bd16 tm) (bd16 spx)
  obtain ⟨dn1, dn1e⟩ := neg_law (bd36 zy)
  obtain ⟨dn2, dn2e⟩ := mul_law (bd26 dn1) (bd16 (bd_feInvSqrt1pD (F := F)))
  obtain ⟨dn3, dn3e⟩ := mul_law (bd16 dn2) (bd16 g)
  obtain ⟨iz, ize⟩ := mul_law (bd16 (bd_feI (F := F))) (bd26 h.bZ)
  obtain ⟨im, ime⟩ := sub_law iz (bd26 h.bX) (by norm_num)
  obtain ⟨ip, ipe⟩ := add_law iz h.bX (by norm_num)
  obtain ⟨sy, sye⟩ := mul_law (bd16 dn3) (bd36 im)
  obtain ⟨spy, spye⟩ := mul_law (bd16 dn3) (bd36 ip)
  obtain ⟨s2, s2e⟩ := mul_law (bd16 sy) (bd26 h.bY)
  obtain ⟨s3', s3e'⟩ := mul_law (bd16 spy) (bd26 h.bY)
  obtain ⟨s3, s3e⟩ := neg_law (bd16 s3')
  obtain ⟨ti, tie⟩ := mul_law (bd16 (bd_feDoubleInvSqrtMinusDMinusOne (F := F))) (bd16 iz)
  obtain ⟨t2, t2e⟩ := mul_law (bd16 ti) (bd16 sy)
  obtain ⟨t3, t3e⟩ := mul_law (bd16 ti) (bd16 spy)
  have hflag : (1 - (isNonZeroI q.X &&& isNonZeroI q.Y) : Int32) = 0 := by
    rw [isNonZeroI_spec (bd212 h.bX), isNonZeroI_spec (bd212 h.bY), flag, flag, if_pos, if_pos]
    · rfl
    · rw [py]; exact mul_ne_zero hy pz
    · rw [px]; exact mul_ne_zero hx pz
  rw [Y2e] at Y4e zye dene
  rw [Z2e] at zye
  rw [Y4e, X2e] at g1e
  rw [g1e, zye] at g2e
  rw [g2e] at gs
  rw [dene, zme] at sxe
  rw [dene, zpe] at spxe
  rw [sxe] at s0e t0e
  rw [spxe] at s1e' t1e
  rw [s1e'] at s1e
  rw [eval_feDoubleInvSqrtMinusDMinusOne] at tme tie
  rw [tme] at t0e t1e
  rw [zye] at dn1e
  rw [dn1e, eval_feInvSqrt1pD] at dn2e
  rw [dn2e] at dn3e
  rw [eval_feI] at ize
  rw [ize] at ime ipe tie
  rw [dn3e, ime] at sye
  rw [dn3e, ipe] at spye
  rw [sye] at s2e t2e
  rw [spye] at s3e' t3e
  rw [s3e'] at s3e
  rw [tie] at t2e t3e
  unfold toJacobiQuarticRistretto
  simp only
  rw [hflag]
  simp only [LawfulField.condSet_zero]
  generalize eval (invSqrt (mul (mul (square (square q.Y)) (square q.X))
    (sub (square q.Z) (square q.Y)) : F)) = γ at *
  rw [px, py] at *
  generalize eval q.Z = z at *
  obtain ⟨w, hw⟩ := one_sub_y_sq_of_even hP
  have hk := key_rel P
  have hi := sqrtM1_sq
  have ec := eC_ne_zero
  have hwne : 1 - P.y * P.y ≠ 0 := by
    intro h; rw [h, zero_mul, zero_mul] at hk
    exact mul_ne_zero (mul_ne_zero hx hx) (mul_ne_zero hy hy) hk.symm
  have hgne : P.y * z * (P.y * z) * (P.y * z * (P.y * z)) * (P.x * z * (P.x * z)) *
      (z * z - P.y * z * (P.y * z)) = (P.y * P.y * P.x * (z * z) * (z * z) * w) * (P.y * P.y * P.x * (z * z) * (z * z) * w) := by
    linear_combination (-(P.y ^ 4 * P.x ^ 2 * z ^ 8)) * hw
  have hg := gs (by
    rw [show z * z - P.y * z * (P.y * z) = z * z * (1 - P.y * P.y) by ring]
    exact mul_ne_zero (mul_ne_zero (mul_ne_zero (mul_ne_zero (mul_ne_zero hy pz) (mul_ne_zero hy pz))
      (mul_ne_zero (mul_ne_zero hy pz) (mul_ne_zero hy pz)))
      (mul_ne_zero (mul_ne_zero hx pz) (mul_ne_zero hx pz))) (mul_ne_zero (mul_ne_zero pz pz) hwne))
    ⟨_, hgne⟩
  clear gs hgne hw hP
  have hxy : P.x * P.x * (P.y * P.y) ≠ 0 := mul_ne_zero (mul_ne_zero hx hx) (mul_ne_zero hy hy)
  refine ⟨_, _, _, _, _, _, _, _, ⟨bd12 s0, bd_mono (by norm_num) t0, s0e, t0e⟩, ⟨?_, ?_⟩,
    ⟨s1, bd_mono (by norm_num) t1, s1e, t1e⟩, ⟨?_, ?_⟩,
    ⟨bd12 s2, bd_mono (by norm_num) t2, s2e, t2e⟩, ⟨?_, ?_⟩,
    ⟨s3, bd_mono (by norm_num) t3, s3e, t3e⟩, ⟨?_, ?_⟩⟩
  · ring
  · linear_combination (1 - P.y) * hg
  · rw [add_torsM_x]; ring
  · rw [add_torsM_y]; linear_combination (1 + P.y) * hg
  · rw [add_neg_torsI_x]
    linear_combination (-2 * eC * P.y * z * ((-(z * z - P.y * z * (P.y * z)) * (-sqrtM1 * eC) * γ) * (sqrtM1 * z - P.x * z))) * hi
  · rw [add_neg_torsI_y]
    apply mul_left_cancel₀ hxy
    have hs : P.x * P.x * (P.y * P.y) * (((-(z * z - P.y * z * (P.y * z)) * (-sqrtM1 * eC) * γ) * (sqrtM1 * z - P.x * z) * (P.y * z)) *
        ((-(z * z - P.y * z * (P.y * z)) * (-sqrtM1 * eC) * γ) * (sqrtM1 * z - P.x * z) * (P.y * z))) =
        -(eC * eC) * (1 - P.y * P.y) * (sqrtM1 - P.x) ^ 2 := by
      linear_combination (sqrtM1 ^ 2 * eC ^ 2 * (1 - P.y ^ 2) * (sqrtM1 - P.x) ^ 2) * hg +
        (eC ^ 2 * (1 - P.y ^ 2) * (sqrtM1 - P.x) ^ 2) * hi
    linear_combination (1 - sqrtM1 * P.x) * hs + (1 + sqrtM1 * P.x) * hk +
      (eC ^ 2 * (1 - P.y ^ 2) * (-1 + sqrtM1 * P.x - 2 * P.x ^ 2)) * hi
  · rw [add_torsI_x]
    linear_combination (2 * eC * P.y * z * ((-(z * z - P.y * z * (P.y * z)) * (-sqrtM1 * eC) * γ) * (sqrtM1 * z + P.x * z))) * hi
  · rw [add_torsI_y]
    apply mul_left_cancel₀ hxy
    have hs : P.x * P.x * (P.y * P.y) * (((-(z * z - P.y * z * (P.y * z)) * (-sqrtM1 * eC) * γ) * (sqrtM1 * z + P.x * z) * (P.y * z)) *
        ((-(z * z - P.y * z * (P.y * z)) * (-sqrtM1 * eC) * γ) * (sqrtM1 * z + P.x * z) * (P.y * z))) =
        -(eC * eC) * (1 - P.y * P.y) * (sqrtM1 + P.x) ^ 2 := by
      linear_combination (sqrtM1 ^ 2 * eC ^ 2 * (1 - P.y ^ 2) * (sqrtM1 + P.x) ^ 2) * hg +
        (eC ^ 2 * (1 - P.y ^ 2) * (sqrtM1 + P.x) ^ 2) * hi
    linear_combination (1 + sqrtM1 * P.x) * hs + (1 - sqrtM1 * P.x) * hk +
      (eC ^ 2 * (1 - P.y ^ 2) * (-1 - sqrtM1 * P.x - 2 * P.x ^ 2)) * hi

/-- The branch for `X = 0` or `Y = 0`, whether or not the coordinates are those of a point. -/
theorem toJacobi_degenerate {q : ExtPt F} (bX : bd 2 q.X) (bY : bd 2 q.Y) (bZ : bd 2 q.Z)
    (h0 : eval q.X * eval q.Y = 0) :
      IsJac (toJacobiQuarticRistretto q).1 0 1 ∧
      IsJac (toJacobiQuarticRistretto q).2.1 0 1 ∧
      IsJac (toJacobiQuarticRistretto q).2.2.1 1 (2 * sqrtM1 * eC) ∧
      IsJac (toJacobiQuarticRistretto q).2.2.2 (-1) (2 * sqrtM1 * eC) := by
  obtain ⟨X2, X2e⟩ := square_law (bd26 bX)
  obtain ⟨Y2, Y2e⟩ := square_law (bd26 bY)
  obtain ⟨Y4, Y4e⟩ := square_law (bd16 Y2)
  obtain ⟨Z2, Z2e⟩ := square_law (bd26 bZ)
  obtain ⟨zm, zme⟩ := sub_law bZ (bd26 bY) (by norm_num)
  obtain ⟨zp, zpe⟩ := add_law bZ bY (by norm_num)
  obtain ⟨zy, zye⟩ := sub_law Z2 (bd16 Y2) (by norm_num)
  obtain ⟨g1, g1e⟩ := mul_law (bd16 Y4) (bd16 X2)
  obtain ⟨g2, g2e⟩ := mul_law (bd16 g1) (bd36 zy)
  obtain ⟨g, gz, -⟩ := invSqrt_spec (bd16 g2)
  obtain ⟨den, dene⟩ := mul_law (bd16 g) (bd16 Y2)
  obtain ⟨sx, sxe⟩ := mul_law (bd16 den) (bd46 zm)
  obtain ⟨spx, spxe⟩ := mul_law (bd16 den) (bd46 zp)
  obtain ⟨s0, s0e⟩ := mul_law (bd16 sx) (bd26 bX)
  obtain ⟨s1', s1e'⟩ := mul_law (bd16 spx) (bd26 bX)
  obtain ⟨s1, s1e⟩ := neg_law (bd16 s1')
  have hflag : (1 - (isNonZeroI q.X &&& isNonZeroI q.Y) : Int32) = 1 := by
    rw [isNonZeroI_spec (bd212 bX), isNonZeroI_spec (bd212 bY), flag, flag]
    rcases mul_eq_zero.1 h0 with h | h
    · rw [if_neg (not_not.2 h)]
      split <;> rfl
    · rw [if_neg (c := eval q.Y ≠ 0) (not_not.2 h)]
      split <;> rfl
  have hg0 := gz (by
    rw [g2e, g1e, Y4e, Y2e, X2e]
    linear_combination (eval q.Y ^ 3 * eval q.X *
      eval (sub (square q.Z) (square q.Y) : F)) * h0)
  unfold toJacobiQuarticRistretto
  simp only
  rw [hflag]
  simp only [LawfulField.condSet_one]
  rw [dene, hg0, zero_mul] at sxe spxe
  rw [sxe, zero_mul, zero_mul] at s0e
  rw [s1e', spxe, zero_mul, zero_mul, neg_zero] at s1e
  exact ⟨⟨bd12 s0, bd_mono (by norm_num) bd_feOne, s0e, eval_feOne⟩,
    ⟨s1, bd_mono (by norm_num) bd_feOne, s1e, eval_feOne⟩,
    ⟨bd12 bd_feOne, bd_mono (by norm_num) bd_feDoubleIInvSqrtMinusDMinusOne, eval_feOne,
      eval_feDoubleIInvSqrtMinusDMinusOne⟩,
    ⟨bd12 bd_feMinusOne, bd_mono (by norm_num) bd_feDoubleIInvSqrtMinusDMinusOne, eval_feMinusOne,
      eval_feDoubleIInvSqrtMinusDMinusOne⟩⟩

/-- The four points of the quartic computed for a point of the neutral class. -/
theorem toJacobi_neutral {q : ExtPt F} {P : EPoint} (h : IsPt q P) (h0 : P.x * P.y = 0) :
      IsJac (toJacobiQuarticRistretto q).1 0 1 ∧
      IsJac (toJacobiQuarticRistretto q).2.1 0 1 ∧
      IsJac (toJacobiQuarticRistretto q).2.2.1 1 (2 * sqrtM1 * eC) ∧
      IsJac (toJacobiQuarticRistretto q).2.2.2 (-1) (2 * sqrtM1 * eC) := by
  refine toJacobi_degenerate h.bX h.bY h.bZ ?_
  rw [h.proj.x, h.proj.y]
  linear_combination (eval q.Z * eval q.Z) * h0

/-- The eight pairs whose preimages are computed, from the first four. -/
def eightPairs (j0 j1 j2 j3 : Fp × Fp) : List (Fp × Fp) :=
  [j0, (-j0.1, -j0.2), j1, (-j1.1, -j1.2), j2, (-j2.1, -j2.2), j3, (-j3.1, -j3.2)]

theorem inverse_results {q : ExtPt F} {j0 j1 j2 j3 : Fp × Fp}
    (h0 : IsJac (toJacobiQuarticRistretto q).1 j0.1 j0.2) (o0 : OnJac j0.1 j0.2)
    (h1 : IsJac (toJacobiQuarticRistretto q).2.1 j1.1 j1.2) (o1 : OnJac j1.1 j1.2)
    (h2 : IsJac (toJacobiQuarticRistretto q).2.2.1 j2.1 j2.2) (o2 : OnJac j2.1 j2.2)
    (h3 : IsJac (toJacobiQuarticRistretto q).2.2.2 j3.1 j3.2) (o3 : OnJac j3.1 j3.2) :
    List.Forall₂ (fun (j : Fp × Fp) (e : F × Int32) => EllInvResult j.1 j.2 e.1 e.2)
      (eightPairs j0 j1 j2 j3) (ristrettoElligator2Inverse q) := by
  unfold ristrettoElligator2Inverse eightPairs
  simp only [List.flatMap_cons, List.flatMap_nil, List.cons_append, List.nil_append]
  exact .cons (elligator2Inverse_spec h0 o0)
    (.cons (elligator2Inverse_spec (dual_isJac h0) (onJac_neg o0))
    (.cons (elligator2Inverse_spec h1 o1)
    (.cons (elligator2Inverse_spec (dual_isJac h1) (onJac_neg o1))
    (.cons (elligator2Inverse_spec h2 o2)
    (.cons (elligator2Inverse_spec (dual_isJac h2) (onJac_neg o2))
    (.cons (elligator2Inverse_spec h3 o3)
    (.cons (elligator2Inverse_spec (dual_isJac h3) (onJac_neg o3)) .nil)))))))

/-- `x` is among the preimages returned. -/
def Found (L : List (F × Int32)) (x : Fp) : Prop := ∃ e ∈ L, e.2 = 1 ∧ eval e.1 = x

theorem forall2_left {α β : Type} {R : α → β → Prop} {l : List α} {l' : List β}
    (h : List.Forall₂ R l l') {a : α} (ha : a ∈ l) : ∃ b ∈ l', R a b := by
  induction h with
  | nil => simp at ha
  | cons h _ ih =>
    rcases List.mem_cons.1 ha with rfl | ha
    · exact ⟨_, List.mem_cons_self, h⟩
    · obtain ⟨b, hb, hr⟩ := ih ha
      exact ⟨b, List.mem_cons_of_mem _ hb, hr⟩

theorem forall2_right {α β : Type} {R : α → β → Prop} {l : List α} {l' : List β}
    (h : List.Forall₂ R l l') {b : β} (hb : b ∈ l') : ∃ a ∈ l, R a b := by
  induction h with
  | nil => simp at hb
  | cons h _ ih =>
    rcases List.mem_cons.1 hb with rfl | hb
    · exact ⟨_, List.mem_cons_self, h⟩
    · obtain ⟨a, ha, hr⟩ := ih hb
      exact ⟨a, List.mem_cons_of_mem _ ha, hr⟩

end Ristretto.Proofs
