import Verif.Proofs.EllMath
import Verif.Model.Elligator

/-!
# `SetRistrettoElligator2` computes the Elligator map
-/

namespace Ristretto.Proofs
open Model FieldOps LawfulField
set_option autoImplicit false

variable {F : Type} [LawfulField F]

theorem equal30_flag_one (c : Prop) [Decidable c] : equal30 (flag c) 1 = flag c := by
  unfold flag; by_cases h : c <;> simp [h] <;> decide

theorem equal30_flag_zero (c : Prop) [Decidable c] : equal30 (flag c) 0 = flag (¬ c) := by
  unfold flag; by_cases h : c <;> simp [h] <;> decide

/-- `q` is a pair `(s, t)` on the Jacobi quartic, with small limbs. -/
structure IsJac (q : JacPt F) (s t : Fp) : Prop where
  bS : bd 2 q.S
  bT : bd 3 q.T
  hS : eval q.S = s
  hT : eval q.T = t

/-- The sign fixed at the end of `SetRistrettoElligator2`. -/
theorem signFix {S : F} (h : bd 1 S) (b : Int32) (hb : b = 1 ∨ b = 0) :
    bd 2 (condSet (touch S) (neg S) (equal30 (isNegativeI S) b)) ∧
    eval (condSet (touch S) (neg S) (equal30 (isNegativeI S) b)) =
      if b = 1 then absFp (eval S) else -absFp (eval S) := by
  obtain ⟨n1, n2⟩ := neg_law (bd16 h)
  obtain ⟨t1, t2⟩ := touch_law h
  rw [isNegativeI_spec (bd112 h)]
  rcases hb with rfl | rfl
  · rw [equal30_flag_one, condSet_flag, if_pos rfl]
    unfold absFp
    split <;> rename_i hn
    · exact ⟨n1, n2⟩
    · exact ⟨bd12 t1, t2⟩
  · rw [equal30_flag_zero, condSet_flag, if_neg (show ¬ ((0 : Int32) = 1) by decide)]
    unfold absFp
    by_cases hn : IsNeg (eval S)
    · rw [if_neg (not_not.2 hn), if_pos hn, neg_neg]; exact ⟨bd12 t1, t2⟩
    · rw [if_pos hn, if_neg hn]; exact ⟨n1, n2⟩

theorem absFp_zero : absFp 0 = 0 := by unfold absFp; rw [if_neg not_isNeg_zero]

/-- `SetRistrettoElligator2` picks the pair the specification picks. -/
theorem elligator2Jacobi_spec {r0 : F} (h : bd 6 r0) :
    ∃ s t, ElligatorJac (eval r0) s t ∧ IsJac (elligator2Jacobi r0) s t := by
  have I := bd16 (bd_feI (F := F))
  have O := bd_feOne (F := F)
  obtain ⟨ri, rie⟩ := mul_law h I
  obtain ⟨r1, r1e⟩ := mul_law h (bd16 ri)
  obtain ⟨rd, rde⟩ := add_law (bd_feD (F := F)) r1 (by norm_num)
  obtain ⟨d1, d1e⟩ := mul_law (bd16 (bd_feD (F := F))) (bd16 r1)
  obtain ⟨d2, d2e⟩ := add_law d1 O (by norm_num)
  obtain ⟨d3, d3e⟩ := mul_law (bd26 d2) (bd26 rd)
  obtain ⟨d4, d4e⟩ := neg_law (bd16 d3)
  obtain ⟨rp, rpe⟩ := add_law r1 O (by norm_num)
  obtain ⟨n1, n1e⟩ := mul_law (bd16 (bd_feOneMinusDSquared (F := F))) (bd26 rp)
  obtain ⟨nd, nde⟩ := mul_law (bd16 n1) (bd26 d4)
  obtain ⟨q, qs⟩ := invSqrtI_spec (bd16 nd)
  obtain ⟨q1, q1e⟩ := feAbsSelf_spec (bd16 q)
  obtain ⟨sm, sme⟩ := sub_law r1 (bd16 O) (by norm_num)
  have N1 := neg_law (bd16 O)
  have NM := neg_law (bd16 (bd_feMinusOne (F := F)))
  rw [eval_feI] at rie
  rw [rie] at r1e
  have hr : ∃ r : Fp, sqrtM1 * (eval r0 * eval r0) = r := ⟨_, rfl⟩
  obtain ⟨r, hr⟩ := hr
  have r1e' : eval (mul r0 (mul r0 feI)) = r := by rw [r1e, ← hr]; ring
  rw [eval_feD, r1e'] at rde d1e
  rw [d1e, eval_feOne] at d2e
  rw [d2e, rde] at d3e
  rw [d3e] at d4e
  have d4e' : eval (neg (mul (add (mul feD (mul r0 (mul r0 feI))) feOne)
      (add feD (mul r0 (mul r0 feI)))) : F) = ellD r := by
    rw [d4e]; unfold ellD; ring
  rw [r1e', eval_feOne] at rpe sme
  rw [eval_feOneMinusDSquared, rpe] at n1e
  have n1e' : eval (mul feOneMinusDSquared (add (mul r0 (mul r0 feI)) feOne) : F) = ellN r := by
    rw [n1e]; unfold ellN; ring
  rw [n1e', d4e'] at nde
  rw [nde] at qs
  have hNne : ellN r ≠ 0 := hr ▸ ellN_ne (eval r0)
  unfold elligator2Jacobi ElligatorJac
  simp only
  rw [hr]
  generalize (mul r0 (mul r0 feI) : F) = R at *
  generalize (neg (mul (add (mul feD R) feOne) (add feD R)) : F) = D at *
  generalize (mul feOneMinusDSquared (add R feOne) : F) = N at *
  generalize sub R feOne = Rm at *
  generalize invSqrtI (mul N D) = qb at *
  generalize feAbsSelf qb.1 = Q at *
  have hQ2 : eval Q * eval Q = eval qb.1 * eval qb.1 := by rw [q1e]; exact absFp_sq _
  rw [← hQ2] at qs
  have hb : qb.2 = 1 ∨ qb.2 = 0 := by
    rcases qs with ⟨h, -⟩ | ⟨h, -⟩ | ⟨h, -⟩
    · exact Or.inl h
    · exact Or.inr h
    · exact Or.inr h
  have hms := bd_feMinusOne (F := F)
  rcases hb with hb | hb
  · rw [hb]
    have c0 : (1 - 1 : Int32) = 0 := rfl
    rw [c0, LawfulField.condSet_zero, LawfulField.condSet_zero]
    obtain ⟨q2, q2e⟩ := mul_law q1 (bd16 O)
    obtain ⟨s1, s1e⟩ := mul_law (bd16 q2) (bd16 n1)
    obtain ⟨t1, t1e⟩ := mul_law (bd16 q2) (bd26 N1.1)
    obtain ⟨t2, t2e⟩ := mul_law (bd16 s1) (bd16 t1)
    obtain ⟨t3, t3e⟩ := mul_law (bd16 (bd_feDMinusOneSquared (F := F))) (bd16 t2)
    obtain ⟨t4, t4e⟩ := mul_law (bd36 sm) (bd16 t3)
    obtain ⟨t5, t5e⟩ := sub_law t4 (bd16 O) (by norm_num)
    obtain ⟨f1, f2⟩ := signFix s1 1 (Or.inl rfl)
    rw [if_pos rfl] at f2
    have hq : ellN r * ellD r * (eval Q * eval Q) = 1 := by
      rcases qs with ⟨-, h⟩ | ⟨h, -⟩ | ⟨h, -⟩
      · exact h
      · rw [hb] at h; exact absurd h (by decide)
      · rw [hb] at h; exact absurd h (by decide)
    have hD : ellD r ≠ 0 := by
      intro h; rw [h] at hq; simp at hq
    rw [q2e, eval_feOne, mul_one, n1e'] at s1e
    rw [q2e, eval_feOne, mul_one, N1.2, eval_feOne] at t1e
    have hss : eval Q * ellN r * (eval Q * ellN r) = ellN r / ellD r := by
      rw [eq_div_iff hD]; linear_combination (ellN r) * hq
    refine ⟨_, _, Or.inr (Or.inl ⟨hD, ⟨eval Q * ellN r, hss.symm⟩, ?_, ?_, ?_⟩),
      ⟨f1, t5, rfl, rfl⟩⟩
    · rw [f2]; exact absFp_not_neg _
    · rw [f2, absFp_sq, s1e, hss]
    · rw [t5e, t4e, t3e, t2e, t1e, s1e, sme, eval_feDMinusOneSquared, eval_feOne, sub_left_inj,
        eq_div_iff hD]
      linear_combination (-((r - 1) * (d - 1) ^ 2)) * hq
  · rw [hb]
    have c0 : (1 - 0 : Int32) = 1 := rfl
    rw [c0, LawfulField.condSet_one, LawfulField.condSet_one]
    obtain ⟨q2, q2e⟩ := mul_law q1 (bd16 ri)
    obtain ⟨s1, s1e⟩ := mul_law (bd16 q2) (bd16 n1)
    obtain ⟨t1, t1e⟩ := mul_law (bd16 q2) (bd26 NM.1)
    obtain ⟨t2, t2e⟩ := mul_law (bd16 s1) (bd16 t1)
    obtain ⟨t3, t3e⟩ := mul_law (bd16 (bd_feDMinusOneSquared (F := F))) (bd16 t2)
    obtain ⟨t4, t4e⟩ := mul_law (bd36 sm) (bd16 t3)
    obtain ⟨t5, t5e⟩ := sub_law t4 (bd16 O) (by norm_num)
    obtain ⟨f1, f2⟩ := signFix s1 0 (Or.inr rfl)
    rw [if_neg (by decide)] at f2
    rw [q2e, rie, n1e'] at s1e
    rw [q2e, rie, NM.2, eval_feMinusOne, neg_neg, mul_one] at t1e
    rcases qs with ⟨h, -⟩ | ⟨-, hnsq, hq⟩ | ⟨-, h0, hq⟩
    · rw [hb] at h; exact absurd h (by decide)
    · have hD : ellD r ≠ 0 := by
        intro h; rw [h, mul_zero] at hnsq; exact hnsq IsSquare.zero
      refine ⟨_, _, Or.inr (Or.inr ⟨hD, ?_, ?_, ?_, ?_⟩), ⟨f1, t5, rfl, rfl⟩⟩
      · rintro ⟨a, ha⟩
        apply hnsq
        rw [div_eq_iff hD] at ha
        exact ⟨a * ellD r, by rw [ha]; ring⟩
      · rw [f2, neg_neg]; exact absFp_not_neg _
      · rw [f2, neg_mul_neg, absFp_sq, s1e, eq_div_iff hD]
        linear_combination (ellN r * eval r0 ^ 2 * sqrtM1 ^ 2) * hq -
          (ellN r * sqrtM1 * (eval r0) ^ 2) * sqrtM1_sq + ellN r * hr
      · rw [t5e, t4e, t3e, t2e, t1e, s1e, sme, eval_feDMinusOneSquared, eval_feOne, sub_left_inj,
          eq_div_iff hD]
        linear_combination ((r - 1) * (d - 1) ^ 2) * ((eval r0 ^ 2 * sqrtM1 ^ 2) * hq -
          (sqrtM1 * (eval r0) ^ 2) * sqrtM1_sq + hr)
    · have hQ0 : eval Q = 0 := by
        have := hQ2; rw [hq, mul_zero] at this; exact mul_self_eq_zero.1 this
      rw [hQ0] at s1e t1e
      refine ⟨_, _, Or.inl ⟨(mul_eq_zero.1 h0).resolve_left hNne, ?_, ?_⟩, ⟨f1, t5, rfl, rfl⟩⟩
      · rw [f2, s1e]; simp [absFp_zero]
      · rw [t5e, t4e, t3e, t2e, t1e, eval_feOne]; ring

/-- `SetJacobiQuartic` computes the point belonging to a pair. -/
theorem setJacobiQuartic_spec {q : JacPt F} {s t : Fp} (h : IsJac q s t) (hj : OnJac s t)
    {P : EPoint} (hP : OfJac s t P) : IsCp (setJacobiQuartic q) P := by
  obtain ⟨s2, s2e⟩ := square_law (bd26 h.bS)
  obtain ⟨x, xe⟩ := mul_law (bd26 h.bS) (bd16 (bd_feDoubleInvSqrtMinusDMinusOne (F := F)))
  obtain ⟨y, ye⟩ := sub_law (bd_feOne (F := F)) (bd16 s2) (by norm_num)
  obtain ⟨t1, te⟩ := add_law (bd_feOne (F := F)) s2 (by norm_num)
  rw [s2e, eval_feOne, h.hS] at ye te
  refine ⟨bd16 x, bd36 y, bd36 h.bT, bd26 t1, ?_⟩
  refine ⟨?_, ?_, ?_, ?_⟩
  · exact h.hT ▸ jac_t_ne hj
  · show eval (add feOne (square q.S)) ≠ 0
    rw [te]; exact jac_s_ne hj
  · show eval (mul q.S feDoubleInvSqrtMinusDMinusOne) = P.x * eval q.T
    rw [xe, h.hS, h.hT, eval_feDoubleInvSqrtMinusDMinusOne, hP.1]; ring
  · show eval (sub feOne (square q.S)) = P.y * eval (add feOne (square q.S))
    rw [ye, te, hP.2]

/-- `SetRistrettoElligator2` computes the Elligator map. -/
theorem setRistrettoElligator2_spec {r0 : F} (h : bd 6 r0) :
    ∃ P, Elligator (eval r0) P ∧ IsCp (setRistrettoElligator2 r0) P := by
  obtain ⟨s, t, hj, hq⟩ := elligator2Jacobi_spec h
  obtain ⟨P, hP⟩ := ofJac_exists (onJac_of_elligator hj)
  exact ⟨P, ⟨s, t, hj, hP⟩, setJacobiQuartic_spec hq (onJac_of_elligator hj) hP⟩

end Ristretto.Proofs
