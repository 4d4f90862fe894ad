import Verif.Spec.Proj
import Mathlib.GroupTheory.OrderOfElement
import Mathlib.GroupTheory.Index
import Mathlib.GroupTheory.QuotientGroup.Defs
import Mathlib.Data.Fintype.EquivFin
import Mathlib.Data.ZMod.Basic
import Mathlib.SetTheory.Cardinal.Finite

/-!
# The order of Edwards25519 and the Ristretto group (specification)

`Even` is the subgroup of doubles `2E`, `E4` the 4-torsion.  The Ristretto group is `2E / E[4]`;
it has prime order `l`.
-/

namespace Ristretto
set_option autoImplicit false

/-- The standard base point of Edwards25519: `y = 4/5`, `x` even. -/
def stdBase : EPoint where
  x := ((15112221349535400772501151409588531511454012693041857206046113283949847762202 : ℕ) : Fp)
  y := ((46316835694926478169428394003475163141307993866256225615783033603165251855960 : ℕ) : Fp)
  on := NP.onCurve_of_mod (by decide +kernel)

/-- A point of order eight. -/
def tors8 : EPoint where
  x := ((43496726750457979451437558183816721346016168361625936758514574428539776020131 : ℕ) : Fp)
  y := ((55188659117513257062467267217118295137698188065244968500265048394206261417927 : ℕ) : Fp)
  on := NP.onCurve_of_mod (by decide +kernel)

/-- `stdBase` in numbers. -/
def stdBaseN : NP := ⟨15112221349535400772501151409588531511454012693041857206046113283949847762202,
    46316835694926478169428394003475163141307993866256225615783033603165251855960, 1,
    15112221349535400772501151409588531511454012693041857206046113283949847762202 *
    46316835694926478169428394003475163141307993866256225615783033603165251855960 % p⟩

/-- `tors8` in numbers. -/
def tors8N : NP := ⟨43496726750457979451437558183816721346016168361625936758514574428539776020131,
    55188659117513257062467267217118295137698188065244968500265048394206261417927, 1,
    43496726750457979451437558183816721346016168361625936758514574428539776020131 *
    55188659117513257062467267217118295137698188065244968500265048394206261417927 % p⟩

theorem stdBase_rep : NP.Rep stdBaseN stdBase :=
  NP.rep_affine stdBase _ _ rfl rfl (by decide +kernel) (by decide +kernel)

theorem tors8_rep : NP.Rep tors8N tors8 :=
  NP.rep_affine tors8 _ _ rfl rfl (by decide +kernel) (by decide +kernel)

theorem l_smul_stdBase : l • stdBase = 0 :=
  (NP.eqv_iff (NP.mul_rep stdBase_rep l (by decide +kernel)) NP.zero_rep).1 (by decide +kernel)

theorem stdBase_ne_zero : stdBase ≠ 0 := by
  intro h
  have := (NP.eqv_iff stdBase_rep NP.zero_rep).2 h
  exact absurd this (by decide +kernel)

theorem addOrderOf_stdBase : addOrderOf stdBase = l :=
  addOrderOf_eq_prime l_smul_stdBase stdBase_ne_zero

theorem addOrderOf_tors8 : addOrderOf tors8 = 2 ^ (2 + 1) := by
  apply addOrderOf_eq_prime_pow
  · intro h
    have := (NP.eqv_iff (NP.mul_rep tors8_rep (2 ^ 2) (by decide +kernel)) NP.zero_rep).2 h
    exact absurd this (by decide +kernel)
  · exact (NP.eqv_iff (NP.mul_rep tors8_rep (2 ^ (2 + 1)) (by decide +kernel)) NP.zero_rep).1 (by decide +kernel)

/-- `d y^2 + 1` is never zero. -/
theorem dy2_ne (y : Fp) : d * y ^ 2 + 1 ≠ 0 := by
  intro h
  have hy : y ≠ 0 := by rintro rfl; simp at h
  apply d_nonsquare
  refine ⟨sqrtM1 / y, ?_⟩
  have := sqrtM1_sq
  field_simp
  linear_combination h - this

theorem x_sq_eq (P : EPoint) : P.x * P.x * (d * P.y ^ 2 + 1) = P.y ^ 2 - 1 := by
  have := P.on; unfold OnCurve at this; linear_combination -this

/-- A point is determined by its `y` and the sign of its `x`. -/
theorem ext_sign {P Q : EPoint} (hy : P.y = Q.y) (hs : IsNeg P.x ↔ IsNeg Q.x) : P = Q := by
  apply EPoint.ext _ hy
  have h1 := x_sq_eq P
  have h2 := x_sq_eq Q
  rw [hy, ← h2] at h1
  have h3 := mul_right_cancel₀ (dy2_ne Q.y) h1
  rcases mul_self_eq_mul_self_iff.1 h3 with h | h
  · exact h
  · by_cases h0 : Q.x = 0
    · rw [h, h0, neg_zero]
    · rw [h, isNeg_neg h0] at hs; tauto

instance : Finite EPoint :=
  Finite.of_injective (β := Fp × Bool) (fun P => (P.y, decide (IsNeg P.x))) (by
    intro P Q h
    simp only [Prod.mk.injEq, decide_eq_decide] at h
    exact ext_sign h.1 h.2)

theorem card_le : Nat.card EPoint ≤ 2 * p := by
  have : Nat.card EPoint ≤ Nat.card (Fp × Bool) :=
    Nat.card_le_card_of_injective (fun P : EPoint => (P.y, decide (IsNeg P.x))) (by
    intro P Q h
    simp only [Prod.mk.injEq, decide_eq_decide] at h
    exact ext_sign h.1 h.2)
  rw [Nat.card_prod, Nat.card_zmod, Nat.card_eq_fintype_card (α := Bool), Fintype.card_bool] at this
  omega

/-- **The curve has exactly `8 l` points.** -/
theorem card_EPoint : Nat.card EPoint = 8 * l := by
  have h1 : l ∣ Nat.card EPoint := addOrderOf_stdBase ▸ addOrderOf_dvd_natCard stdBase
  have h2 : 8 ∣ Nat.card EPoint := by
    have := addOrderOf_dvd_natCard tors8; rw [addOrderOf_tors8] at this; simpa using this
  have hc : Nat.Coprime 8 l := by decide +kernel
  obtain ⟨k, hk⟩ := hc.mul_dvd_of_dvd_of_dvd h2 h1
  have hpos : 0 < Nat.card EPoint := Nat.card_pos
  have hle := card_le
  have hlp : 2 * p < 16 * l := by decide +kernel
  have : k = 1 := by
    rcases k with _ | _ | k
    · rw [hk] at hpos; simp at hpos
    · rfl
    · exfalso
      have hle' := hle
      rw [hk] at hle'
      have : 16 * l ≤ 8 * l * (k + 2) := by
        calc 16 * l = 8 * l * 2 := by ring
          _ ≤ 8 * l * (k + 2) := Nat.mul_le_mul_left _ (by omega)
      exact absurd (lt_of_lt_of_le hlp this) (not_lt.2 hle')
  rw [hk, this, mul_one]

/-! Torsion. -/

theorem x_of_y_zero {P : EPoint} (h : P.y = 0) : P.x = sqrtM1 ∨ P.x = -sqrtM1 := by
  have := P.on; unfold OnCurve at this; rw [h] at this
  have hi := sqrtM1_sq
  apply mul_self_eq_mul_self_iff.1
  linear_combination -this - hi

theorem y_of_x_zero {P : EPoint} (h : P.x = 0) : P.y = 1 ∨ P.y = -1 := by
  have := P.on; unfold OnCurve at this; rw [h] at this
  apply mul_self_eq_mul_self_iff.1
  linear_combination this

theorem double_x (P : EPoint) : (P + P).x * (1 + d * P.x * P.x * P.y * P.y) = 2 * P.x * P.y := by
  rw [EPoint.add_x]; linear_combination EPoint.addX_mul P.on P.on

theorem double_y (P : EPoint) : (P + P).y * (1 - d * P.x * P.x * P.y * P.y) = P.y ^ 2 + P.x ^ 2 := by
  rw [EPoint.add_y]; linear_combination EPoint.addY_mul P.on P.on

theorem double_x_eq_zero {P : EPoint} : (P + P).x = 0 ↔ P.x = 0 ∨ P.y = 0 := by
  have h := double_x P
  constructor
  · intro h0
    rw [h0, zero_mul] at h
    have := mul_eq_zero.1 h.symm
    rcases this with h | h
    · left; exact (mul_eq_zero.1 h).resolve_left two_ne_zero'
    · right; exact h
  · intro h0
    have hne := EPoint.one_add_k_ne P.on P.on
    refine (mul_eq_zero (a := (P + P).x).1 ?_).resolve_right hne
    rw [h]
    rcases h0 with h | h <;> rw [h] <;> ring

theorem double_eq_zero {P : EPoint} : P + P = 0 ↔ P.x = 0 := by
  have hy := double_y P
  constructor
  · intro h
    have hx : (P + P).x = 0 := by rw [h]; rfl
    rcases double_x_eq_zero.1 hx with h0 | h0
    · exact h0
    · exfalso
      rw [h] at hy
      rw [h0] at hy
      have hi := sqrtM1_sq
      rcases x_of_y_zero h0 with h1 | h1 <;> rw [h1] at hy <;> simp only [EPoint.zero_y] at hy
      · exact two_ne_zero' (by linear_combination hy + hi)
      · exact two_ne_zero' (by linear_combination hy + hi)
  · intro h
    apply EPoint.ext
    · exact double_x_eq_zero.2 (Or.inl h)
    · rw [h] at hy
      rw [EPoint.zero_y]
      rcases y_of_x_zero h with h1 | h1 <;> rw [h1] at hy <;> linear_combination hy

/-- The subgroup `2E` of even points. -/
def Even : AddSubgroup EPoint := (nsmulAddMonoidHom (α := EPoint) 2).range

/-- The subgroup `E[4]` of 4-torsion points. -/
def E4 : AddSubgroup EPoint := (nsmulAddMonoidHom (α := EPoint) 4).ker

theorem mem_Even {P : EPoint} : P ∈ Even ↔ ∃ Q : EPoint, Q + Q = P := by
  simp only [Even, AddMonoidHom.mem_range, nsmulAddMonoidHom_apply, two_nsmul]

theorem mem_E4 {P : EPoint} : P ∈ E4 ↔ P.x = 0 ∨ P.y = 0 := by
  simp only [E4, AddMonoidHom.mem_ker, nsmulAddMonoidHom_apply]
  rw [show 4 • P = (P + P) + (P + P) by abel, double_eq_zero, double_x_eq_zero]

/-- The point `(i, 0)`. -/
def torsI : EPoint := ⟨sqrtM1, 0, by unfold OnCurve; linear_combination -sqrtM1_sq⟩
/-- The point `(0, -1)`. -/
def torsM : EPoint := ⟨0, -1, by unfold OnCurve; ring⟩

theorem torsI_eq : torsI = tors8 + tors8 := by
  have h := NP.add_rep tors8_rep tors8_rep
  have h' : NP.Rep ⟨19681161376707505956807079304988542015446066515923890162744021073123829784752, 0, 1, _⟩ torsI :=
    NP.rep_affine torsI _ _ rfl (by simp [torsI]) (by decide +kernel) (by decide +kernel)
  exact (NP.eqv_iff h' h).1 (by decide +kernel)

theorem torsM_eq : torsM = torsI + torsI := by
  have hi := sqrtM1_sq
  apply EPoint.ext
  · rw [EPoint.add_x]; simp [EPoint.addX, torsI, torsM]
  · rw [EPoint.add_y]; simp [EPoint.addY, torsI, torsM, hi]

theorem neg_torsI : (-torsI : EPoint) = ⟨-sqrtM1, 0, (-torsI).on⟩ := rfl

theorem mem_E4_cases {P : EPoint} : P ∈ E4 ↔ P = 0 ∨ P = torsM ∨ P = torsI ∨ P = -torsI := by
  rw [mem_E4]
  constructor
  · rintro (h | h)
    · rcases y_of_x_zero h with h1 | h1
      · left; exact EPoint.ext h h1
      · right; left; exact EPoint.ext h h1
    · rcases x_of_y_zero h with h1 | h1
      · right; right; left; exact EPoint.ext h1 h
      · right; right; right; exact EPoint.ext h1 h
  · rintro (h | h | h | h) <;> rw [h] <;> simp [torsM, torsI]

theorem E4_le_Even : E4 ≤ Even := by
  intro P hP
  rcases mem_E4_cases.1 hP with h | h | h | h
  · rw [h]; exact Even.zero_mem
  · rw [h]; exact mem_Even.2 ⟨_, torsM_eq.symm⟩
  · rw [h]; exact mem_Even.2 ⟨_, torsI_eq.symm⟩
  · rw [h]; exact Even.neg_mem (mem_Even.2 ⟨_, torsI_eq.symm⟩)

theorem card_E4 : Nat.card E4 = 4 := by
  have hi0 : sqrtM1 ≠ 0 := sqrtM1_ne_zero
  have h2 := two_ne_zero'
  have a1 : (0 : EPoint) ≠ torsM := fun h => by
    have := congrArg EPoint.y h; simp only [EPoint.zero_y, torsM] at this
    exact h2 (by linear_combination this)
  have a2 : (0 : EPoint) ≠ torsI := fun h => by
    have := congrArg EPoint.y h; simp [torsI] at this
  have a3 : (0 : EPoint) ≠ -torsI := fun h => by
    have := congrArg EPoint.y h; simp [torsI] at this
  have a4 : torsM ≠ torsI := fun h => by
    have := congrArg EPoint.y h; simp [torsI, torsM] at this
  have a5 : torsM ≠ -torsI := fun h => by
    have := congrArg EPoint.y h; simp [torsI, torsM] at this
  have a6 : torsI ≠ -torsI := fun h => by
    have := congrArg EPoint.x h; simp only [torsI, EPoint.neg_x] at this
    have : 2 * sqrtM1 = 0 := by linear_combination this
    exact (mul_ne_zero h2 hi0) this
  classical
  have e : (E4 : Set EPoint) = (({0, torsM, torsI, -torsI} : Finset EPoint) : Set EPoint) := by
    ext P
    simp [mem_E4_cases]
  have h : Nat.card E4 = Nat.card ((E4 : Set EPoint) : Type) := rfl
  rw [h, e, Nat.card_coe_set_eq, Set.ncard_coe_finset]
  rw [Finset.card_insert_of_notMem, Finset.card_insert_of_notMem, Finset.card_insert_of_notMem,
    Finset.card_singleton] <;> simp [a1, a2, a3, a4, a5, a6]

theorem card_ker2 : Nat.card (nsmulAddMonoidHom (α := EPoint) 2).ker = 2 := by
  have h2 := two_ne_zero'
  have a1 : (0 : EPoint) ≠ torsM := fun h => by
    have := congrArg EPoint.y h; simp only [EPoint.zero_y, torsM] at this
    exact h2 (by linear_combination this)
  classical
  have e : (((nsmulAddMonoidHom (α := EPoint) 2).ker : AddSubgroup EPoint) : Set EPoint) =
      (({0, torsM} : Finset EPoint) : Set EPoint) := by
    ext P
    simp only [SetLike.mem_coe, AddMonoidHom.mem_ker, nsmulAddMonoidHom_apply, two_nsmul,
      Finset.coe_insert, Finset.coe_singleton, Set.mem_insert_iff, Set.mem_singleton_iff]
    rw [double_eq_zero]
    constructor
    · intro h
      rcases y_of_x_zero h with h1 | h1
      · left; exact EPoint.ext h h1
      · right; exact EPoint.ext h h1
    · rintro (h | h) <;> rw [h] <;> simp [torsM]
  have h : Nat.card (nsmulAddMonoidHom (α := EPoint) 2).ker =
    Nat.card ((((nsmulAddMonoidHom (α := EPoint) 2).ker : AddSubgroup EPoint) : Set EPoint) : Type) := rfl
  rw [h, e, Nat.card_coe_set_eq, Set.ncard_coe_finset]
  rw [Finset.card_insert_of_notMem, Finset.card_singleton]; simp [a1]

theorem card_Even : Nat.card Even = 4 * l := by
  have h := AddSubgroup.card_mul_index (nsmulAddMonoidHom (α := EPoint) 2).ker
  rw [AddSubgroup.index_ker, card_ker2, card_EPoint] at h
  have h' : 2 * Nat.card Even = 8 * l := h
  omega

/-- **The Ristretto group**: even points modulo 4-torsion. -/
abbrev RGroup := Even ⧸ (E4.addSubgroupOf Even)

/-- **The Ristretto group has prime order `l`.** -/
theorem card_RGroup : Nat.card RGroup = l := by
  have h := AddSubgroup.card_eq_card_quotient_mul_card_addSubgroup (E4.addSubgroupOf Even)
  rw [card_Even] at h
  have h4 : Nat.card (E4.addSubgroupOf Even) = 4 := by
    rw [Nat.card_congr (AddSubgroup.addSubgroupOfEquivOfLe E4_le_Even).toEquiv, card_E4]
  rw [h4] at h
  have : Nat.card RGroup * 4 = 4 * l := h.symm
  omega

/-- The class of an even point. -/
def cls (P : EPoint) (h : P ∈ Even) : RGroup := QuotientAddGroup.mk ⟨P, h⟩

theorem cls_eq {P Q : EPoint} (hP : P ∈ Even) (hQ : Q ∈ Even) :
    cls P hP = cls Q hQ ↔ P - Q ∈ E4 := by
  unfold cls
  rw [QuotientAddGroup.eq, AddSubgroup.mem_addSubgroupOf]
  have : ((-(⟨P, hP⟩ : Even) + ⟨Q, hQ⟩ : Even) : EPoint) = -(P - Q) := by
    show -P + Q = _
    abel
  rw [this, neg_mem_iff]

end Ristretto
