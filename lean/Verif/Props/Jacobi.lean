import Verif.Spec.Jacobi
import Verif.Props.Elligator
import Verif.Props.Coords

/-!
# C69: the Jacobi quartic

`IsJacobi q s t` (Spec/Jacobi.lean): `q` holds the pair `(s, t)`.  `OnJac s t`, `OfJac s t P` (Spec/Elligator.lean): the pair
is on the quartic; `P` is the point of the curve with `x = 2 s / (t sqrt(-d-1))`, `y = (1 - s²)/(1 + s²)`.  `E4`: the four
points of the curve that Ristretto identifies with the neutral element.
-/

namespace Ristretto.Props
open Model Proofs FieldOps LawfulField
set_option autoImplicit false

theorem isJacobi_iff {q : JacPt Fe51} {s t : Fp} : IsJacobi q s t ↔ IsJac q s t :=
  ⟨fun h => ⟨h.limbS, h.limbT, h.s, h.t⟩, fun h => ⟨h.bS, h.bT, h.hS, h.hT⟩⟩

/-- **C69** (`SetJacobiQuartic`): every pair on the quartic belongs to exactly one point of the curve, which is even, and
`SetJacobiQuartic` computes it. -/
theorem C69_setJacobiQuartic (q : JacPt Fe51) (s t : Fp) (hq : IsJacobi q s t) (hj : OnJac s t) :
    ∃ P, OfJac s t P ∧ (∀ Q, OfJac s t Q → Q = P) ∧ P ∈ Even ∧ IsCompleted (setJacobiQuartic q) P := by
  obtain ⟨P, hP⟩ := ofJac_exists hj
  exact ⟨P, hP, fun Q hQ => ofJac_unique hj hQ hP, ofJac_even hP,
    isCompleted_iff.2 (setJacobiQuartic_spec (isJacobi_iff.1 hq) hj hP)⟩

/-- **C69** (`Dual`): the other pair of the same point. -/
theorem C69_dual (q : JacPt Fe51) (s t : Fp) (hq : IsJacobi q s t) (hj : OnJac s t) (P : EPoint) (hP : OfJac s t P) :
    IsJacobi q.dual (-s) (-t) ∧ OnJac (-s) (-t) ∧ OfJac (-s) (-t) P ∧
      (P.x ≠ 0 → (s, t) ≠ (-s, -t) ∧ ∀ s' t', OfJac s' t' P ↔ (s', t') = (s, t) ∨ (s', t') = (-s, -t)) := by
  have hJ := isJacobi_iff.1 hq
  obtain ⟨c, ce⟩ := neg_law (bd26 hJ.bS)
  obtain ⟨e, ee⟩ := neg_law (bd36 hJ.bT)
  refine ⟨isJacobi_iff.2 ⟨c, bd_mono (by norm_num) e, ?_, ?_⟩, onJac_neg hj, ofJac_neg hP, fun hx => ⟨?_, fun s' t' => ?_⟩⟩
  · show eval (neg q.S) = _
    rw [ce, hJ.hS]
  · show eval (neg q.T) = _
    rw [ee, hJ.hT]
  · intro h
    have h2 : t = -t := congrArg Prod.snd h
    have : 2 * t = 0 := by linear_combination h2
    exact jac_t_ne hj ((mul_eq_zero.1 this).resolve_left two_ne_zero')
  · constructor
    · intro h'
      rcases ofJac_pm hP h' hx with ⟨a, b⟩ | ⟨a, b⟩
      · left; rw [a, b]
      · right; rw [a, b]
    · rintro (h | h)
      · rw [show s' = s from congrArg Prod.fst h, show t' = t from congrArg Prod.snd h]; exact hP
      · rw [show s' = -s from congrArg Prod.fst h, show t' = -t from congrArg Prod.snd h]; exact ofJac_neg hP

/-- **C69** (`ToJacobiQuarticRistretto`): for a point outside the neutral class the four pairs are on the quartic, one
above each of the four points Ristretto identifies with it; together with their duals they are all pairs above these. -/
theorem C69_toJacobi (q : ExtPt Fe51) (P : EPoint) (hq : IsPoint q P) (hP : P ∈ Even) (h4 : P ∉ E4) :
    ∃ s t : Fin 4 → Fp, ∃ Q : Fin 4 → EPoint,
      IsJacobi (toJacobiQuarticRistretto q).1 (s 0) (t 0) ∧ IsJacobi (toJacobiQuarticRistretto q).2.1 (s 1) (t 1) ∧
      IsJacobi (toJacobiQuarticRistretto q).2.2.1 (s 2) (t 2) ∧ IsJacobi (toJacobiQuarticRistretto q).2.2.2 (s 3) (t 3) ∧
      (∀ i, OnJac (s i) (t i) ∧ OfJac (s i) (t i) (Q i)) ∧
      Function.Injective Q ∧ (∀ R, R - P ∈ E4 ↔ ∃ i, R = Q i) ∧
      (∀ s' t' : Fp, (∃ R, R - P ∈ E4 ∧ OfJac s' t' R) ↔ ∃ i, (s', t') = (s i, t i) ∨ (s', t') = (-s i, -t i)) := by
  have h0 := xy_ne_of_not_E4 h4
  obtain ⟨s0, t0, s1, t1, s2, t2, s3, t3, j0, o0, j1, o1, j2, o2, j3, o3⟩ :=
    toJacobi_regular (isPoint_iff.1 hq) hP h0
  have hmem : ∀ R, R - P ∈ E4 ↔ ∃ i, R = (![P, P + torsM, P + -torsI, P + torsI] : Fin 4 → EPoint) i := by
    intro R
    constructor
    · intro h
      rcases coset_four h with h | h | h | h
      · exact ⟨0, h⟩
      · exact ⟨1, h⟩
      · exact ⟨2, h⟩
      · exact ⟨3, h⟩
    · rintro ⟨i, rfl⟩
      fin_cases i
      · show P - P ∈ E4
        rw [sub_self]; exact E4.zero_mem
      · exact torsM_sub P
      · exact neg_torsI_sub P
      · exact torsI_sub P
  have hinj : Function.Injective (![P, P + torsM, P + -torsI, P + torsI] : Fin 4 → EPoint) := by
    have key : Function.Injective (![0, torsM, -torsI, torsI] : Fin 4 → EPoint) := by
      have c1 : (1 : Fp) ≠ -1 := by decide +kernel
      have c2 : (sqrtM1 : Fp) ≠ -sqrtM1 := by decide +kernel
      have hI : (sqrtM1 : Fp) ≠ 0 := sqrtM1_ne_zero
      have n1 : (0 : EPoint) ≠ torsM := fun h => c1 (congrArg EPoint.y h)
      have n2 : (0 : EPoint) ≠ -torsI := fun h => neg_ne_zero.2 hI (congrArg EPoint.x h).symm
      have n3 : (0 : EPoint) ≠ torsI := fun h => hI (congrArg EPoint.x h).symm
      have n4 : torsM ≠ -torsI := fun h => neg_ne_zero.2 hI (congrArg EPoint.x h).symm
      have n5 : torsM ≠ torsI := fun h => hI (congrArg EPoint.x h).symm
      have n6 : -torsI ≠ torsI := fun h => c2 (congrArg EPoint.x h).symm
      intro i j hij
      fin_cases i <;> fin_cases j <;> first
        | rfl
        | exact absurd hij n1 | exact absurd hij n1.symm | exact absurd hij n2 | exact absurd hij n2.symm
        | exact absurd hij n3 | exact absurd hij n3.symm | exact absurd hij n4 | exact absurd hij n4.symm
        | exact absurd hij n5 | exact absurd hij n5.symm | exact absurd hij n6 | exact absurd hij n6.symm
    intro i j hij
    apply key
    have e : ∀ i, (![P, P + torsM, P + -torsI, P + torsI] : Fin 4 → EPoint) i = P + (![0, torsM, -torsI, torsI] : Fin 4 → EPoint) i := by
      intro i; fin_cases i
      · exact (add_zero P).symm
      · rfl
      · rfl
      · rfl
    rw [e, e] at hij
    exact add_left_cancel hij
  have hof : ∀ i, OfJac ((![s0, s1, s2, s3] : Fin 4 → Fp) i) ((![t0, t1, t2, t3] : Fin 4 → Fp) i)
      ((![P, P + torsM, P + -torsI, P + torsI] : Fin 4 → EPoint) i) := by
    intro i; fin_cases i
    · exact o0
    · exact o1
    · exact o2
    · exact o3
  have hx : ∀ i, ((![P, P + torsM, P + -torsI, P + torsI] : Fin 4 → EPoint) i).x ≠ 0 := by
    intro i h
    have h1 : ((![P, P + torsM, P + -torsI, P + torsI] : Fin 4 → EPoint) i) ∈ E4 := mem_E4.2 (Or.inl h)
    have h2 := (hmem _).2 ⟨i, rfl⟩
    exact h4 (by have := E4.sub_mem h1 h2; rwa [sub_sub_cancel] at this)
  refine ⟨![s0, s1, s2, s3], ![t0, t1, t2, t3], ![P, P + torsM, P + -torsI, P + torsI], isJacobi_iff.2 j0, isJacobi_iff.2 j1,
    isJacobi_iff.2 j2, isJacobi_iff.2 j3, fun i => ⟨onJac_of_ofJac (hof i) (hx i), hof i⟩, hinj, hmem, fun s' t' => ?_⟩
  constructor
  · rintro ⟨R, hR, ho⟩
    obtain ⟨i, rfl⟩ := (hmem R).1 hR
    refine ⟨i, ?_⟩
    rcases ofJac_pm (hof i) ho (hx i) with ⟨a, b⟩ | ⟨a, b⟩
    · left; rw [a, b]
    · right; rw [a, b]
  · rintro ⟨i, h | h⟩
    · refine ⟨_, (hmem _).2 ⟨i, rfl⟩, ?_⟩
      rw [show s' = _ from congrArg Prod.fst h, show t' = _ from congrArg Prod.snd h]
      exact hof i
    · refine ⟨_, (hmem _).2 ⟨i, rfl⟩, ?_⟩
      rw [show s' = _ from congrArg Prod.fst h, show t' = _ from congrArg Prod.snd h]
      exact ofJac_neg (hof i)

/-- **C69** (the neutral class): the pairs are `(0,1)` twice and `(±1, 2i/sqrt(-d-1))`, above `(0,1)`, `(-i,0)` and `(i,0)`; no
pair of the quartic lies above `(0,-1)`. -/
theorem C69_neutral (q : ExtPt Fe51) (P : EPoint) (hq : IsPoint q P) (h4 : P ∈ E4) :
    IsJacobi (toJacobiQuarticRistretto q).1 0 1 ∧ IsJacobi (toJacobiQuarticRistretto q).2.1 0 1 ∧
    IsJacobi (toJacobiQuarticRistretto q).2.2.1 1 (2 * sqrtM1 * eC) ∧
    IsJacobi (toJacobiQuarticRistretto q).2.2.2 (-1) (2 * sqrtM1 * eC) ∧
    OnJac 0 1 ∧ OnJac 1 (2 * sqrtM1 * eC) ∧ OnJac (-1) (2 * sqrtM1 * eC) ∧
    OfJac 0 1 0 ∧ OfJac 1 (2 * sqrtM1 * eC) (-torsI) ∧ OfJac (-1) (2 * sqrtM1 * eC) torsI ∧
    ∀ s t, ¬ OfJac s t torsM := by
  obtain ⟨a, b, c, e⟩ := toJacobi_neutral (isPoint_iff.1 hq) (mul_eq_zero.2 (mem_E4.1 h4))
  refine ⟨isJacobi_iff.2 a, isJacobi_iff.2 b, isJacobi_iff.2 c, isJacobi_iff.2 e, onJac_zero_one, onJac_one, onJac_neg_one,
    ofJac_zero 1, ofJac_one, ofJac_neg_one, ?_⟩
  intro s t h
  have h2 : (-1 : Fp) * (1 + s * s) = 1 - s * s := h.2
  exact two_ne_zero' (by linear_combination -h2)

/-- The hypotheses of `C69_toJacobi` are met by the base point, those of the others by what it returns. -/
example : ∃ P, IsPoint (ExtPt.base : ExtPt Fe51) P ∧ P ∈ Even ∧ P ∉ E4 :=
  ⟨basePt, isPoint_iff.2 base_spec, basePt_even, basePt_not_E4⟩

end Ristretto.Props
