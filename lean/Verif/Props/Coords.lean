import Verif.Spec.Coords
import Verif.Props.Group
import Verif.Props.Encoding

/-!
# Property theorems: the coordinate systems and special points of `edwards25519`
-/

namespace Ristretto.Props
open Model Proofs
set_option autoImplicit false

theorem isCompleted_iff {q : ComplPt Fe51} {P : EPoint} : IsCompleted q P ↔ IsCp q P := by
  constructor
  · intro h
    refine ⟨h.limbX, h.limbY, h.limbZ, h.limbT, ⟨h.z, h.t, ?_, ?_⟩⟩
    · exact ((eq_div_iff h.z).1 h.x).symm
    · exact ((eq_div_iff h.t).1 h.y).symm
  · intro h
    exact ⟨h.bX, h.bY, h.bZ, h.bT, h.compl.z, h.compl.t, (eq_div_iff h.compl.z).2 h.compl.x.symm,
      (eq_div_iff h.compl.t).2 h.compl.y.symm⟩

theorem isProjective_iff {q : ProjPt Fe51} {P : EPoint} : IsProjective q P ↔ IsPp q P := by
  constructor
  · intro h
    exact ⟨(limbsLe_iff _).1 h.limbX, (limbsLe_iff _).1 h.limbY, (limbsLe_iff _).1 h.limbZ, h.z,
      ((eq_div_iff h.z).1 h.x).symm, ((eq_div_iff h.z).1 h.y).symm⟩
  · intro h
    exact ⟨(limbsLe_iff _).2 h.bX, (limbsLe_iff _).2 h.bY, (limbsLe_iff _).2 h.bZ, h.z,
      (eq_div_iff h.z).2 h.x.symm, (eq_div_iff h.z).2 h.y.symm⟩

/-- **C48** (`CompletedPoint`: AddExtended, SubExtended, DoubleExtended, DoubleProjective,
AddExtendedNiels, SubExtendedNiels). -/
theorem C48_completed (q r : Pt) (n : NielsPt Fe51) (j : ProjPt Fe51) (P Q : EPoint) (hq : IsPoint q P)
    (hr : IsPoint r Q) (hn : IsNielsPoint n Q) (hj : IsProjective j P) :
    IsCompleted (ComplPt.addExtended q r) (P + Q) ∧ IsCompleted (ComplPt.subExtended q r) (P - Q) ∧
    IsCompleted (ComplPt.doubleExtended q) (P + P) ∧ IsCompleted (ComplPt.doubleProjective j) (P + P) ∧
    IsCompleted (ComplPt.addExtendedNiels q n) (P + Q) ∧
    IsCompleted (ComplPt.subExtendedNiels q n) (P - Q) := by
  rw [isPoint_iff] at hq hr
  rw [isNiels_iff] at hn
  rw [isProjective_iff] at hj
  simp only [isCompleted_iff]
  exact ⟨addExtended_spec hq hr, subExtended_spec hq hr, doubleExtended_spec hq, doubleProjective_spec hj,
    addExtendedNiels_spec hq hn, subExtendedNiels_spec hq hn⟩

/-- **C48** (conversions between the coordinate systems, and the neutral element in each). -/
theorem C48_conversions (q : Pt) (c : ComplPt Fe51) (n : NielsPt Fe51) (P : EPoint) (hq : IsPoint q P)
    (hc : IsCompleted c P) (hn : IsNielsPoint n P) :
    IsPoint c.toExtended P ∧ IsProjective c.toProjective P ∧ IsProjective q.toProjective P ∧
    IsNielsPoint (NielsPt.ofExtended q) P ∧ IsNielsPoint n.neg (-P) ∧
    IsProjective (ProjPt.zero : ProjPt Fe51) 0 ∧ IsNielsPoint (NielsPt.zero : NielsPt Fe51) 0 ∧
    IsPoint (ExtPt.zero : Pt) 0 := by
  rw [isPoint_iff] at hq
  rw [isNiels_iff] at hn
  rw [isCompleted_iff] at hc
  simp only [isPoint_iff, isProjective_iff, isNiels_iff]
  refine ⟨toExtended_spec hc, toProjective_spec hc, extToProjective_spec hq, ofExtended_spec hq, nielsNeg_spec hn,
    extToProjective_spec zero_spec, nielsZero_spec, zero_spec⟩

/-- The hypotheses of the two theorems are met with two different points. -/
example : ∃ (q r : Pt) (n : NielsPt Fe51) (j : ProjPt Fe51) (c : ComplPt Fe51) (P Q : EPoint), P ≠ Q ∧ P ≠ 0 ∧ Q ≠ 0 ∧
    IsPoint q P ∧ IsPoint r Q ∧ IsNielsPoint n Q ∧ IsProjective j P ∧ IsCompleted c P := by
  have hb := base_spec (F := Fe51)
  have hn := neg_spec hb
  have hz : basePt ≠ 0 := fun h => basePt_not_E4 (h ▸ E4.zero_mem)
  refine ⟨ExtPt.base, ExtPt.neg ExtPt.base, NielsPt.ofExtended (ExtPt.neg ExtPt.base), ExtPt.base.toProjective,
    ComplPt.addExtended ExtPt.base ExtPt.zero, basePt, -basePt, ?_, hz, neg_ne_zero.2 hz, isPoint_iff.2 hb,
    isPoint_iff.2 hn, isNiels_iff.2 (ofExtended_spec hn), isProjective_iff.2 (extToProjective_spec hb),
    isCompleted_iff.2 ?_⟩
  · intro h
    apply basePt_not_E4
    rw [mem_E4]
    exact Or.inl (double_eq_zero.1 (eq_neg_iff_add_eq_zero.1 h))
  · have := addExtended_spec hb (zero_spec (F := Fe51))
    rwa [add_zero] at this

/-- The points the three `SetTorsion` methods store. -/
theorem torsion_isPt : IsPt (ExtPt.torsion1 : Pt) torsM ∧ IsPt (ExtPt.torsion2 : Pt) torsI ∧
    IsPt (ExtPt.torsion3 : Pt) (-torsI) := by
  refine ⟨⟨?_, ?_, ?_, ?_, ?_⟩, ⟨?_, ?_, ?_, ?_, ?_⟩, ⟨?_, ?_, ?_, ?_, ?_⟩⟩
  all_goals first
    | exact bd12 LawfulField.bd_feZero
    | exact bd12 LawfulField.bd_feOne
    | exact bd12 LawfulField.bd_feMinusOne
    | exact bd12 LawfulField.bd_feI
    | exact bd12 LawfulField.bd_feMinusI
    | skip
  all_goals
    simp only [ExtPt.torsion1, ExtPt.torsion2, ExtPt.torsion3, LawfulField.eval_feZero, LawfulField.eval_feOne,
      LawfulField.eval_feMinusOne, LawfulField.eval_feI, LawfulField.eval_feMinusI]
    constructor <;> simp [torsM, torsI]

/-- **C24** (SetTorsion1, 2 and 3): they are the three points of the curve other than the neutral element killed by 4,
each stands for the neutral group element, and adding one of them changes neither `Equals` nor the encoding. -/
theorem C24_torsion (q : Pt) (P : EPoint) (hq : IsPoint q P) (hP : P ∈ Even) :
    (∀ T : EPoint, 4 • T = 0 ↔ T = 0 ∨ IsPoint (ExtPt.torsion1 : Pt) T ∨ IsPoint (ExtPt.torsion2 : Pt) T ∨
      IsPoint (ExtPt.torsion3 : Pt) T) ∧
    ∀ t ∈ [(ExtPt.torsion1 : Pt), ExtPt.torsion2, ExtPt.torsion3],
      Represents t 0 ∧ Point.equals t ExtPt.zero = true ∧ Point.equals (ExtPt.add q t) q = true ∧
      Point.equals (ExtPt.sub q t) q = true ∧ ExtPt.ristretto (ExtPt.add q t) = ExtPt.ristretto q := by
  obtain ⟨h1, h2, h3⟩ := torsion_isPt
  constructor
  · intro T
    have : 4 • T = 0 ↔ T ∈ E4 := Iff.rfl
    rw [this, mem_E4_cases]
    simp only [isPoint_iff]
    constructor
    · rintro (rfl | rfl | rfl | rfl)
      exacts [Or.inl rfl, Or.inr (Or.inl h1), Or.inr (Or.inr (Or.inl h2)), Or.inr (Or.inr (Or.inr h3))]
    · rintro (h | h | h | h)
      exacts [Or.inl h, Or.inr (Or.inl (h.inj h1)), Or.inr (Or.inr (Or.inl (h.inj h2))),
        Or.inr (Or.inr (Or.inr (h.inj h3)))]
  · have key : ∀ t : Pt, (∃ T ∈ E4, IsPt t T) → Represents t 0 := by
      rintro t ⟨T, hT, ht⟩
      refine ⟨T, E4_le_Even hT, isPoint_iff.2 ht, ?_⟩
      rw [← cls_zero, cls_eq, sub_zero]
      exact hT
    intro t ht
    have hr : Represents t 0 := by
      simp only [List.mem_cons, List.not_mem_nil, or_false] at ht
      rcases ht with rfl | rfl | rfl
      · exact key _ ⟨_, mem_E4_cases.2 (Or.inr (Or.inl rfl)), h1⟩
      · exact key _ ⟨_, mem_E4_cases.2 (Or.inr (Or.inr (Or.inl rfl))), h2⟩
      · exact key _ ⟨_, mem_E4_cases.2 (Or.inr (Or.inr (Or.inr rfl))), h3⟩
    have hqr : Represents q (cls P hP) := ⟨P, hP, hq, rfl⟩
    have ht' := represents_iff.1 hr
    have hq' := represents_iff.1 hqr
    refine ⟨hr, (ht'.equals holds_zero).2 rfl, ((hq'.add ht').equals hq').2 (add_zero _),
      ((hq'.sub ht').equals hq').2 (sub_zero _), ?_⟩
    rw [(hq'.add ht').bytes, hq'.bytes, add_zero]

end Ristretto.Props
