import Verif.Spec.Repr
import Verif.Proofs.Api

/-!
# The representation relations of the specification are those of the proofs
-/

namespace Ristretto.Proofs
open Model FieldOps LawfulField
set_option autoImplicit false

theorem feVal_eq (a : Fe51) : feVal a = LawfulField.eval a := rfl

theorem limbsLe_iff (a : Fe51) : LimbsLe ptLimb a ↔ LawfulField.bd 2 a := by
  have : ptLimb = 2 * Fe51.U := by decide
  unfold LimbsLe
  rw [this]
  exact Iff.rfl

theorem limbsLe_iff' (n : ℕ) (a : Fe51) : LimbsLe (n * (2 ^ 51 + 2 ^ 18)) a ↔ LawfulField.bd n a := Iff.rfl

theorem isPoint_iff {q : ExtPt Fe51} {P : EPoint} : IsPoint q P ↔ IsPt q P :=
  ⟨fun h => ⟨(limbsLe_iff _).1 h.limbX, (limbsLe_iff _).1 h.limbY, (limbsLe_iff _).1 h.limbZ,
      (limbsLe_iff _).1 h.limbT, h.proj⟩,
   fun h => ⟨(limbsLe_iff _).2 h.bX, (limbsLe_iff _).2 h.bY, (limbsLe_iff _).2 h.bZ,
      (limbsLe_iff _).2 h.bT, h.proj⟩⟩

theorem represents_iff {q : ExtPt Fe51} {g : RGroup} : Represents q g ↔ Holds q g := by
  unfold Represents Holds
  simp only [isPoint_iff]

theorem isNiels_iff {q : NielsPt Fe51} {P : EPoint} : IsNielsPoint q P ↔ IsNp q P :=
  ⟨fun h => ⟨(limbsLe_iff _).1 h.limbP, (limbsLe_iff _).1 h.limbM, (limbsLe_iff _).1 h.limbD, h.p, h.m, h.d⟩,
   fun h => ⟨(limbsLe_iff _).2 h.bM, (limbsLe_iff _).2 h.bP, (limbsLe_iff _).2 h.bD, h.ym, h.yp, h.xy⟩⟩

theorem isTable_iff (t : Table Fe51) (P : EPoint) :
    IsTable t P ↔ ∀ i row, t[i]? = some row → IsRow row ((256 ^ i) • P) := by
  induction t generalizing P with
  | nil => simp [IsTable]
  | cons row rows ih =>
    unfold IsTable
    rw [ih]
    constructor
    · rintro ⟨h1, h2⟩ i r hi
      cases i with
      | zero => simp only [List.getElem?_cons_zero, Option.some.injEq] at hi; subst hi; simpa using h1
      | succ i =>
        rw [List.getElem?_cons_succ] at hi
        have := h2 i r hi
        rwa [← mul_nsmul', ← pow_succ] at this
    · intro h
      refine ⟨by simpa using h 0 row rfl, fun i r hi => ?_⟩
      have := h (i + 1) r (by rw [List.getElem?_cons_succ]; exact hi)
      rwa [pow_succ, mul_nsmul'] at this

theorem isTableOf_iff {t : Table Fe51} {P : EPoint} : IsTableOf t P ↔ IsTable t P ∧ t.length = 32 := by
  rw [isTable_iff]
  unfold IsTableOf IsRow
  constructor
  · rintro ⟨h1, h2⟩
    refine ⟨fun i row hi => ⟨(h2 i row hi).1, fun k e he => ?_⟩, h1⟩
    have := isNiels_iff.1 ((h2 i row hi).2 k e he)
    rwa [mul_nsmul'] at this
  · rintro ⟨h1, h2⟩
    refine ⟨h2, fun i row hi => ⟨(h1 i row hi).1, fun j n hn => ?_⟩⟩
    rw [isNiels_iff, mul_nsmul']
    exact (h1 i row hi).2 j n hn

theorem tableOf_iff {t : Table Fe51} {g : RGroup} : TableOf t g ↔ HoldsT t g := by
  unfold TableOf HoldsT
  simp only [isTableOf_iff, and_assoc]

end Ristretto.Proofs
