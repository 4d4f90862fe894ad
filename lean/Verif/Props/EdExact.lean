import Verif.Props.Ed
import Verif.Proofs.EdExact

/-!
# Property theorems: the multiple each multiplication computes, for every 32-byte scalar
-/

namespace Ristretto.Props
open Model Proofs Spec.EdRange
set_option autoImplicit false

theorem shape_of_table {t : Table Fe51} {P : EPoint} (ht : IsTableOf t P) : Proofs.Ed.ShapeT t :=
  ⟨ht.1, fun row hr => by
    obtain ⟨i, hi⟩ := List.mem_iff_getElem?.1 hr
    exact (ht.2 i row hi).1⟩

/-- **C64.** What the four multiplications compute, for every 32-byte scalar: `ScalarMult` drops bit 255 and a top
digit above 16, `VarTimeScalarMult` drops the last carry, multiplication with a table drops a top digit above 8, and
variable-time multiplication with a table panics for such a digit. -/
theorem C64_exact (q : Pt) (t : Table Fe51) (P : EPoint) (s : Bytes 32) (hq : IsPoint q P) (ht : IsTableOf t P) :
    IsPoint (scalarMult q s) ((((leVal s % 2 ^ 255 : ℕ) : ℤ) - (lost 32 50 16 (leVal s % 2 ^ 255) : ℕ)) • P) ∧
    (∃ r, varTimeScalarMult q s = some r ∧ IsPoint r (((leVal s : ℤ) - 2 ^ 256 * (carryOut 256 (leVal s) : ℕ)) • P)) ∧
    IsPoint (tableScalarMult t s) (((leVal s : ℤ) - (lost 16 63 8 (leVal s) : ℕ)) • P) ∧
    (topDigit 16 63 (leVal s) ≤ 8 → ∃ r, tableVarTimeScalarMult t s = some r ∧ IsPoint r (leVal s • P)) ∧
    (8 < topDigit 16 63 (leVal s) → tableVarTimeScalarMult t s = none) := by
  have hs := shape_of_table ht
  rw [isPoint_iff] at hq
  rw [isTableOf_iff] at ht
  simp only [isPoint_iff]
  exact ⟨Proofs.Ed.scalarMult_all hq s, Proofs.Ed.varTimeScalarMult_all hq s, Proofs.Ed.tableScalarMult_all ht.1 hs s,
    Proofs.Ed.tableVarTime_all ht.1 hs s⟩

/-- The numbers of the specification: nothing is lost below the two bounds, no carry remains up to 2^255, and a carry is
at most one. -/
theorem C64_bounds (n : ℕ) :
    (lost 32 50 16 n = 0 ↔ n < 17 * 32 ^ 50 - 16 * ((32 ^ 50 - 1) / 31)) ∧
    (lost 16 63 8 n = 0 ↔ n < 9 * 16 ^ 63 - 8 * ((16 ^ 63 - 1) / 15)) ∧
    (n ≤ 2 ^ 255 → carryOut 256 n = 0) ∧ (n < 2 ^ 256 → carryOut 256 n ≤ 1) := by
  refine ⟨?_, ?_, fun h => Proofs.Ed.carryOut_zero 256 n (by rw [pow_succ 2 255]; omega),
    fun h => Proofs.Ed.carryOut_le_one 256 n (by omega)⟩
  · rw [← Proofs.Ed.topDigit5_le]
    unfold lost
    split
    · rename_i h; simp [h]
    · rename_i h
      have : 0 < topDigit 32 50 n * 32 ^ 50 := Nat.mul_pos (by omega) (Nat.pow_pos (by norm_num))
      constructor
      · intro h'; omega
      · intro h'; exact absurd h' h
  · rw [← Proofs.Ed.topDigit4_le]
    unfold lost
    split
    · rename_i h; simp [h]
    · rename_i h
      have : 0 < topDigit 16 63 n * 16 ^ 63 := Nat.mul_pos (by omega) (Nat.pow_pos (by norm_num))
      constructor
      · intro h'; omega
      · intro h'; exact absurd h' h

/-- A small multiple of a power of two does not kill the base point. -/
theorem smul_basePt_ne (k m : ℕ) (h0 : 0 < m) (hm : m < l) : (2 ^ k * m) • basePt ≠ 0 := by
  intro h
  have h4 : (2 ^ k * m * 4) • stdBase = 0 := by
    have e : stdBase = basePt + torsI := by rw [basePt_eq]; abel
    have ht : (4 : ℕ) • torsI = 0 := torsI_mem
    rw [e, nsmul_add, mul_nsmul basePt, h, nsmul_zero, mul_nsmul' torsI, ht, nsmul_zero, add_zero]
  have hd : l ∣ 2 ^ k * m * 4 := by
    rw [← addOrderOf_stdBase]; exact addOrderOf_dvd_of_nsmul_eq_zero h4
  have e4 : 2 ^ k * m * 4 = 2 ^ (k + 2) * m := by rw [pow_add]; ring
  rw [e4] at hd
  have hc : Nat.Coprime l (2 ^ (k + 2)) := Nat.Coprime.pow_right _ (by decide +kernel)
  have := Nat.le_of_dvd h0 (hc.dvd_of_dvd_mul_left hd)
  omega

/-- Two multiples of the base point that differ by such a number are different. -/
theorem smul_basePt_inj {a b : ℤ} {k m : ℕ} (hm : m < l) (hd : a - b = ((2 ^ k * m : ℕ) : ℤ))
    (h : a • basePt = b • basePt) : m = 0 := by
  by_contra h0
  apply smul_basePt_ne k m (by omega) hm
  rw [← natCast_zsmul, ← hd, sub_zsmul, h, add_neg_cancel]

/-- **C64** (where `ScalarMult` is right): for exactly these scalars it gives `s * P` for all `P`. -/
theorem C64_scalarMult_iff (s : Bytes 32) :
    (∀ (q : Pt) (P : EPoint), IsPoint q P → IsPoint (scalarMult q s) (leVal s • P)) ↔
      leVal s < 17 * 32 ^ 50 - 16 * ((32 ^ 50 - 1) / 31) := by
  constructor
  · intro h
    have h1 := isPoint_iff.1 (h _ _ (isPoint_iff.2 base_spec))
    have h2 := Proofs.Ed.scalarMult_all (base_spec (F := Fe51)) s
    have he := h1.inj h2
    rw [← natCast_zsmul] at he
    have hlt : leVal s < 2 ^ 256 := by
      have := leVal_lt s
      calc leVal s < 256 ^ 32 := this
        _ = 2 ^ 256 := by norm_num
    rw [← Proofs.Ed.topDigit5_le]
    have ht := Proofs.Ed.topDigit5_max (leVal s % 2 ^ 255) (Nat.mod_lt _ (by norm_num))
    have hdm := Nat.div_add_mod (leVal s) (2 ^ 255)
    have hhi : leVal s / 2 ^ 255 ≤ 1 := by
      rw [Nat.div_le_iff_le_mul_add_pred (by norm_num)]
      simp only [Nat.reducePow] at *; omega
    by_contra hc
    have hD : ∃ m : ℕ, m ≤ 64 ∧ 0 < m ∧ ((leVal s : ℕ) : ℤ) -
        (((leVal s % 2 ^ 255 : ℕ) : ℤ) - (lost 32 50 16 (leVal s % 2 ^ 255) : ℕ)) = ((2 ^ 250 * m : ℕ) : ℤ) := by
      unfold lost
      by_cases ht16 : topDigit 32 50 (leVal s % 2 ^ 255) ≤ 16
      · rw [if_pos ht16]
        refine ⟨32 * (leVal s / 2 ^ 255), by omega, ?_, ?_⟩
        · rcases Nat.eq_zero_or_pos (leVal s / 2 ^ 255) with hz | hz
          · exfalso
            rw [hz, mul_zero, zero_add] at hdm
            rw [hdm] at ht16
            exact hc ht16
          · omega
        · generalize leVal s % 2 ^ 255 = n at *
          generalize leVal s / 2 ^ 255 = hi at *
          rw [← hdm]; push_cast; ring
      · rw [if_neg ht16]
        refine ⟨32 * (leVal s / 2 ^ 255) + topDigit 32 50 (leVal s % 2 ^ 255), by omega, by omega, ?_⟩
        generalize topDigit 32 50 (leVal s % 2 ^ 255) = t at *
        generalize leVal s % 2 ^ 255 = n at *
        generalize leVal s / 2 ^ 255 = hi at *
        rw [← hdm]; push_cast; ring
    obtain ⟨m, hm, hm0, hD⟩ := hD
    have := smul_basePt_inj (lt_of_le_of_lt hm (by decide +kernel)) hD he
    omega
  · intro h q P hq
    have hlt : leVal s < 2 ^ 255 := by norm_num at *; omega
    have hl := (C64_bounds (leVal s)).1.2 h
    have := Proofs.Ed.scalarMult_all (isPoint_iff.1 hq) s
    rw [Nat.mod_eq_of_lt hlt, hl] at this
    rw [isPoint_iff]
    simpa using this

/-- **C64** (where multiplication with a table is right): for exactly these scalars `ScalarMult` gives `s * P` for all
`P`, and for exactly these `VarTimeScalarMult` does not panic. -/
theorem C64_table_iff (s : Bytes 32) :
    ((∀ (t : Table Fe51) (P : EPoint), IsTableOf t P → IsPoint (tableScalarMult t s) (leVal s • P)) ↔
      leVal s < 9 * 16 ^ 63 - 8 * ((16 ^ 63 - 1) / 15)) ∧
    ∀ (t : Table Fe51) (P : EPoint), IsTableOf t P →
      ((tableVarTimeScalarMult t s).isSome ↔ leVal s < 9 * 16 ^ 63 - 8 * ((16 ^ 63 - 1) / 15)) := by
  refine ⟨⟨?_, ?_⟩, ?_⟩
  · intro h
    have hbt := isTableOf_iff.2 (tableCompute_spec (base_spec (F := Fe51)))
    have h1 := isPoint_iff.1 (h _ _ hbt)
    have h2 := Proofs.Ed.tableScalarMult_all (isTableOf_iff.1 hbt).1 (shape_of_table hbt) s
    have he := h1.inj h2
    rw [← natCast_zsmul] at he
    have hlt : leVal s < 2 ^ 256 := by
      have := leVal_lt s
      calc leVal s < 256 ^ 32 := this
        _ = 2 ^ 256 := by norm_num
    have ht := Proofs.Ed.topDigit4_max (leVal s) hlt
    rw [← Proofs.Ed.topDigit4_le]
    by_contra hc
    have hD : ((leVal s : ℕ) : ℤ) - (((leVal s : ℕ) : ℤ) - (lost 16 63 8 (leVal s) : ℕ)) =
        ((2 ^ 252 * topDigit 16 63 (leVal s) : ℕ) : ℤ) := by
      unfold lost
      rw [if_neg hc]
      generalize topDigit 16 63 (leVal s) = t
      push_cast
      ring
    have := smul_basePt_inj (lt_of_le_of_lt ht (by decide +kernel)) hD he
    omega
  · intro h t P ht
    have hl := (C64_bounds (leVal s)).2.1.2 h
    have := Proofs.Ed.tableScalarMult_all (isTableOf_iff.1 ht).1 (shape_of_table ht) s
    rw [hl] at this
    rw [isPoint_iff]
    simpa using this
  · intro t P ht
    obtain ⟨a, b⟩ := Proofs.Ed.tableVarTime_all (isTableOf_iff.1 ht).1 (shape_of_table ht) s
    rw [← Proofs.Ed.topDigit4_le]
    constructor
    · intro h
      by_contra hc
      rw [b (by omega)] at h
      cases h
    · intro h
      obtain ⟨r, hr, -⟩ := a h
      rw [hr]; rfl

/-- **C64** (where `VarTimeScalarMult` is right): for exactly the scalars whose recoding leaves no carry. -/
theorem C64_varTime_iff (s : Bytes 32) :
    (∀ (q : Pt) (P : EPoint), IsPoint q P → ∃ r, varTimeScalarMult q s = some r ∧ IsPoint r (leVal s • P)) ↔
      carryOut 256 (leVal s) = 0 := by
  constructor
  · intro h
    obtain ⟨r, hr, h1⟩ := h _ _ (isPoint_iff.2 base_spec)
    obtain ⟨r', hr', h2⟩ := Proofs.Ed.varTimeScalarMult_all (base_spec (F := Fe51)) s
    rw [hr] at hr'
    cases hr'
    have he := (isPoint_iff.1 h1).inj h2
    rw [← natCast_zsmul] at he
    have hlt : leVal s < 2 ^ 256 := by
      have := leVal_lt s
      calc leVal s < 256 ^ 32 := this
        _ = 2 ^ 256 := by norm_num
    have hc := (C64_bounds (leVal s)).2.2.2 hlt
    exact smul_basePt_inj (k := 256) (lt_of_le_of_lt hc (by decide +kernel)) (by push_cast; ring) he
  · intro h q P hq
    obtain ⟨r, hr, h2⟩ := Proofs.Ed.varTimeScalarMult_all (isPoint_iff.1 hq) s
    rw [h] at h2
    exact ⟨r, hr, isPoint_iff.2 (by simpa using h2)⟩

/-! The hypotheses are met, and both sides of each equivalence occur. -/

example : ∃ (q : Pt) (t : Table Fe51) (P : EPoint), P ≠ 0 ∧ IsPoint q P ∧ IsTableOf t P :=
  ⟨ExtPt.base, tableCompute ExtPt.base, basePt, fun h => basePt_not_E4 (h ▸ E4.zero_mem), isPoint_iff.2 base_spec,
    isTableOf_iff.2 (tableCompute_spec base_spec)⟩

/-- 2^254 + 2^248 is a scalar that `ScalarMult` still treats correctly, 2^254 + 2^249 is not. -/
example : 2 ^ 254 + 2 ^ 248 < 17 * 32 ^ 50 - 16 * ((32 ^ 50 - 1) / 31) ∧
    ¬ (2 ^ 254 + 2 ^ 249 < 17 * 32 ^ 50 - 16 * ((32 ^ 50 - 1) / 31)) := by norm_num

/-- 2^255 + 2^250 is a scalar that multiplication with a table still treats correctly, 2^255 + 2^251 is not. -/
example : 2 ^ 255 + 2 ^ 250 < 9 * 16 ^ 63 - 8 * ((16 ^ 63 - 1) / 15) ∧
    ¬ (2 ^ 255 + 2 ^ 251 < 9 * 16 ^ 63 - 8 * ((16 ^ 63 - 1) / 15)) := by norm_num

/-- The recoding of 3 * 2^254 leaves no carry, that of 17 * 2^251 leaves one. -/
example : carryOut 256 (3 * 2 ^ 254) = 0 ∧ carryOut 256 (17 * 2 ^ 251) = 1 := by
  have hz : ∀ (k j r : ℕ), carryOut (k + j) (r * 2 ^ j) = carryOut k r := by
    intro k j r
    induction j with
    | zero => simp
    | succ j ih =>
      rw [carryOut, if_neg (by omega), if_pos (by rw [pow_succ, ← mul_assoc]; omega), pow_succ, ← mul_assoc,
        Nat.mul_div_cancel _ (by norm_num)]
      exact ih
  constructor
  · rw [hz 2 254 3]; decide +kernel
  · rw [hz 5 251 17]; decide +kernel

end Ristretto.Props
