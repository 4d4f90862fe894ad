import Verif.Proofs.EdShape

/-!
# Scalars outside the range of the multiplications of package edwards25519
-/

namespace Ristretto.Proofs.Ed
open Model FieldOps LawfulField
set_option autoImplicit false

variable {F : Type} [LawfulField F]

/-- `2 ^ 255`. -/
def bit255 : Bytes 32 := leBytes 32 (2 ^ 255)

/-- `2 ^ 256 - 1`. -/
def allOnes : Bytes 32 := leBytes 32 (2 ^ 256 - 1)

theorem leVal_bit255 : leVal bit255 = 2 ^ 255 := by decide +kernel
theorem leVal_allOnes : leVal allOnes = 2 ^ 256 - 1 := by decide +kernel

theorem window5_bit255 : computeScalarWindow5 bit255 = List.replicate 51 0 := by decide +kernel

/-- `ScalarMult` does not see bit 255. -/
theorem scalarMult_bit255 {q : ExtPt F} {P : EPoint} (hq : IsPt q P) : IsPt (scalarMult q bit255) 0 := by
  unfold scalarMult
  simp only
  rw [window5_bit255, List.foldl_reverse]
  have h := scalarMult_foldr hq (List.replicate 51 0) (fun w hw => by
    rw [List.eq_of_mem_replicate hw]; decide)
  have e : digitsVal 32 (List.replicate 51 (0 : Int8)) = 0 := by decide +kernel
  rw [e, zero_zsmul] at h
  exact h

theorem nafLoop_ge (x : ℕ → UInt64) : ∀ (fuel pos : ℕ) (carry : UInt64) (naf : ℕ → Int8), (∀ j, 256 ≤ j → naf j = 0) →
    ∀ j, 256 ≤ j → nafLoop x fuel pos carry naf j = 0 := by
  intro fuel
  induction fuel with
  | zero => intro pos carry naf h; exact h
  | succ fuel ih =>
    intro pos carry naf h
    have hset : ∀ v, pos < 256 → ∀ j, 256 ≤ j → nafSet naf pos v j = 0 := by
      intro v hp j hj
      unfold nafSet
      rw [if_neg (by omega)]
      exact h j hj
    simp only [nafLoop]
    split
    · rename_i hp
      split
      · exact ih _ _ _ h
      · split
        · exact ih _ _ _ (hset _ hp)
        · exact ih _ _ _ (hset _ hp)
    · exact h

theorem naf_allOnes_low : (List.range 256).map (computeScalar5NAF allOnes) = -1 :: List.replicate 255 0 := by
  decide +kernel

theorem naf_allOnes : computeScalar5NAF allOnes 0 = -1 ∧ ∀ j, 1 ≤ j → computeScalar5NAF allOnes j = 0 := by
  have h := naf_allOnes_low
  have hk : ∀ j, j < 256 → some (computeScalar5NAF allOnes j) = (-1 :: List.replicate 255 (0 : Int8))[j]? := by
    intro j hj
    rw [← h, List.getElem?_map, List.getElem?_range hj]
    rfl
  refine ⟨?_, fun j hj => ?_⟩
  · have := hk 0 (by omega)
    rw [List.getElem?_cons_zero] at this
    exact Option.some.inj this
  by_cases h256 : j < 256
  · obtain ⟨k, rfl⟩ : ∃ k, j = k + 1 := ⟨j - 1, by omega⟩
    have := hk (k + 1) h256
    rw [List.getElem?_cons_succ, List.getElem?_replicate, if_pos (by omega)] at this
    exact Option.some.inj this
  · exact nafLoop_ge _ _ _ _ _ (fun _ _ => rfl) j (by omega)

/-- `VarTimeScalarMult` loses the last carry. -/
theorem varTimeScalarMult_allOnes {q : ExtPt F} {P : EPoint} (hq : IsPt q P) :
    ∃ r, varTimeScalarMult q allOnes = some r ∧ IsPt r (-P) := by
  obtain ⟨h0, h1⟩ := naf_allOnes
  unfold varTimeScalarMult
  simp only
  generalize computeScalar5NAF allOnes = naf at *
  have hz : ∀ j, 256 ≤ j → naf j = 0 := fun j hj => h1 j (by omega)
  have hok : NafOk naf := by
    intro i
    by_cases hi : i = 0
    · rw [hi, h0]; right; decide
    · exact Or.inl (h1 i (by omega))
  have hv : nafTail naf 256 0 = -1 := by
    rw [nafTail_step naf hz 0, nafTail_zero naf 256 (0 + 1) (fun j hj => h1 j (by omega)), h0]
    decide
  have ht : nafTop naf 256 = some 0 := by
    cases ht : nafTop naf 256 with
    | none => exact absurd (nafTop_none naf 256 ht 0 (by omega)) (by rw [h0]; decide)
    | some i =>
      obtain ⟨-, b, -⟩ := nafTop_some naf 256 i ht
      by_cases hi : i = 0
      · rw [hi]
      · exact absurd (h1 i (by omega)) b
  rw [ht]
  obtain ⟨r, hr, hp⟩ := varTimeLoop_spec hq naf hok hz 1 0 ExtPt.zero (by omega) (by rw [h0]; decide) (by
    rw [nafTail_zero naf 256 (0 + 1) (fun j hj => h1 j (by omega))]
    simpa using zero_spec)
  rw [hv] at hp
  exact ⟨r, hr, by simpa using hp⟩

theorem window4_allOnes : computeScalarWindow4 allOnes = -1 :: (List.replicate 62 0 ++ [16]) := by decide +kernel

/-- No entry is selected for a digit that is too large: the neutral element is added. -/
theorem selectPoint_16 {row : List (NielsPt F)} (h : row.length = 8) :
    selectPoint row (16 : Int8).toInt32 = NielsPt.zero := by
  have hc : ∀ (p q : NielsPt F), p.condSet q 0 = p := by
    intro p q
    have := nielsCondSet_spec (q := p) (r := q) False
    simpa [flag] using this
  have hl : ∀ (row : List (NielsPt F)) (i : ℕ) (p : NielsPt F), i + row.length ≤ 8 →
      selectLoop 16 (Int32.ofNat i) row p = p := by
    intro row
    induction row with
    | nil => intro i p _; rfl
    | cons e rest ih =>
      intro i p hi
      simp only [List.length_cons] at hi
      have he : ∀ i : Fin 8, equal30 16 (Int32.ofNat i + 1) = 0 ∧ Int32.ofNat i + 1 = Int32.ofNat (i + 1) := by
        decide +kernel
      obtain ⟨e1, e2⟩ := he ⟨i, by omega⟩
      simp only at e1 e2
      rw [selectLoop, e1, hc, e2]
      exact ih (i + 1) p (by omega)
  unfold selectPoint
  have e1 : negative (16 : Int8).toInt32 = 0 := by decide
  have e2 : (16 : Int8).toInt32 - (((-(0 : Int32)) &&& (16 : Int8).toInt32) <<< 1) = 16 := by decide
  simp only [e1]
  rw [e2]
  have := hl row 0 NielsPt.zero (by omega)
  rw [show Int32.ofNat 0 = (0 : Int32) from rfl] at this
  rw [this, hc]

theorem tableAddLoop_append : ∀ (rows : List (List (NielsPt F))) (ws : List Int8) (row : List (NielsPt F)) (w : Int8)
    (p : ExtPt F), rows.length = ws.length → tableAddLoop (rows ++ [row]) (ws ++ [w]) p =
      (ComplPt.addExtendedNiels (tableAddLoop rows ws p) (selectPoint row w.toInt32)).toExtended
  | [], [], row, w, p, _ => by simp [tableAddLoop]
  | r :: rows, v :: ws, row, w, p, h => by
    simp only [List.cons_append, tableAddLoop]
    exact tableAddLoop_append rows ws row w _ (by simpa using h)
  | [], _ :: _, _, _, _, h => by simp at h
  | _ :: _, [], _, _, _, h => by simp at h

theorem isTable_left : ∀ (rows : List (List (NielsPt F))) {rest : List (List (NielsPt F))} {P : EPoint},
    IsTable (rows ++ rest) P → IsTable rows P
  | [], _, _, _ => trivial
  | _ :: rows, _, _, h => ⟨h.1, isTable_left rows h.2⟩

theorem snoc_of_length {α : Type} {t : List α} {n : ℕ} (h : t.length = n + 1) : ∃ rows row, t = rows ++ [row] := by
  rcases List.eq_nil_or_concat t with h' | ⟨rows, row, h'⟩
  · rw [h'] at h; simp at h
  · exact ⟨rows, row, by simpa using h'⟩

/-- `ScalarMultTable.ScalarMult` loses the last digit. -/
theorem tableScalarMult_allOnes {t : Table F} {P : EPoint} (ht : IsTable t P) (hs : ShapeT t) :
    IsPt (tableScalarMult t allOnes) (-P) := by
  unfold tableScalarMult
  simp only [window4_allOnes]
  have ho : odds (-1 :: (List.replicate 62 (0 : Int8) ++ [16])) = List.replicate 31 0 ++ [16] := by decide +kernel
  have he : evens (-1 :: (List.replicate 62 (0 : Int8) ++ [16])) = -1 :: List.replicate 31 0 := by decide +kernel
  rw [ho, he]
  obtain ⟨hl, hr⟩ := hs
  have h1 : IsPt (tableAddLoop t (List.replicate 31 0 ++ [16]) ExtPt.zero) 0 := by
    obtain ⟨rows, row, rfl⟩ := snoc_of_length hl
    have hrows : rows.length = 31 := by simpa using hl
    have hsel : selectPoint row (16 : Int8).toInt32 = NielsPt.zero := selectPoint_16 (hr row (by simp))
    rw [tableAddLoop_append _ _ _ _ _ (by simpa using hrows), hsel]
    have h := tableAddLoop_spec rows (List.replicate 31 0) P 0 ExtPt.zero (isTable_left rows ht) (by simpa using hrows)
      (fun w hw => by rw [List.eq_of_mem_replicate hw]; decide) zero_spec
    have e : digitsVal 256 (List.replicate 31 (0 : Int8)) = 0 := by decide +kernel
    rw [e, zero_zsmul] at h
    have := toExtended_spec (addExtendedNiels_spec h nielsZero_spec)
    simpa using this
  have h2 := tableAddLoop_spec t (-1 :: List.replicate 31 0) P _ _ ht (by rw [hl]; rfl)
    (fun w hw => by
      rcases List.mem_cons.1 hw with h | h
      · rw [h]; decide
      · rw [List.eq_of_mem_replicate h]; decide) (double4_spec h1)
  have e : digitsVal 256 (-1 :: List.replicate 31 (0 : Int8)) = -1 := by decide +kernel
  rw [e] at h2
  simpa using h2

/-- `ScalarMultTable.VarTimeScalarMult` panics. -/
theorem tableVarTime_allOnes {t : Table F} (ht : ShapeT t) : tableVarTimeScalarMult t allOnes = none := by
  unfold tableVarTimeScalarMult
  simp only [window4_allOnes]
  have ho : odds (-1 :: (List.replicate 62 (0 : Int8) ++ [16])) = List.replicate 31 0 ++ [16] := by decide +kernel
  rw [ho]
  obtain ⟨hl, hr⟩ := ht
  have hz : ∀ (n : ℕ) (rows : List (List (NielsPt F))) (row : List (NielsPt F)) (p : ExtPt F), row.length = 8 →
      rows.length = n → tableVarTimeLoop (rows ++ [row]) (List.replicate n 0 ++ [16]) p = none := by
    intro n
    induction n with
    | zero =>
      intro rows row p hrow hn
      rw [List.length_eq_zero_iff.1 hn]
      have e : varTimeSelectPoint row (16 : Int8).toInt32 = none := by
        unfold varTimeSelectPoint
        rw [if_neg (by decide)]
        apply List.getElem?_eq_none
        rw [hrow]; decide
      simp only [List.nil_append, List.replicate_zero, tableVarTimeLoop, e]
      rw [if_neg (by decide)]
      rfl
    | succ n ih =>
      intro rows row p hrow hn
      obtain ⟨r, rows, rfl⟩ : ∃ r rs, rows = r :: rs := by
        cases rows with
        | nil => simp at hn
        | cons r rs => exact ⟨r, rs, rfl⟩
      simp only [List.replicate_succ, List.cons_append, tableVarTimeLoop]
      rw [if_pos (by decide)]
      exact ih rows row p hrow (by simpa using hn)
  obtain ⟨rows, row, rfl⟩ := snoc_of_length hl
  rw [hz 31 rows row _ (hr row (by simp)) (by simpa using hl)]
  rfl

end Ristretto.Proofs.Ed
