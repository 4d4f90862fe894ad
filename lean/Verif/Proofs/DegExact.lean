import Verif.Proofs.EdExact
import Verif.Proofs.Degenerate
import Verif.Spec.EdMachine

/-!
# Multiples of blank points, for every 32-byte scalar
-/

namespace Ristretto.Proofs.Ed
open Model FieldOps LawfulField Spec.EdRange Ristretto.Ed
set_option autoImplicit false

variable {F : Type} [LawfulField F]

/-- Signed digits of absolute value below the base are determined by their value, as far as zero goes. -/
theorem digitsVal_eq_zero (b : ℤ) (hb : 0 < b) : ∀ ws : List Int8, (∀ w ∈ ws, -b < w.toInt ∧ w.toInt < b) →
    digitsVal b ws = 0 → ∀ w ∈ ws, w.toInt = 0 := by
  intro ws
  induction ws with
  | nil => intro _ _ w hw; cases hw
  | cons v ws ih =>
    intro h hv
    simp only [digitsVal] at hv
    obtain ⟨h1, h2⟩ := h v (by simp)
    have hd : b ∣ v.toInt := ⟨-digitsVal b ws, by linarith⟩
    have h0 : v.toInt = 0 := Int.eq_zero_of_abs_lt_dvd hd (abs_lt.2 ⟨h1, h2⟩)
    have hr : digitsVal b ws = 0 := by
      rw [h0, zero_add] at hv
      rcases mul_eq_zero.1 hv with h | h
      · omega
      · exact h
    intro w hw
    rcases List.mem_cons.1 hw with rfl | hw
    · exact h0
    · exact ih (fun w hw => h w (by simp [hw])) hr w hw

theorem scalarMultSelect_zp_all {q : ExtPt F} (hq : Deg q) (w : Int8) :
    Zp (w.toInt ≠ 0 ∧ w.toInt.natAbs < 17) (scalarMultSelect (scalarMultLut q) w.toInt32) := by
  unfold scalarMultSelect
  simp only
  rw [negative_spec]
  apply condNeg_zp
  have hl := scalarMultLut_deg hq
  have h0 : (scalarMultLut q).headD ExtPt.zero = ExtPt.zero := rfl
  have hlen : (scalarMultLut q).tail.length = 16 := rfl
  rw [h0]
  have := selectLoop15_zp w (scalarMultLut q).tail 1 ExtPt.zero (by rw [hlen]) le_rfl
    (fun k e h => (hl (k + 1) e (by simpa [List.getElem?_tail] using h)).1 (by omega))
    (zp_zero.congr ⟨False.elim, fun h => by omega⟩)
  refine this.congr ?_
  rw [hlen]
  omega

theorem scalarMult_foldr_zp_all {q : ExtPt F} (hq : Deg q) (ws : List Int8) :
    Zp (∃ w ∈ ws, w.toInt ≠ 0 ∧ w.toInt.natAbs < 17)
      (ws.foldr (fun w p => scalarMultStep (scalarMultLut q) p w) ExtPt.zero) := by
  induction ws with
  | nil => exact zp_zero.congr (by simp)
  | cons w ws ih =>
    rw [List.foldr_cons]
    have := ((double5_zp ih).addExtended (scalarMultSelect_zp_all hq w)).toExtended
    refine this.congr ?_
    simp only [List.mem_cons, exists_eq_or_imp]
    exact or_comm

/-- What a digit counts for when those above `m` count as zero. -/
def cut (m : ℤ) (t : Int8) : Int8 := if t.toInt ≤ m then t else 0

theorem cut_lost (b k m n : ℕ) (t : Int8) (ht : t.toInt = (topDigit b k n : ℕ)) :
    (b : ℤ) ^ k * (cut m t).toInt = (b : ℤ) ^ k * t.toInt - (lost b k m n : ℕ) := by
  unfold cut lost
  by_cases h : topDigit b k n ≤ m
  · rw [if_pos (by omega), if_pos h]; simp
  · rw [if_neg (by omega), if_neg h, ht]; push_cast; simp; ring

theorem scalarMult_deg_all {q : ExtPt F} (hq : Deg q) (s : Bytes 32) :
    Zp (byWindows (leVal s) ≠ 0) (scalarMult q s) := by
  obtain ⟨ds, t, h1, h2, h3, h4, h5, h6⟩ := window5_all s
  have := scalarMult_foldr_zp_all hq (computeScalarWindow5 s)
  unfold scalarMult
  simp only
  rw [List.foldl_reverse]
  refine this.congr ?_
  have hv : byWindows (leVal s) = digitsVal 32 (ds ++ [cut 16 t]) := by
    rw [digitsVal_append, h2]
    simp only [digitsVal, mul_zero, add_zero]
    have := cut_lost 32 50 16 (leVal s % 2 ^ 255) t h4
    simp only [Nat.cast_ofNat] at this
    rw [this]
    unfold byWindows
    rw [← h6]
    ring
  have ht0 : 0 ≤ t.toInt := by omega
  have hc : -32 < (cut 16 t).toInt ∧ (cut 16 t).toInt < 32 := by
    unfold cut; split
    · omega
    · decide
  rw [hv, h1]
  constructor
  · rintro ⟨w, hw, hne, hlt⟩ hz
    have hall := digitsVal_eq_zero 32 (by norm_num) _ (fun v hv => by
      rcases List.mem_append.1 hv with hv | hv
      · have := h3 v hv; omega
      · rw [List.mem_singleton.1 hv]; exact hc) hz
    rcases List.mem_append.1 hw with hw | hw
    · exact hne (hall w (by simp [hw]))
    · have e := List.mem_singleton.1 hw
      subst e
      have := hall (cut 16 w) (by simp)
      unfold cut at this
      rw [if_pos (by omega)] at this
      exact hne this
  · intro hne
    by_contra hn
    push Not at hn
    apply hne
    apply digitsVal_zero
    intro w hw
    rcases List.mem_append.1 hw with hw | hw
    · by_contra h0
      have := hn w (by simp [hw]) h0
      have := h3 w hw
      omega
    · rw [List.mem_singleton.1 hw]
      unfold cut
      split
      · by_contra h0
        have := hn t (by simp) h0
        omega
      · rfl

theorem odd_ne (a : ℤ) (h : a % 2 = 1) (b : ℤ) : a + 2 * b ≠ 0 := by omega

theorem nafTail_ne_zero (naf : ℕ → Int8) (hok : NafOk naf) (hz : ∀ j, 256 ≤ j → naf j = 0) :
    ∀ (k i : ℕ), i + k = 256 → nafTail naf 256 i = 0 → ∀ j, i ≤ j → naf j = 0 := by
  intro k
  induction k with
  | zero => intro i hi _ j hj; exact hz j (by omega)
  | succ k ih =>
    intro i hi hv j hj
    rw [nafTail_step naf hz i] at hv
    have h0 : naf i = 0 := by
      rcases hok i with h | h
      · exact h
      · exact absurd hv (odd_ne _ h.1 _)
    by_cases hji : j = i
    · rw [hji]; exact h0
    · rw [h0] at hv
      have : nafTail naf 256 (i + 1) = 0 := by simpa using hv
      exact ih (i + 1) (by omega) this j (by omega)

theorem varTimeScalarMult_deg_all {q : ExtPt F} (hq : Deg q) (s : Bytes 32) :
    ∃ r, varTimeScalarMult q s = some r ∧ Zp (byNaf (leVal s) ≠ 0) r := by
  obtain ⟨hv, hok, hz⟩ := computeScalar5NAF_all s
  have hv' : byNaf (leVal s) = nafTail (computeScalar5NAF s) 256 0 := hv.symm
  rw [hv']
  clear hv hv'
  unfold varTimeScalarMult
  simp only
  generalize computeScalar5NAF s = naf at *
  cases ht : nafTop naf 256 with
  | none =>
    have h0 := nafTop_none _ _ ht
    refine ⟨_, rfl, zp_zero.congr ⟨False.elim, fun h => h ?_⟩⟩
    exact nafTail_zero _ _ _ (fun j _ => by
      by_cases hj : j < 256
      · exact h0 j hj
      · exact hz j (by omega))
  | some i =>
    obtain ⟨h1, h2, -⟩ := nafTop_some _ _ _ ht
    obtain ⟨r, e, h⟩ := varTimeLoop_deg hq _ hok (i + 1) i False ExtPt.zero (by omega) h2 zp_zero
    refine ⟨r, e, h.congr ⟨fun _ h0 => h2 ?_, fun _ => trivial⟩⟩
    exact nafTail_ne_zero naf hok hz 256 0 rfl h0 i (by omega)

theorem digits16_ne_zero (ds : List Int8) (t : Int8) (h2 : ds.length = 63) (h3 : ∀ w ∈ ds, -8 ≤ w.toInt ∧ w.toInt ≤ 7)
    (ht : -16 < t.toInt ∧ t.toInt < 16) :
    ((False ∨ ∃ w ∈ odds ds ++ [t], w.toInt ≠ 0) ∨ ∃ w ∈ evens ds, w.toInt ≠ 0) ↔ digitsVal 16 (ds ++ [t]) ≠ 0 := by
  obtain ⟨s1, s2, -, -⟩ := snoc_split ds t 31 h2
  constructor
  · intro h hz
    have hall := digitsVal_eq_zero 16 (by norm_num) _ (fun v hv => by
      rcases List.mem_append.1 hv with hv | hv
      · have := h3 v hv; omega
      · rw [List.mem_singleton.1 hv]; exact ht) hz
    rcases h with (h | ⟨w, hw, h0⟩) | ⟨w, hw, h0⟩
    · exact h
    · rw [← s2] at hw
      exact h0 (hall w (odds_mem _ w hw))
    · rw [← s1] at hw
      exact h0 (hall w (evens_mem _ w hw))
  · intro h0
    by_contra hn
    push Not at hn
    have e1 := digitsVal_zero 256 _ hn.1.2
    have e2 := digitsVal_zero 256 _ hn.2
    apply h0
    rw [evens_odds_val, s1, s2, e1, e2]
    rfl

theorem byTable_eq {s : Bytes 32} {ds : List Int8} {t : Int8} (h2 : ds.length = 63)
    (h4 : t.toInt = ((topDigit 16 63 (leVal s) : ℕ) : ℤ)) (h6 : digitsVal 16 ds + 16 ^ 63 * t.toInt = (leVal s : ℤ)) :
    byTable (leVal s) = digitsVal 16 (ds ++ [cut 8 t]) := by
  rw [digitsVal_append, h2]
  simp only [digitsVal, mul_zero, add_zero]
  have := cut_lost 16 63 8 (leVal s) t h4
  simp only [Nat.cast_ofNat] at this
  rw [this]
  unfold byTable
  rw [← h6]
  ring

theorem tableScalarMult_deg_all {t : Table F} (ht : DegT t) (s : Bytes 32) :
    Zp (byTable (leVal s) ≠ 0) (tableScalarMult t s) := by
  obtain ⟨ds, w, h1, h2, h3, h4, h5, h6⟩ := window4_all s
  obtain ⟨s1, s2, s3, s4⟩ := snoc_split ds w 31 h2
  rw [byTable_eq h2 h4 h6]
  have hds : ∀ w ∈ ds, -8 ≤ w.toInt ∧ w.toInt ≤ 8 := fun w hw => by have := h3 w hw; omega
  have hc : -8 ≤ (cut 8 w).toInt ∧ (cut 8 w).toInt ≤ 8 := by
    unfold cut; split
    · omega
    · decide
  have key : tableAddLoop t (odds ds ++ [w]) ExtPt.zero = tableAddLoop t (odds ds ++ [cut 8 w]) ExtPt.zero := by
    by_cases h : w.toInt ≤ 8
    · rw [cut, if_pos h]
    · obtain ⟨rows, row, hrr⟩ := snoc_of_length ht.1
      have hrows : rows.length = 31 := by have := ht.1; rw [hrr] at this; simpa using this
      have hrow := ht.2 row (by rw [hrr]; simp)
      have e0 : selectPoint row ((0 : Int8).toInt32) = NielsPt.zero := by
        have hc : ∀ (p q : NielsPt F), p.condSet q 0 = p := by
          intro p q
          have := nielsCondSet_spec (q := p) (r := q) False
          simpa [flag] using this
        obtain ⟨e, rest, rfl⟩ : ∃ e rest, row = e :: rest := by
          cases row with
          | nil => exact absurd hrow.1 (by simp)
          | cons e rest => exact ⟨e, rest, rfl⟩
        have hl : ∀ (row : List (NielsPt F)) (i : ℕ) (p : NielsPt F), i + row.length ≤ 8 →
            selectLoop 0 (Int32.ofNat i) row p = p := by
          intro row
          induction row with
          | nil => intro i p _; rfl
          | cons e rest ih =>
            intro i p hi
            simp only [List.length_cons] at hi
            have he : ∀ i : Fin 8, equal30 0 (Int32.ofNat i + 1) = 0 ∧ Int32.ofNat i + 1 = Int32.ofNat (i + 1) := by
              decide +kernel
            obtain ⟨e1, e2⟩ := he ⟨i, by omega⟩
            simp only at e1 e2
            rw [selectLoop, e1, hc, e2]
            exact ih (i + 1) p (by omega)
        unfold selectPoint
        have e1 : negative (0 : Int8).toInt32 = 0 := by decide
        have e2 : (0 : Int8).toInt32 - (((-(0 : Int32)) &&& (0 : Int8).toInt32) <<< 1) = 0 := by decide
        simp only [e1]
        rw [e2]
        have := hl (e :: rest) 0 NielsPt.zero (by rw [hrow.1])
        rw [show Int32.ofNat 0 = (0 : Int32) from rfl] at this
        rw [this, hc]
      rw [hrr, tableAddLoop_append _ _ _ _ _ (by rw [hrows, s4]), tableAddLoop_append _ _ _ _ _ (by rw [hrows, s4]),
        selectPoint_big hrow.1 w (by omega) (by omega), cut, if_neg h, e0]
  have a1 := tableAddLoop_zp t (odds ds ++ [cut 8 w]) False ExtPt.zero ht.2 (by rw [ht.1]; simp [s4])
    (fun v hv => by
      rcases List.mem_append.1 hv with hv | hv
      · exact hds v (odds_mem _ v hv)
      · rw [List.mem_singleton.1 hv]; exact hc) zp_zero
  have a2 := tableAddLoop_zp t (evens ds) _ _ ht.2 (by rw [ht.1, s3])
    (fun v hv => hds v (evens_mem _ v hv)) (double4_zp a1)
  unfold tableScalarMult
  simp only [h1, s1, s2]
  rw [key]
  exact a2.congr (digits16_ne_zero ds _ h2 h3 (by omega))

theorem degT_shape {t : Table F} (ht : DegT t) : ShapeT t := ⟨ht.1, fun row h => (ht.2 row h).1⟩

theorem tableVarTime_deg_all {t : Table F} (ht : DegT t) (s : Bytes 32) (h : topDigit 16 63 (leVal s) ≤ 8) :
    ∃ r, tableVarTimeScalarMult t s = some r ∧ Zp (leVal s ≠ 0) r := by
  obtain ⟨ds, w, h1, h2, h3, h4, h5, h6⟩ := window4_all s
  obtain ⟨s1, s2, s3, s4⟩ := snoc_split ds w 31 h2
  unfold tableVarTimeScalarMult
  simp only [h1, s1, s2]
  have hds : ∀ w ∈ ds, -8 ≤ w.toInt ∧ w.toInt ≤ 8 := fun w hw => by have := h3 w hw; omega
  obtain ⟨r1, e1, a1⟩ := tableVarTimeLoop_zp t (odds ds ++ [w]) False ExtPt.zero ht.2 (by rw [ht.1]; simp [s4])
    (fun v hv => by
      rcases List.mem_append.1 hv with hv | hv
      · exact hds v (odds_mem _ v hv)
      · rw [List.mem_singleton.1 hv]; omega) zp_zero
  obtain ⟨r2, e2, a2⟩ := tableVarTimeLoop_zp t (evens ds) _ _ ht.2 (by rw [ht.1, s3])
    (fun v hv => hds v (evens_mem _ v hv)) (double4_zp a1)
  refine ⟨r2, by simp only [e1, Option.bind_eq_bind, Option.bind_some, e2], a2.congr ?_⟩
  rw [digits16_ne_zero ds w h2 h3 (by omega), digitsVal_append, h2]
  simp only [digitsVal, mul_zero, add_zero]
  rw [h6]
  exact_mod_cast Iff.rfl

end Ristretto.Proofs.Ed
