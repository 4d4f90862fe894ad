import Verif.Proofs.Curve
import Verif.Proofs.Digits

/-!
# `ScalarMult` and the table-based multiplications compute `s • P`
-/

namespace Ristretto.Proofs
open Model FieldOps LawfulField
set_option autoImplicit false

variable {F : Type} [LawfulField F]

/-! ## The window method of curve.go -/

theorem equal15_spec (j : Fin 18) : ∀ w : Int8,
    (equal15 w.toInt32 (-(Int32.ofNat j)) ||| equal15 w.toInt32 (Int32.ofNat j)) =
      flag (w.toInt.natAbs = j.val) := by
  revert j
  have : ∀ k : Fin 256, ∀ j : Fin 18, (equal15 (⟨⟨⟨k⟩⟩⟩ : Int8).toInt32 (-(Int32.ofNat j)) ||| equal15 (⟨⟨⟨k⟩⟩⟩ : Int8).toInt32 (Int32.ofNat j)) =
      flag ((⟨⟨⟨k⟩⟩⟩ : Int8).toInt.natAbs = j.val) := by decide +kernel
  intro j w
  obtain ⟨⟨⟨k⟩⟩⟩ := w
  exact this k j

theorem negative_spec : ∀ w : Int8, negative w.toInt32 = flag (w.toInt < 0) :=
  int8_forall (by decide +kernel)

theorem selectLoop15_spec (P : EPoint) (w : Int8) (rest : List (ExtPt F)) : ∀ (j : ℕ) (t : ExtPt F),
    j + rest.length ≤ 17 →
    (∀ (k : ℕ) (e : ExtPt F), rest[k]? = some e → IsPt e ((j + k) • P)) →
    IsPt t ((if w.toInt.natAbs < j then w.toInt.natAbs else 0) • P) →
    IsPt (scalarMultSelectLoop w.toInt32 (Int32.ofNat j) rest t)
      ((if w.toInt.natAbs < j + rest.length then w.toInt.natAbs else 0) • P) := by
  induction rest with
  | nil => intro j t _ _ ht; simpa [scalarMultSelectLoop] using ht
  | cons e rest ih =>
    intro j t hj hk ht
    simp only [List.length_cons] at hj
    simp only [scalarMultSelectLoop]
    rw [equal15_spec ⟨j, by omega⟩ w, condSet_spec]
    have hj1 : Int32.ofNat j + 1 = Int32.ofNat (j + 1) := by
      rw [Int32.ofNat_add]; rfl
    rw [hj1]
    have := ih (j + 1) (if w.toInt.natAbs = j then e else t) (by omega) (by
      intro k e' he'
      have := hk (k + 1) e' (by simpa using he')
      rw [show j + 1 + k = j + (k + 1) by omega]
      exact this) (by
      by_cases h : w.toInt.natAbs = j
      · rw [if_pos h, if_pos (by omega), h]
        have := hk 0 e (by simp)
        simpa using this
      · rw [if_neg h]
        have e : (w.toInt.natAbs < j + 1) ↔ (w.toInt.natAbs < j) := by omega
        simp only [e]
        exact ht)
    rw [List.length_cons, show j + (rest.length + 1) = j + 1 + rest.length by omega]
    exact this

theorem condNeg_spec {t : ExtPt F} {P : EPoint} (ht : IsPt t P) (c : Prop) [Decidable c] :
    IsPt ⟨condSet t.X (neg t.X) (flag c), t.Y, t.Z, condSet t.T (neg t.T) (flag c)⟩
      (if c then -P else P) := by
  simp only [condSet_flag]
  by_cases h : c
  · simp only [h, if_true]; exact neg_spec ht
  · simp only [h, if_false]; exact ht

theorem scalarMultLut_spec {q : ExtPt F} {P : EPoint} (hq : IsPt q P) (k : ℕ) (e : ExtPt F)
    (h : (scalarMultLut q)[k]? = some e) : IsPt e (k • P) := by
  have h0 : IsPt (ExtPt.zero : ExtPt F) (0 • P) := by rw [zero_nsmul]; exact zero_spec
  have h1 : IsPt q (1 • P) := by rw [one_nsmul]; exact hq
  have dbl : ∀ (a : ExtPt F) (n : ℕ), IsPt a (n • P) → IsPt (ExtPt.double a) ((n + n) • P) := by
    intro a n ha; rw [add_nsmul]; exact double_spec ha
  have inc : ∀ (a : ExtPt F) (n : ℕ), IsPt a (n • P) → IsPt (ExtPt.add a q) ((n + 1) • P) := by
    intro a n ha; rw [succ_nsmul]; exact add_spec ha hq
  have h2 := dbl _ _ h1
  have h3 := inc _ _ h2
  have h4 := dbl _ _ h2
  have h5 := inc _ _ h4
  have h6 := dbl _ _ h3
  have h7 := inc _ _ h6
  have h8 := dbl _ _ h4
  have h9 := inc _ _ h8
  have h10 := dbl _ _ h5
  have h11 := inc _ _ h10
  have h12 := dbl _ _ h6
  have h13 := inc _ _ h12
  have h14 := dbl _ _ h7
  have h15 := inc _ _ h14
  have h16 := dbl _ _ h8
  simp only [scalarMultLut] at h
  rcases k with _ | _ | _ | _ | _ | _ | _ | _ | _ | _ | _ | _ | _ | _ | _ | _ | _ | k
  case succ.succ.succ.succ.succ.succ.succ.succ.succ.succ.succ.succ.succ.succ.succ.succ.succ =>
    simp at h
  all_goals
    simp only [List.getElem?_cons_succ, List.getElem?_cons_zero, Option.some.injEq] at h
    rw [← h]
    assumption

theorem scalarMultSelect_spec {q : ExtPt F} {P : EPoint} (hq : IsPt q P) (w : Int8)
    (h1 : -16 ≤ w.toInt) (h2 : w.toInt ≤ 16) :
    IsPt (scalarMultSelect (scalarMultLut q) w.toInt32) (w.toInt • P) := by
  unfold scalarMultSelect
  simp only
  have hl := scalarMultLut_spec hq
  have hlen : (scalarMultLut q).length = 17 := rfl
  have hlen' : (scalarMultLut q).tail.length = 16 := rfl
  have hloop := selectLoop15_spec P w (scalarMultLut q).tail 1 ((scalarMultLut q).headD ExtPt.zero)
    (by omega) (by
      intro k e he
      have := hl (k + 1) e (by simpa using he)
      rw [add_comm]; exact this) (by
      have : IsPt (ExtPt.zero : ExtPt F) (0 : EPoint) := zero_spec
      have e0 : (if w.toInt.natAbs < 1 then w.toInt.natAbs else 0) = 0 := by split <;> omega
      rw [e0, zero_nsmul]
      exact this)
  rw [hlen', if_pos (by omega)] at hloop
  have h1' : Int32.ofNat 1 = 1 := rfl
  rw [h1'] at hloop
  have := condNeg_spec hloop (w.toInt < 0)
  rw [negative_spec]
  convert this using 1
  rw [← natCast_zsmul]
  split
  · rw [← neg_zsmul]; congr 1; omega
  · congr 1; omega

theorem double5 {p : ExtPt F} {P : EPoint} (hp : IsPt p P) :
    IsPt (
      let cp := ComplPt.doubleExtended p
      let cp := ComplPt.doubleProjective cp.toProjective
      let cp := ComplPt.doubleProjective cp.toProjective
      let cp := ComplPt.doubleProjective cp.toProjective
      let cp := ComplPt.doubleProjective cp.toProjective
      cp.toExtended) ((32 : ℤ) • P) := by
  have h1 := doubleExtended_spec hp
  have h2 := doubleProjective_spec (toProjective_spec h1)
  have h3 := doubleProjective_spec (toProjective_spec h2)
  have h4 := doubleProjective_spec (toProjective_spec h3)
  have h5 := doubleProjective_spec (toProjective_spec h4)
  have := toExtended_spec h5
  convert this using 1
  abel

theorem scalarMultStep_spec {q p : ExtPt F} {P Q : EPoint} (hq : IsPt q P) (hp : IsPt p Q) (w : Int8)
    (h1 : -16 ≤ w.toInt) (h2 : w.toInt ≤ 16) :
    IsPt (scalarMultStep (scalarMultLut q) p w) ((32 : ℤ) • Q + w.toInt • P) :=
  add_spec (double5 hp) (scalarMultSelect_spec hq w h1 h2)

theorem scalarMult_foldr {q : ExtPt F} {P : EPoint} (hq : IsPt q P) (ws : List Int8)
    (h : ∀ w ∈ ws, -16 ≤ w.toInt ∧ w.toInt ≤ 16) :
    IsPt (ws.foldr (fun w p => scalarMultStep (scalarMultLut q) p w) ExtPt.zero)
      (digitsVal 32 ws • P) := by
  induction ws with
  | nil => simpa [digitsVal] using zero_spec
  | cons w ws ih =>
    obtain ⟨h1, h2⟩ := h w (by simp)
    have := scalarMultStep_spec hq (ih (fun w hw => h w (by simp [hw]))) w h1 h2
    simp only [List.foldr_cons, digitsVal]
    rw [add_comm, add_zsmul, mul_zsmul]
    exact this

/-- `ScalarMult` multiplies by the number its 32 bytes stand for. -/
theorem scalarMult_spec {q : ExtPt F} {P : EPoint} (hq : IsPt q P) (s : Bytes 32)
    (hs : leVal s < 2 ^ 254) : IsPt (scalarMult q s) (leVal s • P) := by
  obtain ⟨hv, hr⟩ := computeScalarWindow5_spec s hs
  have := scalarMult_foldr hq _ hr
  rw [hv, natCast_zsmul] at this
  unfold scalarMult
  simp only
  rw [List.foldl_reverse]
  exact this

/-! ## Tables -/

/-- A row of a table: entry `k` is `(k+1) • P`. -/
def IsRow (row : List (NielsPt F)) (P : EPoint) : Prop :=
  row.length = 8 ∧ ∀ (k : ℕ) (e : NielsPt F), row[k]? = some e → IsNp e ((k + 1) • P)

/-- A table: row `r` is for `256^r • P`. -/
def IsTable : List (List (NielsPt F)) → EPoint → Prop
  | [], _ => True
  | row :: rows, P => IsRow row P ∧ IsTable rows (256 • P)

theorem tableRow_spec {cp : ExtPt F} {P : EPoint} (hcp : IsPt cp P) : ∀ (n m : ℕ) (c : ExtPt F),
    IsPt c (m • P) →
    (tableRow cp n c).1.length = n ∧
    (∀ (k : ℕ) (e : NielsPt F), (tableRow cp n c).1[k]? = some e → IsNp e ((m + k + 1) • P)) ∧
    IsPt (tableRow cp n c).2 ((m + n) • P) := by
  intro n
  induction n with
  | zero => intro m c hc; refine ⟨rfl, ?_, by simpa [tableRow] using hc⟩; intro k e h; simp [tableRow] at h
  | succ n ih =>
    intro m c hc
    have hc' : IsPt (ExtPt.add c cp) ((m + 1) • P) := by rw [succ_nsmul]; exact add_spec hc hcp
    obtain ⟨h1, h2, h3⟩ := ih (m + 1) _ hc'
    refine ⟨by simp [tableRow, h1], ?_, ?_⟩
    · intro k e h
      cases k with
      | zero =>
        simp [tableRow] at h
        rw [← h]
        exact ofExtended_spec hc'
      | succ k =>
        simp only [tableRow, List.getElem?_cons_succ] at h
        have := h2 k e h
        rw [show m + 1 + k + 1 = m + (k + 1) + 1 by omega] at this
        exact this
    · simp only [tableRow]
      rw [show m + (n + 1) = m + 1 + n by omega]
      exact h3

theorem tableLoop_spec : ∀ (n : ℕ) (cp : ExtPt F) (P : EPoint), IsPt cp P →
    IsTable (tableLoop n cp) P ∧ (tableLoop n cp).length = n := by
  intro n
  induction n with
  | zero => intro cp P _; exact ⟨trivial, rfl⟩
  | succ n ih =>
    intro cp P hcp
    obtain ⟨h1, h2, h3⟩ := tableRow_spec hcp 8 0 ExtPt.zero (by rw [zero_nsmul]; exact zero_spec)
    have hd := double5 h3
    simp only [tableLoop]
    obtain ⟨i1, i2⟩ := ih _ _ hd
    refine ⟨⟨⟨h1, ?_⟩, ?_⟩, by simp [i2]⟩
    · intro k e h; have := h2 k e h; simpa using this
    · convert i1 using 1
      rw [show (32 : ℤ) = ((32 : ℕ) : ℤ) by norm_num, natCast_zsmul, ← mul_nsmul]

/-- `Compute` fills a table for the point. -/
theorem tableCompute_spec {cp : ExtPt F} {P : EPoint} (h : IsPt cp P) :
    IsTable (tableCompute cp) P ∧ (tableCompute cp).length = 32 := tableLoop_spec 32 cp P h

theorem equal30_spec (j : Fin 10) (k : Fin 10) :
    equal30 (Int32.ofNat k) (Int32.ofNat j) = flag (k.val = j.val) := by
  revert j k; decide +kernel

theorem bAbs_spec : ∀ w : Int8, -8 ≤ w.toInt → w.toInt ≤ 8 →
    (w.toInt32 - (((-(negative w.toInt32)) &&& w.toInt32) <<< 1)) = Int32.ofNat w.toInt.natAbs :=
  int8_forall (by decide +kernel)

theorem selectLoop_spec (P : EPoint) (n : ℕ) (hn : n ≤ 8) (rest : List (NielsPt F)) :
    ∀ (i : ℕ) (t : NielsPt F), i + rest.length ≤ 8 →
    (∀ (k : ℕ) (e : NielsPt F), rest[k]? = some e → IsNp e ((i + k + 1) • P)) →
    IsNp t ((if n < i + 1 then n else 0) • P) →
    IsNp (selectLoop (Int32.ofNat n) (Int32.ofNat i) rest t)
      ((if n < i + rest.length + 1 then n else 0) • P) := by
  induction rest with
  | nil => intro j t _ _ ht; simpa [selectLoop] using ht
  | cons e rest ih =>
    intro i t hi hk ht
    simp only [List.length_cons] at hi
    simp only [selectLoop]
    have hj1 : Int32.ofNat i + 1 = Int32.ofNat (i + 1) := by
      rw [Int32.ofNat_add]; rfl
    rw [hj1, equal30_spec ⟨i + 1, by omega⟩ ⟨n, by omega⟩, nielsCondSet_spec]
    have := ih (i + 1) (if n = i + 1 then e else t) (by omega) (by
      intro k e' he'
      have := hk (k + 1) e' (by simpa using he')
      rw [show i + 1 + k + 1 = i + (k + 1) + 1 by omega]
      exact this) (by
      by_cases h : n = i + 1
      · rw [if_pos h, if_pos (by omega), h]
        have := hk 0 e (by simp)
        simpa using this
      · rw [if_neg h]
        have e : (n < i + 1 + 1) ↔ (n < i + 1) := by omega
        simp only [e]
        exact ht)
    rw [List.length_cons, show i + (rest.length + 1) + 1 = i + 1 + rest.length + 1 by omega]
    exact this

theorem selectPoint_spec {row : List (NielsPt F)} {P : EPoint} (hrow : IsRow row P) (w : Int8)
    (h1 : -8 ≤ w.toInt) (h2 : w.toInt ≤ 8) : IsNp (selectPoint row w.toInt32) (w.toInt • P) := by
  unfold selectPoint
  simp only
  rw [bAbs_spec w h1 h2, negative_spec, nielsCondSet_spec]
  have hloop := selectLoop_spec P w.toInt.natAbs (by omega) row 0 NielsPt.zero (by rw [hrow.1])
    (by intro k e he; rw [zero_add]; exact hrow.2 k e he) (by
      have e0 : (if w.toInt.natAbs < 0 + 1 then w.toInt.natAbs else 0) = 0 := by split <;> omega
      rw [e0, zero_nsmul]
      exact nielsZero_spec)
  rw [hrow.1, if_pos (by omega)] at hloop
  have h0 : Int32.ofNat 0 = 0 := rfl
  rw [h0] at hloop
  split
  · have := nielsNeg_spec hloop
    convert this using 1
    rw [← natCast_zsmul, ← neg_zsmul]; congr 1; omega
  · convert hloop using 1
    rw [← natCast_zsmul]; congr 1; omega

theorem tableAddLoop_spec : ∀ (t : List (List (NielsPt F))) (ws : List Int8) (P Q : EPoint) (p : ExtPt F),
    IsTable t P → t.length = ws.length → (∀ w ∈ ws, -8 ≤ w.toInt ∧ w.toInt ≤ 8) → IsPt p Q →
    IsPt (tableAddLoop t ws p) (Q + digitsVal 256 ws • P) := by
  intro t
  induction t with
  | nil =>
    intro ws P Q p _ hl _ hp
    cases ws with
    | nil => simpa [tableAddLoop, digitsVal] using hp
    | cons w ws => simp at hl
  | cons row rows ih =>
    intro ws P Q p ht hl hr hp
    cases ws with
    | nil => simp at hl
    | cons w ws =>
      obtain ⟨h1, h2⟩ := hr w (by simp)
      have hn := selectPoint_spec ht.1 w h1 h2
      have := ih ws (256 • P) _ _ ht.2 (by simpa using hl) (fun w hw => hr w (by simp [hw]))
        (toExtended_spec (addExtendedNiels_spec hp hn))
      simp only [tableAddLoop, digitsVal]
      convert this using 1
      rw [← natCast_zsmul, ← mul_zsmul', add_zsmul, add_assoc]
      norm_num [mul_comm]

theorem double4_spec {p : ExtPt F} {P : EPoint} (hp : IsPt p P) : IsPt (double4 p) ((16 : ℤ) • P) := by
  have h1 := doubleExtended_spec hp
  have h2 := doubleProjective_spec (toProjective_spec h1)
  have h3 := doubleProjective_spec (toProjective_spec h2)
  have h4 := doubleProjective_spec (toProjective_spec h3)
  have : IsPt (double4 p) _ := toExtended_spec h4
  convert this using 1
  abel

/-- `ScalarMultTable.ScalarMult`. -/
theorem tableScalarMult_spec {t : Table F} {P : EPoint} (ht : IsTable t P) (hl : t.length = 32)
    (s : Bytes 32) (hs : leVal s < 2 ^ 255) : IsPt (tableScalarMult t s) (leVal s • P) := by
  obtain ⟨hv, hr, hlen⟩ := computeScalarWindow4_spec s hs
  obtain ⟨l1, l2⟩ := evens_odds_length _ 32 hlen
  have h1 := tableAddLoop_spec t _ P 0 ExtPt.zero ht (by rw [hl, l2])
    (fun w hw => hr w (odds_mem _ w hw)) zero_spec
  have h2 := tableAddLoop_spec t _ P _ _ ht (by rw [hl, l1])
    (fun w hw => hr w (evens_mem _ w hw)) (double4_spec h1)
  unfold tableScalarMult
  simp only
  convert h2 using 1
  rw [zero_add, ← mul_zsmul', ← add_zsmul, ← natCast_zsmul, ← hv, evens_odds_val]
  congr 1; ring

theorem varTimeSelectPoint_spec {row : List (NielsPt F)} {P : EPoint} (hrow : IsRow row P) (w : Int8)
    (h1 : -8 ≤ w.toInt) (h2 : w.toInt ≤ 8) (h0 : w.toInt32 ≠ 0) :
    ∃ np, varTimeSelectPoint row w.toInt32 = some np ∧ IsNp np (w.toInt • P) := by
  have hneg : ∀ w : Int8, -8 ≤ w.toInt → w.toInt ≤ 8 → w.toInt32 ≠ 0 →
      ((w.toInt32 < 0) ↔ w.toInt < 0) ∧ w.toInt ≠ 0 ∧
      (w.toInt < 0 → (-w.toInt32 - 1).toInt.toNat + 1 = w.toInt.natAbs) ∧
      (¬ w.toInt < 0 → (w.toInt32 - 1).toInt.toNat + 1 = w.toInt.natAbs) := by
    exact int8_forall (by decide +kernel)
  obtain ⟨a1, a2, a3, a4⟩ := hneg w h1 h2 h0
  unfold varTimeSelectPoint
  by_cases h : w.toInt < 0
  · rw [if_pos (a1.2 h)]
    have e := a3 h
    generalize (-w.toInt32 - 1).toInt.toNat = k at *
    have hk : k < row.length := by rw [hrow.1]; omega
    have hg : row[k]? = some row[k] := List.getElem?_eq_getElem hk
    refine ⟨row[k].neg, by rw [hg]; rfl, ?_⟩
    have := nielsNeg_spec (hrow.2 k _ hg)
    convert this using 1
    rw [← natCast_zsmul, ← neg_zsmul]; congr 1; omega
  · rw [if_neg (fun h' => h (a1.1 h'))]
    have e := a4 h
    generalize (w.toInt32 - 1).toInt.toNat = k at *
    have hk : k < row.length := by rw [hrow.1]; omega
    have hg : row[k]? = some row[k] := List.getElem?_eq_getElem hk
    refine ⟨row[k], hg, ?_⟩
    have := hrow.2 k _ hg
    convert this using 1
    rw [← natCast_zsmul]; congr 1; omega

theorem toInt32_eq_zero : ∀ w : Int8, w.toInt32 = 0 → w.toInt = 0 := int8_forall (by decide +kernel)

theorem tableVarTimeLoop_spec : ∀ (t : List (List (NielsPt F))) (ws : List Int8) (P Q : EPoint) (p : ExtPt F),
    IsTable t P → t.length = ws.length → (∀ w ∈ ws, -8 ≤ w.toInt ∧ w.toInt ≤ 8) → IsPt p Q →
    ∃ r, tableVarTimeLoop t ws p = some r ∧ IsPt r (Q + digitsVal 256 ws • P) := by
  intro t
  induction t with
  | nil =>
    intro ws P Q p _ hl _ hp
    cases ws with
    | nil => exact ⟨p, rfl, by simpa [digitsVal] using hp⟩
    | cons w ws => simp at hl
  | cons row rows ih =>
    intro ws P Q p ht hl hr hp
    cases ws with
    | nil => simp at hl
    | cons w ws =>
      obtain ⟨h1, h2⟩ := hr w (by simp)
      have e256 : ∀ R : EPoint, R + digitsVal 256 (w :: ws) • P =
          (R + w.toInt • P) + digitsVal 256 ws • (256 • P) := by
        intro R
        simp only [digitsVal]
        rw [← natCast_zsmul, ← mul_zsmul', add_zsmul, add_assoc]
        norm_num [mul_comm]
      rw [e256]
      simp only [tableVarTimeLoop]
      by_cases h0 : w.toInt32 = 0
      · rw [if_pos h0]
        rw [toInt32_eq_zero w h0, zero_zsmul, add_zero]
        exact ih ws (256 • P) _ _ ht.2 (by simpa using hl) (fun w hw => hr w (by simp [hw])) hp
      · rw [if_neg h0]
        obtain ⟨np, hnp, hn⟩ := varTimeSelectPoint_spec ht.1 w h1 h2 h0
        rw [hnp]
        exact ih ws (256 • P) _ _ ht.2 (by simpa using hl) (fun w hw => hr w (by simp [hw]))
          (toExtended_spec (addExtendedNiels_spec hp hn))

/-- `ScalarMultTable.VarTimeScalarMult` does not panic and multiplies. -/
theorem tableVarTimeScalarMult_spec {t : Table F} {P : EPoint} (ht : IsTable t P) (hl : t.length = 32)
    (s : Bytes 32) (hs : leVal s < 2 ^ 255) :
    ∃ r, tableVarTimeScalarMult t s = some r ∧ IsPt r (leVal s • P) := by
  obtain ⟨hv, hr, hlen⟩ := computeScalarWindow4_spec s hs
  obtain ⟨l1, l2⟩ := evens_odds_length _ 32 hlen
  obtain ⟨r1, e1, h1⟩ := tableVarTimeLoop_spec t _ P 0 ExtPt.zero ht (by rw [hl, l2])
    (fun w hw => hr w (odds_mem _ w hw)) zero_spec
  obtain ⟨r2, e2, h2⟩ := tableVarTimeLoop_spec t _ P _ _ ht (by rw [hl, l1])
    (fun w hw => hr w (evens_mem _ w hw)) (double4_spec h1)
  refine ⟨r2, ?_, ?_⟩
  · unfold tableVarTimeScalarMult
    simp only [e1, Option.bind_eq_bind, Option.bind_some, e2]
  · convert h2 using 1
    rw [zero_add, ← mul_zsmul', ← add_zsmul, ← natCast_zsmul, ← hv, evens_odds_val]
    congr 1; ring

end Ristretto.Proofs
