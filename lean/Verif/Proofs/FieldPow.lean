import Verif.Proofs.FieldFlags

/-! # Inversion and square roots -/

namespace Ristretto.Proofs
open Model FieldOps LawfulField
set_option autoImplicit false

variable {F : Type} [LawfulField F]

/-- `t` is a bounded representation of the `e`-th power of `a`. -/
def PowOf (a : F) (e : ℕ) (t : F) : Prop := bd 1 t ∧ eval t = eval a ^ e

theorem PowOf.sq {a t : F} {e : ℕ} (h : PowOf a e t) : PowOf a (2 * e) (square t) := by
  obtain ⟨h1, h2⟩ := square_law (bd_mono (by norm_num) h.1)
  exact ⟨h1, by rw [h2, h.2]; ring⟩

theorem PowOf.mul {a s t : F} {e f : ℕ} (h : PowOf a e s) (h' : PowOf a f t) :
    PowOf a (e + f) (FieldOps.mul s t) := by
  obtain ⟨h1, h2⟩ := mul_law (bd_mono (by norm_num) h.1) (bd_mono (by norm_num) h'.1)
  exact ⟨h1, by rw [h2, h.2, h'.2]; ring⟩

theorem PowOf.times {a : F} (n : ℕ) {t : F} {e : ℕ} (h : PowOf a e t) :
    PowOf a (2 ^ n * e) (squareTimes n t) := by
  induction n generalizing t e with
  | zero => simpa [squareTimes] using h
  | succ n ih => rw [squareTimes, pow_succ, Nat.mul_assoc]; exact ih h.sq

theorem PowOf.self {a : F} (h : bd 1 a) : PowOf a 1 a := ⟨h, by simp⟩

theorem PowOf.sq' {a : F} (h : bd 6 a) : PowOf a 2 (square a) := by
  obtain ⟨h1, h2⟩ := square_law h
  exact ⟨h1, by rw [h2]; ring⟩

/-- The first factor may be less tightly bounded. -/
theorem PowOf.mulSelf {a t : F} {e : ℕ} (h : bd 6 a) (h' : PowOf a e t) :
    PowOf a (1 + e) (FieldOps.mul a t) := by
  obtain ⟨h1, h2⟩ := mul_law h (bd_mono (by norm_num) h'.1)
  exact ⟨h1, by rw [h2, h'.2]; ring⟩

theorem PowOf.mulSelf' {a t : F} {e : ℕ} (h : bd 6 a) (h' : PowOf a e t) :
    PowOf a (e + 1) (FieldOps.mul t a) := by
  obtain ⟨h1, h2⟩ := mul_law (bd_mono (by norm_num) h'.1) h
  exact ⟨h1, by rw [h2, h'.2]; ring⟩

theorem feInverse_pow {a : F} (h : bd 6 a) : PowOf a (p - 2) (feInverse a) := by
  have t0 := PowOf.sq' h
  have t1 := PowOf.mulSelf h t0.sq.sq
  have t0' := t0.mul t1
  have t1' := t1.mul t0'.sq
  have A := (t1'.sq.times 4).mul t1'
  have B := (A.sq.times 9).mul A
  have C := (B.sq.times 19).mul B
  have D := (C.sq.times 9).mul A
  have E := (D.sq.times 49).mul D
  have G := (E.sq.times 99).mul E
  have H := (G.sq.times 49).mul D
  have I := (H.sq.times 4).mul t0'
  norm_num at I
  norm_num [p]
  exact I

theorem feInverse_spec {a : F} (h : bd 6 a) :
    bd 1 (feInverse a) ∧ eval (feInverse a) = (eval a)⁻¹ := by
  obtain ⟨h1, h2⟩ := feInverse_pow h
  refine ⟨h1, ?_⟩
  rw [h2]
  by_cases h0 : eval a = 0
  · rw [h0, inv_zero, zero_pow (by norm_num [p])]
  · have := ZMod.pow_card_sub_one_eq_one h0
    apply eq_inv_of_mul_eq_one_left
    rw [← pow_succ]
    have e : p - 2 + 1 = p - 1 := by norm_num [p]
    rw [e]; exact this

theorem exp22523_pow {a : F} (h : bd 6 a) : PowOf a (2 ^ 252 - 3) (exp22523 a) := by
  have t0 := PowOf.sq' h
  have t1 := PowOf.mulSelf h (t0.sq.times 1)
  have t0' := t0.mul t1
  have t1' := t1.mul t0'.sq
  have A := (t1'.sq.times 4).mul t1'
  have B := (A.sq.times 9).mul A
  have C := (B.sq.times 19).mul B
  have D := (C.sq.times 9).mul A
  have E := (D.sq.times 49).mul D
  have G := (E.sq.times 99).mul E
  have H := (G.sq.times 49).mul D
  have I := PowOf.mulSelf' h (H.sq.times 1)
  norm_num at I
  norm_num
  exact I

/-- The common prefix of `InvSqrt` and `InvSqrtI`: `t = a^3 (a^7)^((p-5)/8)`. -/
def invSqrtT (a : F) : F :=
  let den2 := square a
  let den3 := FieldOps.mul den2 a
  let den4 := square den2
  let den6 := FieldOps.mul den2 den4
  let t := FieldOps.mul den6 a
  let t := exp22523 t
  FieldOps.mul t den3

/-- Fourth roots of unity. -/
theorem fourth_root {c : Fp} (h : c ^ 4 = 1) : c = 1 ∨ c = -1 ∨ c = sqrtM1 ∨ c = -sqrtM1 := by
  have hi := sqrtM1_sq
  have : (c - 1) * ((c + 1) * ((c - sqrtM1) * (c + sqrtM1))) = 0 := by
    linear_combination h - (c ^ 2 - 1) * hi
  rcases mul_eq_zero.1 this with h | h
  · left; linear_combination h
  rcases mul_eq_zero.1 h with h | h
  · right; left; linear_combination h
  rcases mul_eq_zero.1 h with h | h
  · right; right; left; linear_combination h
  · right; right; right; linear_combination h

theorem invSqrtT_spec {a : F} (h : bd 6 a) :
    bd 1 (invSqrtT a) ∧ (eval a = 0 → eval (invSqrtT a) = 0) ∧
    (eval a ≠ 0 →
      eval a * (eval (invSqrtT a) * eval (invSqrtT a)) = 1 ∨
      eval a * (eval (invSqrtT a) * eval (invSqrtT a)) = -1 ∨
      eval a * (eval (invSqrtT a) * eval (invSqrtT a)) = sqrtM1 ∨
      eval a * (eval (invSqrtT a) * eval (invSqrtT a)) = -sqrtM1) := by
  have d2 := PowOf.sq' h
  have d3 := PowOf.mulSelf' h d2
  have d4 := d2.sq
  have d6 := d2.mul d4
  have t := PowOf.mulSelf' h d6
  obtain ⟨e1, e2⟩ := exp22523_pow (bd_mono (by norm_num) t.1)
  rw [t.2, ← pow_mul] at e2
  have ht : PowOf a _ (exp22523 _) := ⟨e1, e2⟩
  have hT := ht.mul d3
  have hT' : PowOf a _ (invSqrtT a) := hT
  refine ⟨hT'.1, ?_, ?_⟩
  · intro h0
    rw [hT'.2, h0, zero_pow]
    norm_num
  · intro h0
    apply fourth_root
    rw [hT'.2]
    have h1 := ZMod.pow_card_sub_one_eq_one h0
    have : ∀ n : ℕ, n = 7 * (p - 1) → eval a ^ n = 1 := by
      rintro n rfl; rw [mul_comm, pow_mul, h1, one_pow]
    rw [← pow_add, ← pow_succ', ← pow_mul]
    apply this
    norm_num [p]

theorem invSqrtI_eq (a : F) : invSqrtI a =
    (let t := invSqrtT a
    let chk := FieldOps.mul (square t) a
    let inCaseA := isOneI chk
    let inCaseD := feEqualsI chk feI
    let chk := neg chk
    let inCaseB := isOneI chk
    let corr := condSet feOne feI (inCaseB + inCaseD)
    (FieldOps.mul t corr, inCaseA + inCaseB)) := rfl

theorem sqrtM1_ne_one : sqrtM1 ≠ 1 := by
  intro h; have := sqrtM1_sq; rw [h] at this
  exact two_ne_zero' (by linear_combination this)

theorem sqrtM1_ne_neg_one : sqrtM1 ≠ -1 := by
  intro h; have := sqrtM1_sq; rw [h] at this
  exact two_ne_zero' (by linear_combination this)

theorem one_ne_neg_one : (1 : Fp) ≠ -1 := by
  intro h; exact two_ne_zero' (by linear_combination h)

theorem neg_sqrtM1_ne : -sqrtM1 ≠ sqrtM1 := by
  intro h
  have : (2 : Fp) * sqrtM1 = 0 := by linear_combination -h
  rcases mul_eq_zero.1 this with h | h
  · exact two_ne_zero' h
  · exact sqrtM1_ne_zero h

theorem neg_sqrtM1_nonsquare : ¬ IsSquare (-sqrtM1) := by
  have := nonsquare_mul_of_square neg_one_isSquare (by simp) sqrtM1_nonsquare
  simpa using this

/-- `a * r^2 = c` with `c` a nonsquare: then `a` is a nonsquare. -/
theorem nonsquare_of_mul_sq {a r c : Fp} (h : a * (r * r) = c) (hc : ¬ IsSquare c) :
    ¬ IsSquare a := by
  rintro ⟨s, rfl⟩
  exact hc ⟨s * r, by rw [← h]; ring⟩

/-- `InvSqrtI`: the three cases. -/
theorem invSqrtI_spec {a : F} (h : bd 6 a) :
    bd 1 (invSqrtI a).1 ∧
    (((invSqrtI a).2 = 1 ∧ eval a * (eval (invSqrtI a).1 * eval (invSqrtI a).1) = 1) ∨
     ((invSqrtI a).2 = 0 ∧ ¬ IsSquare (eval a) ∧
        eval a * (eval (invSqrtI a).1 * eval (invSqrtI a).1) = -sqrtM1) ∨
     ((invSqrtI a).2 = 0 ∧ eval a = 0 ∧ eval (invSqrtI a).1 = 0)) := by
  obtain ⟨hb, hz, hnz⟩ := invSqrtT_spec h
  rw [invSqrtI_eq]
  generalize invSqrtT a = t at *
  obtain ⟨s1, s2⟩ := square_law (bd_mono (by norm_num : 1 ≤ 6) hb)
  obtain ⟨c1, c2⟩ := mul_law (bd_mono (by norm_num : 1 ≤ 6) s1) h
  obtain ⟨n1, n2⟩ := neg_law (bd_mono (by norm_num : 1 ≤ 6) c1)
  simp only
  rw [isOneI_spec (bd_mono (by norm_num) c1), isOneI_spec (bd_mono (by norm_num) n1),
    feEqualsI_spec (bd_mono (by norm_num) c1) (bd_mono (by norm_num) bd_feI), n2, c2, s2, eval_feI]
  have hi := sqrtM1_sq
  have hcomm : eval t * eval t * eval a = eval a * (eval t * eval t) := by ring
  rw [hcomm]
  have hb6 := bd_mono (by norm_num : 1 ≤ 6) hb
  have o6 := bd_mono (by norm_num : 1 ≤ 6) (bd_feOne (F := F))
  have i6 := bd_mono (by norm_num : 1 ≤ 6) (bd_feI (F := F))
  obtain ⟨to1, to2⟩ := mul_law hb6 o6
  obtain ⟨ti1, ti2⟩ := mul_law hb6 i6
  rw [eval_feOne] at to2
  rw [eval_feI] at ti2
  by_cases h0 : eval a = 0
  · have z1 : (0 : Fp) ≠ 1 := zero_ne_one
    have z2 : -(0 : Fp) ≠ 1 := by simp
    have z3 : (0 : Fp) ≠ sqrtM1 := sqrtM1_ne_zero.symm
    simp only [h0, zero_mul, flag, if_neg z1, if_neg z2, if_neg z3, Int32.add_zero]
    rw [LawfulField.condSet_zero]
    exact ⟨to1, Or.inr (Or.inr ⟨trivial, trivial, by rw [to2, hz h0, zero_mul]⟩)⟩
  · rcases hnz h0 with hc | hc | hc | hc
    · have e1 : (-(1 : Fp)) ≠ 1 := one_ne_neg_one.symm
      simp only [hc, flag, if_neg e1, if_neg sqrtM1_ne_one.symm, if_true, Int32.add_zero]
      rw [LawfulField.condSet_zero]
      exact ⟨to1, Or.inl ⟨trivial, by rw [to2, mul_one, hc]⟩⟩
    · have e2 : (-1 : Fp) ≠ 1 := one_ne_neg_one.symm
      simp only [hc, flag, neg_neg, if_neg e2, if_neg sqrtM1_ne_neg_one.symm, if_true,
        Int32.add_zero, Int32.zero_add]
      rw [LawfulField.condSet_one]
      refine ⟨ti1, Or.inl ⟨trivial, ?_⟩⟩
      rw [ti2]; linear_combination (sqrtM1 * sqrtM1) * hc - hi
    · have e2 : -sqrtM1 ≠ 1 := fun h => sqrtM1_ne_neg_one (by linear_combination -h)
      simp only [hc, flag, if_neg e2, if_neg sqrtM1_ne_one, if_true, Int32.add_zero,
        Int32.zero_add]
      rw [LawfulField.condSet_one]
      refine ⟨ti1, Or.inr (Or.inl ⟨trivial, nonsquare_of_mul_sq hc sqrtM1_nonsquare, ?_⟩)⟩
      rw [ti2]; linear_combination (sqrtM1 * sqrtM1) * hc + sqrtM1 * hi
    · have e1 : -sqrtM1 ≠ 1 := fun h => sqrtM1_ne_neg_one (by linear_combination -h)
      simp only [hc, flag, neg_neg, if_neg e1, if_neg sqrtM1_ne_one, if_neg neg_sqrtM1_ne, Int32.add_zero]
      rw [LawfulField.condSet_zero]
      exact ⟨to1, Or.inr (Or.inl ⟨trivial, nonsquare_of_mul_sq hc neg_sqrtM1_nonsquare,
        by rw [to2, mul_one, hc]⟩)⟩

theorem invSqrt_eq (a : F) : invSqrt a =
    (let t := invSqrtT a
    let t2 := FieldOps.mul t feI
    let chk := FieldOps.mul (square t) a
    condSet t t2 (1 - isOneI chk)) := rfl

/-- `InvSqrt`: an inverse square root when there is one; zero for zero. -/
theorem invSqrt_spec {a : F} (h : bd 6 a) :
    bd 1 (invSqrt a) ∧ (eval a = 0 → eval (invSqrt a) = 0) ∧
    (eval a ≠ 0 → IsSquare (eval a) → eval a * (eval (invSqrt a) * eval (invSqrt a)) = 1) := by
  obtain ⟨hb, hz, hnz⟩ := invSqrtT_spec h
  rw [invSqrt_eq]
  generalize invSqrtT a = t at *
  obtain ⟨s1, s2⟩ := square_law (bd_mono (by norm_num : 1 ≤ 6) hb)
  obtain ⟨c1, c2⟩ := mul_law (bd_mono (by norm_num : 1 ≤ 6) s1) h
  have hb6 := bd_mono (by norm_num : 1 ≤ 6) hb
  have i6 := bd_mono (by norm_num : 1 ≤ 6) (bd_feI (F := F))
  obtain ⟨ti1, ti2⟩ := mul_law hb6 i6
  rw [eval_feI] at ti2
  simp only
  have hi := sqrtM1_sq
  have hcomm : eval t * eval t * eval a = eval a * (eval t * eval t) := by ring
  rw [isOneI_spec (bd_mono (by norm_num) c1), one_sub_flag, condSet_flag, c2, s2, hcomm]
  by_cases hc1 : eval a * (eval t * eval t) = 1
  · rw [if_neg (not_not.2 hc1)]
    exact ⟨hb, hz, fun _ _ => hc1⟩
  · rw [if_pos hc1]
    refine ⟨ti1, fun h0 => by rw [ti2, hz h0, zero_mul], fun h0 hsq => ?_⟩
    rcases hnz h0 with hc | hc | hc | hc
    · exact absurd hc hc1
    · rw [ti2]; linear_combination (sqrtM1 * sqrtM1) * hc - hi
    · exact absurd hsq (nonsquare_of_mul_sq hc sqrtM1_nonsquare)
    · exact absurd hsq (nonsquare_of_mul_sq hc neg_sqrtM1_nonsquare)

/-- `Sqrt`: the nonnegative square root of a square. -/
theorem feSqrt_spec {a : F} (h : bd 6 a) :
    bd 2 (feSqrt a) ∧ ¬ IsNeg (eval (feSqrt a)) ∧
    (IsSquare (eval a) → eval (feSqrt a) * eval (feSqrt a) = eval a) := by
  obtain ⟨hb, hz, hs⟩ := invSqrt_spec h
  obtain ⟨m1, m2⟩ := mul_law (bd_mono (by norm_num : 1 ≤ 6) hb) h
  obtain ⟨n1, n2⟩ := neg_law (bd_mono (by norm_num : 1 ≤ 6) m1)
  obtain ⟨t1, t2⟩ := touch_law m1
  have hr : bd 2 (feSqrt a) ∧ eval (feSqrt a) = absFp (eval (invSqrt a) * eval a) := by
    unfold feSqrt
    simp only
    rw [isNegativeI_spec (bd_mono (by norm_num) m1), condSet_flag, m2, absFp]
    split
    · exact ⟨n1, by rw [n2, m2]⟩
    · exact ⟨bd_mono (by norm_num) t1, by rw [t2, m2]⟩
  refine ⟨hr.1, by rw [hr.2]; exact absFp_not_neg _, fun hsq => ?_⟩
  rw [hr.2, absFp_sq]
  by_cases h0 : eval a = 0
  · rw [h0]; ring
  · linear_combination (eval a) * hs h0 hsq

end Ristretto.Proofs
