import Verif.Proofs.ScalarReduce
import Verif.Spec.Scalar

/-! # The packing at the end of the reduction, and the range of the result -/

namespace Ristretto.Proofs
open Model Scalar
set_option autoImplicit false

theorem or_add_pow (a b k : ℕ) (h : a < 2 ^ k) : a ||| b * 2 ^ k = a + b * 2 ^ k := by
  rw [Nat.or_comm, mul_comm, ← Nat.two_pow_add_eq_or_of_lt h]; ring

theorem u32_toNat (x : Int64) (_h : 0 ≤ x.toInt) : ((u32 x).toNat : ℤ) = x.toInt % 2 ^ 32 := by
  have h1 := toUInt64_toNat x
  unfold u32
  rw [UInt64.toNat_toUInt32]
  push_cast
  rw [h1]
  omega

/-- `u32 (x >> k)` and `u32 (x << k)` for a small nonnegative `x`, as natural numbers. -/
theorem u32_shr (x k : Int64) (n m : ℕ) (hk : (k.toBitVec.smod 64).toNat = n) (hx : x.toInt = m)
    (hm : m < 2 ^ 25) : (u32 (x >>> k)).toNat = m / 2 ^ n := by
  have h1 := i64_shr x k n hk
  rw [hx] at h1
  have h2 : ((m : ℤ) / 2 ^ n) = ((m / 2 ^ n : ℕ) : ℤ) := by push_cast; rfl
  rw [h2] at h1
  have h3 := u32_toNat (x >>> k) (by rw [h1]; positivity)
  rw [h1] at h3
  have h4 : m / 2 ^ n ≤ m := Nat.div_le_self _ _
  generalize m / 2 ^ n = q at *
  omega

theorem u32_shl (x k : Int64) (n m : ℕ) (hk : (k.toBitVec.smod 64).toNat = n) (hx : x.toInt = m)
    (hm : m < 2 ^ 25) (hn : n ≤ 31) : (u32 (x <<< k)).toNat = m * 2 ^ n % 2 ^ 32 := by
  have hb : m * 2 ^ n < 2 ^ 63 := by
    calc m * 2 ^ n ≤ m * 2 ^ 31 := Nat.mul_le_mul_left _ (Nat.pow_le_pow_right (by norm_num) hn)
      _ < 2 ^ 63 := by omega
  have hb' : ((m : ℤ) * 2 ^ n) < 2 ^ 63 := by exact_mod_cast hb
  have h0 : (0 : ℤ) ≤ (m : ℤ) * 2 ^ n := by positivity
  have h1 := i64_shl' x k n hk (by rw [hx]; omega) (by rw [hx]; exact hb')
  rw [hx] at h1
  have h3 := u32_toNat (x <<< k) (by rw [h1]; exact h0)
  rw [h1] at h3
  have h4 : ((m : ℤ) * 2 ^ n) = ((m * 2 ^ n : ℕ) : ℤ) := by push_cast; rfl
  rw [h4] at h3
  omega

theorem u32_id (x : Int64) (m : ℕ) (hx : x.toInt = m) (hm : m < 2 ^ 25) : (u32 x).toNat = m := by
  have h3 := u32_toNat x (by rw [hx]; positivity)
  rw [hx] at h3
  omega

theorem pack2 (x y k1 k2 : Int64) (n1 n2 a b : ℕ) (hk1 : (k1.toBitVec.smod 64).toNat = n1)
    (hk2 : (k2.toBitVec.smod 64).toNat = n2) (hx : x.toInt = a) (hy : y.toInt = b) (ha : a < 2 ^ 21)
    (hb : b < 2 ^ 25) (h2 : n2 ≤ 31) (hn : 21 ≤ n1 + n2) :
    (u32 (x >>> k1) ||| u32 (y <<< k2)).toNat = a / 2 ^ n1 + b * 2 ^ n2 % 2 ^ 32 := by
  rw [UInt32.toNat_or, u32_shr _ k1 n1 _ hk1 hx (by omega), u32_shl _ k2 n2 _ hk2 hy hb h2]
  have e : b * 2 ^ n2 % 2 ^ 32 = (b % 2 ^ (32 - n2)) * 2 ^ n2 := by
    rw [show (2 : ℕ) ^ 32 = 2 ^ (32 - n2) * 2 ^ n2 by rw [← pow_add]; congr 1; omega, Nat.mul_mod_mul_right]
  rw [e, or_add_pow]
  rw [Nat.div_lt_iff_lt_mul (by positivity), ← pow_add]
  exact lt_of_lt_of_le ha (Nat.pow_le_pow_right (by norm_num) (by omega))

theorem pack3 (x y z k1 k2 k3 : Int64) (n1 n2 n3 a b c : ℕ) (hk1 : (k1.toBitVec.smod 64).toNat = n1)
    (hk2 : (k2.toBitVec.smod 64).toNat = n2) (hk3 : (k3.toBitVec.smod 64).toNat = n3) (hx : x.toInt = a)
    (hy : y.toInt = b) (hz : z.toInt = c) (ha : a < 2 ^ 21) (hb : b < 2 ^ 21) (hc : c < 2 ^ 21)
    (h2 : 21 + n2 = n3) (h3 : n3 ≤ 31) (hn : 21 ≤ n1 + n2) :
    (u32 (x >>> k1) ||| u32 (y <<< k2) ||| u32 (z <<< k3)).toNat = a / 2 ^ n1 + b * 2 ^ n2 + c * 2 ^ n3 % 2 ^ 32 := by
  have hby : b * 2 ^ n2 < 2 ^ n3 := by
    rw [← h2, pow_add]; exact Nat.mul_lt_mul_of_pos_right hb (by positivity)
  have hn3 : 2 ^ n3 ≤ 2 ^ 32 := Nat.pow_le_pow_right (by norm_num) (by omega)
  have h12 : a / 2 ^ n1 < 2 ^ n2 := by
    rw [Nat.div_lt_iff_lt_mul (by positivity), ← pow_add]
    exact lt_of_lt_of_le ha (Nat.pow_le_pow_right (by norm_num) (by omega))
  rw [UInt32.toNat_or, pack2 x y k1 k2 n1 n2 a b hk1 hk2 hx hy ha (by omega) (by omega) hn,
    u32_shl _ k3 n3 _ hk3 hz (by omega) h3, Nat.mod_eq_of_lt (a := b * 2 ^ n2) (by omega)]
  have e : c * 2 ^ n3 % 2 ^ 32 = (c % 2 ^ (32 - n3)) * 2 ^ n3 := by
    rw [show (2 : ℕ) ^ 32 = 2 ^ (32 - n3) * 2 ^ n3 by rw [← pow_add]; congr 1; omega, Nat.mul_mod_mul_right]
  rw [e, or_add_pow]
  have : (b + 1) * 2 ^ n2 ≤ 2 ^ 21 * 2 ^ n2 := Nat.mul_le_mul_right _ (by omega)
  rw [← pow_add, h2] at this
  linarith

theorem digit_sum_bounds (f : ℕ → ℤ) : ∀ n, (∀ i < n, 0 ≤ f i ∧ f i ≤ 2 ^ 21 - 1) →
    0 ≤ ∑ i ∈ Finset.range n, f i * 2 ^ (21 * i) ∧ ∑ i ∈ Finset.range n, f i * 2 ^ (21 * i) < 2 ^ (21 * n) := by
  intro n
  induction n with
  | zero => intro _; simp
  | succ n ih =>
    intro h
    obtain ⟨h1, h2⟩ := ih (fun i hi => h i (by omega))
    obtain ⟨h3, h4⟩ := h n (by omega)
    rw [Finset.sum_range_succ, show 21 * (n + 1) = 21 * n + 21 by ring, pow_add]
    have hp : (0 : ℤ) < 2 ^ (21 * n) := by positivity
    constructor
    · have := mul_nonneg h3 hp.le; linarith
    · nlinarith

theorem pack_spec (s : Limbs) (m : ℕ → ℕ) (hm : ∀ i < 12, (s i).toInt = m i)
    (hs : ∀ i < 11, m i < 2 ^ 21) (h11 : m 11 < 2 ^ 25) :
    scVal (pack s) = ∑ i ∈ Finset.range 12, m i * 2 ^ (21 * i) := by
  have b0 := hs 0 (by norm_num)
  have b1 := hs 1 (by norm_num)
  have b2 := hs 2 (by norm_num)
  have b3 := hs 3 (by norm_num)
  have b4 := hs 4 (by norm_num)
  have b5 := hs 5 (by norm_num)
  have b6 := hs 6 (by norm_num)
  have b7 := hs 7 (by norm_num)
  have b8 := hs 8 (by norm_num)
  have b9 := hs 9 (by norm_num)
  have b10 := hs 10 (by norm_num)
  have e0 := hm 0 (by norm_num)
  have e1 := hm 1 (by norm_num)
  have e2 := hm 2 (by norm_num)
  have e3 := hm 3 (by norm_num)
  have e4 := hm 4 (by norm_num)
  have e5 := hm 5 (by norm_num)
  have e6 := hm 6 (by norm_num)
  have e7 := hm 7 (by norm_num)
  have e8 := hm 8 (by norm_num)
  have e9 := hm 9 (by norm_num)
  have e10 := hm 10 (by norm_num)
  have e11 := hm 11 (by norm_num)
  have w0 : (pack s)[0].toNat = m 0 + m 1 * 2 ^ 21 % 2 ^ 32 := by
    have h := pack2 (s 0) (s 1) 0 21 0 21 _ _ (by decide) (by decide) e0 e1 b0 (by omega) (by omega) (by omega)
    have h0 : s 0 >>> 0 = s 0 := by
      rw [← Int64.toInt_inj, i64_shr _ 0 0 (by decide)]; simp
    rw [h0, pow_zero, Nat.div_one] at h
    exact h
  have w1 : (pack s)[1].toNat = m 1 / 2 ^ 11 + m 2 * 2 ^ 10 + m 3 * 2 ^ 31 % 2 ^ 32 :=
    pack3 (s 1) (s 2) (s 3) 11 10 31 11 10 31 _ _ _ (by decide) (by decide) (by decide) e1 e2 e3 b1 b2 b3
      (by norm_num) (by norm_num) (by norm_num)
  have w2 : (pack s)[2].toNat = m 3 / 2 ^ 1 + m 4 * 2 ^ 20 % 2 ^ 32 :=
    pack2 (s 3) (s 4) 1 20 1 20 _ _ (by decide) (by decide) e3 e4 b3 (lt_trans b4 (by norm_num)) (by norm_num) (by norm_num)
  have w3 : (pack s)[3].toNat = m 4 / 2 ^ 12 + m 5 * 2 ^ 9 + m 6 * 2 ^ 30 % 2 ^ 32 :=
    pack3 (s 4) (s 5) (s 6) 12 9 30 12 9 30 _ _ _ (by decide) (by decide) (by decide) e4 e5 e6 b4 b5 b6
      (by norm_num) (by norm_num) (by norm_num)
  have w4 : (pack s)[4].toNat = m 6 / 2 ^ 2 + m 7 * 2 ^ 19 % 2 ^ 32 :=
    pack2 (s 6) (s 7) 2 19 2 19 _ _ (by decide) (by decide) e6 e7 b6 (lt_trans b7 (by norm_num)) (by norm_num) (by norm_num)
  have w5 : (pack s)[5].toNat = m 7 / 2 ^ 13 + m 8 * 2 ^ 8 + m 9 * 2 ^ 29 % 2 ^ 32 :=
    pack3 (s 7) (s 8) (s 9) 13 8 29 13 8 29 _ _ _ (by decide) (by decide) (by decide) e7 e8 e9 b7 b8 b9
      (by norm_num) (by norm_num) (by norm_num)
  have w6 : (pack s)[6].toNat = m 9 / 2 ^ 3 + m 10 * 2 ^ 18 % 2 ^ 32 :=
    pack2 (s 9) (s 10) 3 18 3 18 _ _ (by decide) (by decide) e9 e10 b9 (lt_trans b10 (by norm_num)) (by norm_num) (by norm_num)
  have w7 : (pack s)[7].toNat = m 10 / 2 ^ 14 + m 11 * 2 ^ 7 % 2 ^ 32 :=
    pack2 (s 10) (s 11) 14 7 14 7 _ _ (by decide) (by decide) e10 e11 b10 h11 (by norm_num) (by norm_num)
  have r1 : m 1 * 2 ^ 21 % 2 ^ 32 = (m 1 % 2 ^ 11) * 2 ^ 21 := by clear * -; omega
  have r3 : m 3 * 2 ^ 31 % 2 ^ 32 = (m 3 % 2 ^ 1) * 2 ^ 31 := by clear * -; omega
  have r4 : m 4 * 2 ^ 20 % 2 ^ 32 = (m 4 % 2 ^ 12) * 2 ^ 20 := by clear * -; omega
  have r6 : m 6 * 2 ^ 30 % 2 ^ 32 = (m 6 % 2 ^ 2) * 2 ^ 30 := by clear * -; omega
  have r7 : m 7 * 2 ^ 19 % 2 ^ 32 = (m 7 % 2 ^ 13) * 2 ^ 19 := by clear * -; omega
  have r9 : m 9 * 2 ^ 29 % 2 ^ 32 = (m 9 % 2 ^ 3) * 2 ^ 29 := by clear * -; omega
  have r10 : m 10 * 2 ^ 18 % 2 ^ 32 = (m 10 % 2 ^ 14) * 2 ^ 18 := by clear * -; omega
  have r11 : m 11 * 2 ^ 7 % 2 ^ 32 = m 11 * 2 ^ 7 := by clear * - h11; omega
  rw [r1] at w0; rw [r3] at w1; rw [r4] at w2; rw [r6] at w3; rw [r7] at w4; rw [r9] at w5
  rw [r10] at w6; rw [r11] at w7
  have d1 := Nat.div_add_mod (m 1) (2 ^ 11)
  have d3 := Nat.div_add_mod (m 3) (2 ^ 1)
  have d4 := Nat.div_add_mod (m 4) (2 ^ 12)
  have d6 := Nat.div_add_mod (m 6) (2 ^ 2)
  have d7 := Nat.div_add_mod (m 7) (2 ^ 13)
  have d9 := Nat.div_add_mod (m 9) (2 ^ 3)
  have d10 := Nat.div_add_mod (m 10) (2 ^ 14)
  unfold scVal
  rw [w0, w1, w2, w3, w4, w5, w6, w7]
  simp only [Finset.sum_range_succ, Finset.sum_range_zero]
  clear * - d1 d3 d4 d6 d7 d9 d10
  zify at *
  linear_combination 2 ^ 21 * d1 + 2 ^ 63 * d3 + 2 ^ 84 * d4 + 2 ^ 126 * d6 + 2 ^ 147 * d7 + 2 ^ 189 * d9 + 2 ^ 210 * d10

/-! ## The range of the result -/

/-- The tail up to the last rounded fold. -/
def tailA : List RedOp := reduceTail.take 36
def chain12 : List RedOp := [.carryF 0, .carryF 1, .carryF 2, .carryF 3, .carryF 4, .carryF 5, .carryF 6,
  .carryF 7, .carryF 8, .carryF 9, .carryF 10, .carryF 11]
def chain11 : List RedOp := [.carryF 0, .carryF 1, .carryF 2, .carryF 3, .carryF 4, .carryF 5, .carryF 6,
  .carryF 7, .carryF 8, .carryF 9, .carryF 10]

theorem reduceTail_split : reduceTail = tailA ++ (chain12 ++ (.fold 12 :: chain11)) := rfl

theorem execAll_cons (o : RedOp) (b : List RedOp) (s : Limbs) : execAll (o :: b) s = execAll b (o.exec s) := rfl

theorem execAll_append (a b : List RedOp) (s : Limbs) : execAll (a ++ b) s = execAll b (execAll a s) := by
  simp [execAll, List.foldl_append]

/-- The limbs from 12 on are zero. -/
def highZero (B : Bnds) : Bool := (B.drop 12).all (· == (0, 0))
def lowSum (B : Bnds) : ℤ := ∑ i ∈ Finset.range 12, (B.at i).1 * 2 ^ (21 * i)
def highSum (B : Bnds) : ℤ := ∑ i ∈ Finset.range 12, (B.at i).2 * 2 ^ (21 * i)

/-- Intervals after `chain12`. -/
def bndC : Bnds := List.replicate 12 (0, 2 ^ 21 - 1) ++ [(-1, 0)] ++ List.replicate 11 (0, 0)
/-- Intervals at the end. -/
def bndD : Bnds := List.replicate 11 (0, 2 ^ 21 - 1) ++ [(-1, 2 ^ 21)] ++ List.replicate 12 (0, 0)

theorem phaseC : absAll (.fold 12 :: chain11) bndC = some bndD := by decide +kernel

/-- What the analysis of the first part has to establish. -/
def okA (B : Bnds) : Bool := match absAll tailA B with
  | none => false
  | some BA => match absAll chain12 BA with
    | none => false
    | some BB => BB.take 12 == List.replicate 12 (0, 2 ^ 21 - 1) && (BA.drop 12).all (· == (0, 0)) &&
        (BB.drop 13).all (· == (0, 0)) &&
        decide (-2 ^ 252 < lowSum BA) && decide (highSum BA < 2 ^ 252)

theorem at_of_drop {B : Bnds} {n : ℕ} (h : (B.drop n).all (· == (0, 0)) = true) (i : ℕ) (hi : n ≤ i) :
    B.at i = (0, 0) := by
  unfold Bnds.at
  rw [List.getD_eq_getElem?_getD]
  rcases Nat.lt_or_ge i B.length with hl | hl
  · rw [List.all_eq_true] at h
    have hmem : B[i] ∈ B.drop n := by
      rw [List.mem_iff_getElem]
      refine ⟨i - n, by simp; omega, ?_⟩
      rw [List.getElem_drop]
      congr 1; omega
    have := h _ hmem
    rw [List.getElem?_eq_getElem hl]
    simpa using this
  · rw [List.getElem?_eq_none hl]; rfl

theorem limbVal_low {s : Limbs} (h : ∀ i, 12 ≤ i → i < 24 → (s i).toInt = 0) :
    limbVal s = ∑ i ∈ Finset.range 12, (s i).toInt * 2 ^ (21 * i) := by
  unfold limbVal
  rw [show (24 : ℕ) = 12 + 12 by norm_num, Finset.sum_range_add]
  have : ∑ x ∈ Finset.range 12, (s (12 + x)).toInt * 2 ^ (21 * (12 + x)) = 0 := by
    apply Finset.sum_eq_zero
    intro x hx
    rw [h _ (by omega) (by have := Finset.mem_range.1 hx; omega), zero_mul]
  rw [this, add_zero]

theorem limbVal_low13 {s : Limbs} (h : ∀ i, 13 ≤ i → i < 24 → (s i).toInt = 0) :
    limbVal s = ∑ i ∈ Finset.range 12, (s i).toInt * 2 ^ (21 * i) + (s 12).toInt * 2 ^ 252 := by
  unfold limbVal
  rw [show (24 : ℕ) = 13 + 11 by norm_num, Finset.sum_range_add, Finset.sum_range_succ]
  have : ∑ x ∈ Finset.range 11, (s (13 + x)).toInt * 2 ^ (21 * (13 + x)) = 0 := by
    apply Finset.sum_eq_zero
    intro x hx
    rw [h _ (by omega) (by have := Finset.mem_range.1 hx; omega), zero_mul]
  rw [this, add_zero]

theorem bndC_at : ∀ i < 24, bndC.at i = if i < 12 then (0, 2 ^ 21 - 1) else if i = 12 then (-1, 0) else (0, 0) := by
  decide +kernel
theorem bndD_at : ∀ i < 24, bndD.at i = if i < 11 then (0, 2 ^ 21 - 1) else if i = 11 then (-1, 2 ^ 21) else (0, 0) := by
  decide +kernel

theorem top_digit {V low c M : ℤ} (hM : 0 < M) (h : V = low + c * M) (h0 : 0 ≤ low) (h1 : low < M) (h2 : -M < V)
    (h3 : V < M) : -1 ≤ c ∧ c ≤ 0 := by
  constructor
  · by_contra hc
    have : (c + 2) * M ≤ 0 := mul_nonpos_of_nonpos_of_nonneg (by omega) hM.le
    nlinarith
  · by_contra hc
    have : 0 ≤ (c - 1) * M := mul_nonneg (by omega) hM.le
    nlinarith

theorem top_nonneg {V low c M : ℤ} (hM : 0 < M) (h : V = low + c * M) (h1 : low < M) (h2 : 0 ≤ V) :
    0 ≤ c := by
  by_contra hc
  have : (c + 1) * M ≤ 0 := mul_nonpos_of_nonpos_of_nonneg (by omega) hM.le
  nlinarith

theorem final_range {V V' low c M e L : ℤ} (he : 0 ≤ e) (hl : L = M + e) (h : V = low + c * M) (h0 : 0 ≤ low)
    (h1 : low < M) (h2 : -M < V) (h3 : V < M) (hM : 0 < M) (hV' : V' = V - c * L) : 0 ≤ V' ∧ V' < L := by
  have hc := top_digit hM h h0 h1 h2 h3
  have h12 : c = -1 ∨ c = 0 := by omega
  rcases h12 with rfl | rfl <;> constructor <;> linarith

/-- The result of the reduction is the value modulo `l`, fully reduced. -/
theorem reduceTail_spec {s : Limbs} {B : Bnds} (h : Within s B) (hB : okA B = true) :
    (scVal (pack (execAll reduceTail s)) : ℤ) = limbVal s % l := by
  unfold okA at hB
  cases hA : absAll tailA B with
  | none => rw [hA] at hB; cases hB
  | some BA =>
    rw [hA] at hB
    simp only at hB
    cases hB' : absAll chain12 BA with
    | none => rw [hB'] at hB; cases hB
    | some BB =>
      rw [hB'] at hB
      simp only [Bool.and_eq_true, decide_eq_true_eq, beq_iff_eq] at hB
      obtain ⟨⟨⟨⟨hlow, hz⟩, hz2⟩, hlo⟩, hhi⟩ := hB
      obtain ⟨wA, k, vA⟩ := execAll_spec tailA h hA
      obtain ⟨wB, vB⟩ := execAll_carry chain12 (by
        intro o ho j; simp only [chain12, List.mem_cons, List.not_mem_nil, or_false] at ho
        rcases ho with rfl | rfl | rfl | rfl | rfl | rfl | rfl | rfl | rfl | rfl | rfl | rfl <;> simp) wA hB'
      rw [reduceTail_split, execAll_append, execAll_append]
      generalize execAll tailA s = s1 at *
      generalize execAll chain12 s1 = s2 at *
      -- range of the value
      have hV1 : limbVal s1 = ∑ i ∈ Finset.range 12, (s1 i).toInt * 2 ^ (21 * i) := limbVal_low (by
        intro i h1 h2
        have := wA.2 i h2
        rw [at_of_drop hz i h1] at this
        exact le_antisymm this.2 this.1)
      have hVl : lowSum BA ≤ limbVal s1 := by
        rw [hV1]; apply Finset.sum_le_sum; intro i hi
        have := wA.2 i (by have := Finset.mem_range.1 hi; omega)
        exact mul_le_mul_of_nonneg_right this.1 (by positivity)
      have hVu : limbVal s1 ≤ highSum BA := by
        rw [hV1]; apply Finset.sum_le_sum; intro i hi
        have := wA.2 i (by have := Finset.mem_range.1 hi; omega)
        exact mul_le_mul_of_nonneg_right this.2 (by positivity)
      have hb2 : ∀ i < 12, 0 ≤ (s2 i).toInt ∧ (s2 i).toInt ≤ 2 ^ 21 - 1 := by
        intro i hi
        have := wB.2 i (by omega)
        have hat : BB.at i = (0, 2 ^ 21 - 1) := by
          have h1 : (BB.take 12)[i]? = (List.replicate 12 ((0 : ℤ), (2 ^ 21 - 1 : ℤ)))[i]? := by rw [hlow]
          rw [List.getElem?_take_of_lt hi, List.getElem?_replicate, if_pos hi] at h1
          unfold Bnds.at
          rw [List.getD_eq_getElem?_getD, h1]; rfl
        rw [hat] at this; exact this
      have hV2 := limbVal_low13 (s := s2) (by
        intro i h1 h2
        have := wB.2 i h2
        rw [at_of_drop hz2 i h1] at this
        exact le_antisymm this.2 this.1)
      have hS := digit_sum_bounds (fun i => (s2 i).toInt) 12 hb2
      rw [show 21 * 12 = 252 by norm_num] at hS
      generalize ∑ i ∈ Finset.range 12, (s2 i).toInt * 2 ^ (21 * i) = low at *
      have hs12 : -1 ≤ (s2 12).toInt ∧ (s2 12).toInt ≤ 0 :=
        top_digit (by positivity) (by rw [← hV2, vB]) hS.1 hS.2 (lt_of_lt_of_le hlo hVl) (lt_of_le_of_lt hVu hhi)
      have wC : Within s2 bndC := by
        refine ⟨rfl, ?_⟩
        intro i hi
        rw [bndC_at i hi]
        split
        · rename_i h12; exact hb2 i h12
        · split
          · rename_i _ h12; rw [h12]; exact hs12
          · have := wB.2 i hi
            rw [at_of_drop hz2 i (by omega)] at this
            exact this
      -- the last fold and carries
      have hC := phaseC
      simp only [absAll, Option.bind_eq_some_iff] at hC
      obtain ⟨B1, hC1, hC2⟩ := hC
      obtain ⟨w3, v3⟩ := exec_spec (.fold 12) wC hC1
      have hC2' : absAll chain11 B1 = some bndD := hC2
      obtain ⟨w4, v4⟩ := execAll_carry chain11 (by
        intro o ho j; simp only [chain11, List.mem_cons, List.not_mem_nil, or_false] at ho
        rcases ho with rfl | rfl | rfl | rfl | rfl | rfl | rfl | rfl | rfl | rfl | rfl <;> simp) w3 hC2'
      rw [execAll_cons]
      generalize execAll chain11 (RedOp.exec (.fold 12) s2) = s4 at *
      have hV4 : limbVal s4 = limbVal s1 - (s2 12).toInt * l := by
        rw [v4, v3, vB]; simp [opLoss]
      have hlv : (l : ℤ) = 2 ^ 252 + 27742317777372353535851937790883648493 := by norm_num [l]
      have hrange : 0 ≤ limbVal s4 ∧ limbVal s4 < l :=
        final_range (e := 27742317777372353535851937790883648493) (by norm_num) hlv (by rw [← hV2, vB]) hS.1 hS.2
          (lt_of_lt_of_le hlo hVl) (lt_of_le_of_lt hVu hhi) (by positivity) hV4
      have hbd := bndD_at
      have hb4 : ∀ i < 11, 0 ≤ (s4 i).toInt ∧ (s4 i).toInt ≤ 2 ^ 21 - 1 := by
        intro i hi
        have := w4.2 i (by omega)
        rw [hbd i (by omega), if_pos hi] at this; exact this
      have hV4' := limbVal_low (s := s4) (by
        intro i h1 h2
        have := w4.2 i h2
        rw [hbd i h2, if_neg (by omega), if_neg (by omega)] at this
        exact le_antisymm this.2 this.1)
      have h11 := w4.2 11 (by norm_num)
      rw [hbd 11 (by norm_num), if_neg (by norm_num), if_pos rfl] at h11
      simp only at h11
      rw [Finset.sum_range_succ] at hV4'
      have hS4 := digit_sum_bounds (fun i => (s4 i).toInt) 11 hb4
      have h11' : 0 ≤ (s4 11).toInt :=
        top_nonneg (by positivity) hV4' hS4.2 hrange.1
      have hp := pack_spec s4 (fun i => (s4 i).toInt.toNat) (by
        intro i hi
        rcases Nat.lt_or_ge i 11 with h' | h'
        · rw [Int.toNat_of_nonneg (hb4 i h').1]
        · rw [show i = 11 by omega, Int.toNat_of_nonneg h11']) (by
        intro i hi
        have := hb4 i hi
        omega) (by omega)
      rw [hp]
      have hsum : ((∑ i ∈ Finset.range 12, (s4 i).toInt.toNat * 2 ^ (21 * i) : ℕ) : ℤ) = limbVal s4 := by
        rw [hV4', ← Finset.sum_range_succ (fun i => (s4 i).toInt * 2 ^ (21 * i)) 11]
        push_cast
        apply Finset.sum_congr rfl
        intro i hi
        have hi' := Finset.mem_range.1 hi
        congr 1
        rcases Nat.lt_or_ge i 11 with h' | h'
        · exact Int.toNat_of_nonneg (hb4 i h').1
        · rw [show i = 11 by omega]; exact Int.toNat_of_nonneg h11'
      rw [hsum]
      symm
      have : limbVal s = limbVal s4 + l * ((s2 12).toInt - k) := by rw [hV4, vA]; ring
      rw [this, Int.add_mul_emod_self_left]
      exact Int.emod_eq_of_lt hrange.1 hrange.2

end Ristretto.Proofs
