import Verif.Proofs.CrefColumns
import Mathlib.Tactic.Linarith

/-!
# `barrett_reduce` reduces modulo the group order
-/

namespace Ristretto.Proofs.Cref
open Model Model.Cref
open Finset (range)
set_option autoImplicit false

/-- The arithmetic of the estimate of the quotient. -/
theorem barrett_arith {X X1 x0 S D Q mu m A B : ℕ} (hX : X = x0 + A * X1) (hx0 : x0 < A) (hXlt : X < A * B)
    (h1 : mu * m ≤ A * B) (h2 : A * B < (mu + 1) * m) (hS : mu * X1 = S + D) (hQ1 : B * Q ≤ S) (hQ2 : S < B * (Q + 1))
    (hD : A * D + A * mu < A * B) : Q * m ≤ X ∧ X < (Q + 3) * m := by
  have hAB : 0 < A * B := by omega
  have hm : 0 < m := by
    rcases Nat.eq_zero_or_pos m with h | h
    · subst h; simp at h2
    · exact h
  constructor
  · apply Nat.le_of_mul_le_mul_left _ hAB
    calc A * B * (Q * m) = A * m * (B * Q) := by ring
      _ ≤ A * m * (mu * X1) := Nat.mul_le_mul_left _ (by omega)
      _ = mu * m * (A * X1) := by ring
      _ ≤ A * B * X := Nat.mul_le_mul h1 (by omega)
  · apply Nat.lt_of_mul_lt_mul_left (a := A * B)
    have e1 : mu * X = mu * x0 + A * (S + D) := by rw [hX, ← hS]; ring
    have e2 : mu * x0 ≤ A * mu := by rw [mul_comm A]; exact Nat.mul_le_mul_left _ hx0.le
    have e3 : A * S ≤ A * B * (Q + 1) := by rw [mul_assoc]; exact Nat.mul_le_mul_left _ hQ2.le
    have e4 : mu * X + X < A * B * (Q + 3) := by
      have : A * B * (Q + 3) = A * B * (Q + 1) + A * B + A * B := by ring
      rw [this, e1, mul_add]
      omega
    calc A * B * X ≤ (mu + 1) * m * X := Nat.mul_le_mul_right _ h2.le
      _ = m * (mu * X + X) := by ring
      _ < m * (A * B * (Q + 3)) := Nat.mul_lt_mul_of_pos_left e4 hm
      _ = A * B * ((Q + 3) * m) := by ring

theorem mul_small {a b : UInt32} {A : ℕ} (ha : a.toNat < 256) (hb : b.toNat ≤ A) (hA : 256 * A < 2 ^ 32) :
    (a * b).toNat = a.toNat * b.toNat := by
  rw [UInt32.toNat_mul, Nat.mod_eq_of_lt]
  calc a.toNat * b.toNat ≤ 256 * A := Nat.mul_le_mul ha.le hb
    _ < 2 ^ 32 := hA

theorem prod_sum (n k : ℕ) (a b : ℕ → ℕ) (c : ℕ → ℕ → Bool) :
    (∑ i ∈ range n, a i * 256 ^ i) * (∑ j ∈ range k, b j * 256 ^ j) =
      (∑ i ∈ range n, ∑ j ∈ range k, if c i j = true then a i * b j * 256 ^ (i + j) else 0) +
      (∑ i ∈ range n, ∑ j ∈ range k, if c i j = true then 0 else a i * b j * 256 ^ (i + j)) := by
  rw [Finset.sum_mul_sum, ← Finset.sum_add_distrib]
  apply Finset.sum_congr rfl
  intro i _
  rw [← Finset.sum_add_distrib]
  apply Finset.sum_congr rfl
  intro j _
  rw [pow_add]
  split <;> ring

theorem mu_len : muBarrett.length = 33 := rfl
theorem mu_small : Small muBarrett := by unfold Small; decide +kernel
theorem m_len : mOrder.length = 32 := rfl
theorem m_small : Small mOrder := by unfold Small; decide +kernel

theorem mu_bounds : digNat muBarrett * l ≤ 256 ^ 31 * 256 ^ 33 ∧ 256 ^ 31 * 256 ^ 33 < (digNat muBarrett + 1) * l := by
  decide +kernel

theorem low_bound : 256 ^ 31 * (∑ i ∈ range 33, ∑ j ∈ range 33, if decide (i + j ≥ 31) = true then 0 else 255 * 255 * 256 ^ (i + j)) +
    256 ^ 31 * digNat muBarrett < 256 ^ 31 * 256 ^ 33 := by
  decide +kernel

theorem mu_sum : ∑ i ∈ range 33, dg muBarrett i * 255 = 1387200 := by decide +kernel

theorem m_sum : ∑ i ∈ range 32, dg mOrder i * 1392639 < 2 ^ 32 - 2 ^ 24 := by decide +kernel

/-- The estimate of the quotient, `q3`. -/
theorem quotient_spec (x : List UInt32) (hl : x.length = 64) (hx : Small x) :
    let q2 := columns 33 33 (fun i j => decide (i + j ≥ 31)) (fun i j => muBarrett.getD i 0 * x.getD (j + 31) 0)
      (List.replicate 66 0)
    let q2 := addAt q2 32 (q2.getD 31 0 >>> 8)
    let q2 := addAt q2 33 (q2.getD 32 0 >>> 8)
    let q3 := q2.drop 33
    q3.length = 33 ∧ (∀ k, dg q3 k ≤ 1392639) ∧
    digNat q3 * l ≤ digNat x ∧ digNat x < (digNat q3 + 3) * l := by
  have hf : ∀ i j, (muBarrett.getD i 0 * x.getD (j + 31) 0).toNat = dg muBarrett i * dg x (j + 31) := fun i j =>
    mul_small (mu_small.dg i) (A := 255) (by have := hx.dg (j + 31); unfold dg at this; omega) (by norm_num)
  have hcol : ∀ t, colsum 33 33 (fun i j => decide (i + j ≥ 31)) (fun i j => muBarrett.getD i 0 * x.getD (j + 31) 0) t
      ≤ 1387200 := by
    intro t
    rw [← mu_sum]
    apply colsum_le
    intro i _ j _
    rw [hf]
    apply Nat.mul_le_mul_left
    have := hx.dg (j + 31)
    omega
  have hr : ∀ i < 33, ∀ j < 33, (decide (i + j ≥ 31)) = true → i + j < (List.replicate 66 (0 : UInt32)).length := by
    intro i hi j hj _
    rw [List.length_replicate]; omega
  have hb : ∀ t < (List.replicate 66 (0 : UInt32)).length, dg (List.replicate 66 0) t +
      colsum 33 33 (fun i j => decide (i + j ≥ 31)) (fun i j => muBarrett.getD i 0 * x.getD (j + 31) 0) t < 2 ^ 32 := by
    intro t _
    have := hcol t
    rw [dg_replicate]
    omega
  obtain ⟨c1, c2⟩ := columns_spec 33 33 (fun i j => decide (i + j ≥ 31))
    (fun i j => muBarrett.getD i 0 * x.getD (j + 31) 0) (List.replicate 66 0) hr hb
  have c3 := columns_digNat 33 33 (fun i j => decide (i + j ≥ 31))
    (fun i j => muBarrett.getD i 0 * x.getD (j + 31) 0) (List.replicate 66 0) hr hb
  have c0 : ∀ t < 31, dg (columns 33 33 (fun i j => decide (i + j ≥ 31))
      (fun i j => muBarrett.getD i 0 * x.getD (j + 31) 0) (List.replicate 66 0)) t = 0 := by
    intro t ht
    rw [c2, dg_replicate, zero_add]
    unfold colsum
    apply Finset.sum_eq_zero
    intro i _
    apply Finset.sum_eq_zero
    intro j _
    apply if_neg
    rintro ⟨h1, h2⟩
    simp only [decide_eq_true_eq] at h1
    omega
  have cb : ∀ t, dg (columns 33 33 (fun i j => decide (i + j ≥ 31))
      (fun i j => muBarrett.getD i 0 * x.getD (j + 31) 0) (List.replicate 66 0)) t ≤ 1387200 := by
    intro t
    rw [c2, dg_replicate, zero_add]
    exact hcol t
  rw [List.length_replicate] at c1
  rw [digNat_replicate, zero_add] at c3
  simp only
  generalize columns 33 33 (fun i j => decide (i + j ≥ 31))
    (fun i j => muBarrett.getD i 0 * x.getD (j + 31) 0) (List.replicate 66 0) = q at *
  clear hcol hr hb c2
  -- the two carries
  have s1 : (q.getD 31 0 >>> 8).toNat = dg q 31 / 256 := by
    rw [UInt32.toNat_shiftRight, Nat.shiftRight_eq_div_pow]; rfl
  have b31 := cb 31
  have b32 := cb 32
  have b33 := cb 33
  have d1 := fun i => dg_addAt (a := q) (k := 32) (x := q.getD 31 0 >>> 8) (by omega)
    (by rw [s1]; simp only [Nat.reducePow]; omega) i
  have l1 : (addAt q 32 (q.getD 31 0 >>> 8)).length = 66 := by rw [length_addAt, c1]
  generalize addAt q 32 (q.getD 31 0 >>> 8) = q' at *
  have s2 : (q'.getD 32 0 >>> 8).toNat = dg q' 32 / 256 := by
    rw [UInt32.toNat_shiftRight, Nat.shiftRight_eq_div_pow]; rfl
  have e32 : dg q' 32 = dg q 32 + dg q 31 / 256 := by rw [d1, if_pos rfl, s1]
  have e33 : dg q' 33 = dg q 33 := by rw [d1, if_neg (by omega), add_zero]
  have d2 := fun i => dg_addAt (a := q') (k := 33) (x := q'.getD 32 0 >>> 8) (by omega)
    (by rw [s2, e32, e33]; simp only [Nat.reducePow]; omega) i
  have l2 : (addAt q' 33 (q'.getD 32 0 >>> 8)).length = 66 := by rw [length_addAt, l1]
  generalize addAt q' 33 (q'.getD 32 0 >>> 8) = q'' at *
  rw [s1] at d1
  rw [s2, e32] at d2
  have l3 : (q''.drop 33).length = 33 := by rw [List.length_drop, l2]
  refine ⟨l3, ?_, ?_⟩
  · intro k
    rw [dg_drop, d2, d1, if_neg (by omega), add_zero]
    have := cb (33 + k)
    split <;> omega
  -- the number
  have n1 : digNat q'' = digNat q + dg q 31 / 256 * 256 ^ 32 + (dg q 32 + dg q 31 / 256) / 256 * 256 ^ 33 := by
    rw [digNat_sum, l2, digNat_sum, c1]
    simp only [d2, d1, add_mul, Finset.sum_add_distrib, ite_mul, zero_mul]
    rw [Finset.sum_ite_eq' (range 66) 32, Finset.sum_ite_eq' (range 66) 33, if_pos (by decide), if_pos (by decide)]
  have n2 := digNat_split q'' 33 (by omega)
  have n3 : digNat (q''.take 33) = dg q 31 * 256 ^ 31 + (dg q 32 + dg q 31 / 256) * 256 ^ 32 := by
    rw [digNat_sum, List.length_take, l2, show min 33 66 = 33 from rfl, Finset.sum_range_succ, Finset.sum_range_succ,
      Finset.sum_eq_zero]
    · rw [dg_take (by omega), dg_take (by omega), d2, d1, d2, d1]
      simp
    · intro t ht
      have := Finset.mem_range.1 ht
      rw [dg_take (by omega), d2, d1, c0 t this, if_neg (by omega), if_neg (by omega)]
      simp
  generalize digNat (q''.drop 33) = Q at *
  have hQ : 256 ^ 33 * Q ≤ digNat q ∧ digNat q < 256 ^ 33 * (Q + 1) := by
    rw [n3, n1] at n2
    generalize digNat q = S at *
    generalize dg q 31 = u at *
    generalize dg q 32 = v at *
    clear n1 n3 c0 cb d1 d2 hf c3 s1 s2 hx e32 e33
    simp only [Nat.reducePow] at *
    omega
  -- the product with mu
  have hx1 : digNat x = digNat (x.take 31) + 256 ^ 31 * digNat (x.drop 31) := digNat_split x 31 (by omega)
  have hx0 : digNat (x.take 31) < 256 ^ 31 := by
    have := (hx.take 31).lt
    rwa [List.length_take, hl] at this
  have hXlt : digNat x < 256 ^ 31 * 256 ^ 33 := by
    have := hx.lt
    rw [hl] at this
    rwa [← pow_add]
  have hp : digNat muBarrett * digNat (x.drop 31) = digNat q +
      (∑ i ∈ range 33, ∑ j ∈ range 33, if decide (i + j ≥ 31) = true then 0 else
        dg muBarrett i * dg x (j + 31) * 256 ^ (i + j)) := by
    rw [digNat_sum muBarrett, digNat_sum (x.drop 31), mu_len, List.length_drop, hl, show 64 - 31 = 33 from rfl]
    simp only [dg_drop, fun k => Nat.add_comm 31 k]
    rw [prod_sum 33 33 (dg muBarrett) (fun j => dg x (j + 31)) (fun i j => decide (i + j ≥ 31)), c3]
    simp only [hf]
  have hD : 256 ^ 31 * (∑ i ∈ range 33, ∑ j ∈ range 33, if decide (i + j ≥ 31) = true then 0 else
        dg muBarrett i * dg x (j + 31) * 256 ^ (i + j)) + 256 ^ 31 * digNat muBarrett < 256 ^ 31 * 256 ^ 33 := by
    refine lt_of_le_of_lt ?_ low_bound
    apply Nat.add_le_add_right
    apply Nat.mul_le_mul_left
    apply Finset.sum_le_sum
    intro i _
    apply Finset.sum_le_sum
    intro j _
    split
    · exact le_refl _
    · apply Nat.mul_le_mul_right
      have h1 := mu_small.dg i
      have h2 := hx.dg (j + 31)
      exact Nat.mul_le_mul (by omega) (by omega)
  exact barrett_arith hx1 hx0 hXlt mu_bounds.1 mu_bounds.2 hp hQ.1 hQ.2 hD

/-- `r2` agrees with the product of the group order and the quotient modulo 256^32. -/
theorem product_spec (q : List UInt32) (hl : q.length = 33) (hq : ∀ k, dg q k ≤ 1392639) :
    let r2 := columns 32 33 (fun i j => decide (i + j < 33)) (fun i j => mOrder.getD i 0 * q.getD j 0) (List.replicate 33 0)
    let r2 := (carryLoop 32 r2).take 32
    r2.length = 32 ∧ Small r2 ∧ ∃ e : ℕ, l * digNat q = digNat r2 + 256 ^ 32 * e := by
  have hf : ∀ i j, (mOrder.getD i 0 * q.getD j 0).toNat = dg mOrder i * dg q j := fun i j =>
    mul_small (m_small.dg i) (A := 1392639) (hq j) (by norm_num)
  have hcol : ∀ t, colsum 32 33 (fun i j => decide (i + j < 33)) (fun i j => mOrder.getD i 0 * q.getD j 0) t
      < 2 ^ 32 - 2 ^ 24 := by
    intro t
    refine lt_of_le_of_lt ?_ m_sum
    apply colsum_le
    intro i _ j _
    rw [hf]
    exact Nat.mul_le_mul_left _ (hq j)
  have hr : ∀ i < 32, ∀ j < 33, (decide (i + j < 33)) = true → i + j < (List.replicate 33 (0 : UInt32)).length := by
    intro i hi j hj h
    rw [List.length_replicate]
    simpa using h
  have hb : ∀ t < (List.replicate 33 (0 : UInt32)).length, dg (List.replicate 33 0) t +
      colsum 32 33 (fun i j => decide (i + j < 33)) (fun i j => mOrder.getD i 0 * q.getD j 0) t < 2 ^ 32 := by
    intro t _
    have := hcol t
    rw [dg_replicate]
    omega
  obtain ⟨c1, c2⟩ := columns_spec 32 33 (fun i j => decide (i + j < 33))
    (fun i j => mOrder.getD i 0 * q.getD j 0) (List.replicate 33 0) hr hb
  have c3 := columns_digNat 32 33 (fun i j => decide (i + j < 33))
    (fun i j => mOrder.getD i 0 * q.getD j 0) (List.replicate 33 0) hr hb
  have cb : ∀ t, dg (columns 32 33 (fun i j => decide (i + j < 33))
      (fun i j => mOrder.getD i 0 * q.getD j 0) (List.replicate 33 0)) t < 2 ^ 32 - 2 ^ 24 := by
    intro t
    rw [c2, dg_replicate, zero_add]
    exact hcol t
  rw [List.length_replicate] at c1
  rw [digNat_replicate, zero_add] at c3
  simp only
  generalize columns 32 33 (fun i j => decide (i + j < 33))
    (fun i j => mOrder.getD i 0 * q.getD j 0) (List.replicate 33 0) = r at *
  clear hcol hr hb c2
  match r, c1 with
  | a :: r', c1 =>
  simp only [List.length_cons] at c1
  obtain ⟨k1, k2, k3⟩ := carryLoop_spec 32 a r' (by omega) (by
    intro y hy
    obtain ⟨n, hn, rfl⟩ := List.getElem_of_mem hy
    have := cb (n + 1)
    unfold dg at this
    rw [List.getD_cons_succ, List.getD_eq_getElem?_getD, List.getElem?_eq_getElem hn] at this
    exact this)
  refine ⟨by rw [List.length_take, k1]; omega, k3, ?_⟩
  have n1 := digNat_split (carryLoop 32 (a :: r')) 32 (by omega)
  rw [k2, c3] at n1
  have hp := prod_sum 32 33 (dg mOrder) (dg q) (fun i j => decide (i + j < 33))
  have hm0 := digNat_sum mOrder
  have hq0 := digNat_sum q
  rw [m_len] at hm0
  rw [hl] at hq0
  rw [← hm0, ← hq0, mOrder_val] at hp
  simp only [hf] at n1
  rw [n1] at hp
  have hdiv : 256 ^ 32 ∣ ∑ i ∈ range 32, ∑ j ∈ range 33, (if decide (i + j < 33) = true then 0 else
      dg mOrder i * dg q j * 256 ^ (i + j)) := by
    apply Finset.dvd_sum
    intro i _
    apply Finset.dvd_sum
    intro j _
    split
    · exact dvd_zero _
    · rename_i h
      simp only [decide_eq_true_eq] at h
      exact Dvd.dvd.mul_left (pow_dvd_pow 256 (by omega)) _
  obtain ⟨e, he⟩ := hdiv
  refine ⟨digNat ((carryLoop 32 (a :: r')).drop 32) + e, ?_⟩
  rw [hp, he]
  ring

/-- `barrett_reduce` is reduction modulo the group order, for every 64 digits. -/
theorem barrettReduce_spec (x : List UInt32) (hl : x.length = 64) (hx : Small x) :
    ∃ c : Bytes 32, barrettReduce x = ofBytes c ∧ leVal c = digNat x % l := by
  obtain ⟨q1, q2, q3, q4⟩ := quotient_spec x hl hx
  unfold barrettReduce
  simp only [] at q1 q2 q3 q4 ⊢
  generalize List.drop 33 _ = q at *
  obtain ⟨p1, p2, e, p3⟩ := product_spec q q1 q2
  generalize List.take 32 (carryLoop 32 _) = r2 at *
  rw [List.take_take, show min 32 33 = 32 from rfl]
  have ht : (x.take 32).length = 32 := by rw [List.length_take, hl]; rfl
  have hz : ((x.take 32).zip r2).length = 32 := by rw [List.length_zip, ht, p1]; rfl
  obtain ⟨b1, b2, b, b3⟩ := borrowLoop_spec ((x.take 32).zip r2) 0 (by decide) (by
    intro y hy
    exact ⟨hx.take 32 _ (List.of_mem_zip (a := y.1) (b := y.2) hy).1, p2 _ (List.of_mem_zip (a := y.1) (b := y.2) hy).2⟩)
  rw [List.map_fst_zip (by rw [ht, p1]), List.map_snd_zip (by rw [ht, p1]), hz] at b3
  rw [hz] at b1
  generalize borrowLoop 0 _ = r at *
  obtain ⟨c, hc, hcv⟩ := ofList_bytes b1 b2
  have hrlt := b2.lt
  rw [b1] at hrlt
  have hsp := digNat_split x 32 (by omega)
  generalize digNat (x.drop 32) = xh at *
  generalize digNat (x.take 32) = xl at *
  have hr : digNat r = digNat x - digNat q * l := by
    have h3l : 3 * l < 256 ^ 32 := by decide +kernel
    obtain ⟨d, hd⟩ : ∃ d, digNat x = digNat q * l + d := ⟨_, (Nat.add_sub_cancel' q3).symm⟩
    have hd3 : d < 256 ^ 32 := by
      have : (digNat q + 3) * l = digNat q * l + 3 * l := by ring
      omega
    rw [hd, Nat.add_sub_cancel_left]
    have key : (digNat r : ℤ) = d + 256 ^ 32 * (b + e - xh) := by
      have h1 : (digNat x : ℤ) = xl + 256 ^ 32 * xh := by rw [hsp]; push_cast; ring
      have h2 : (digNat x : ℤ) = l * digNat q + d := by rw [hd]; push_cast; ring
      have h3 : (l * digNat q : ℤ) = digNat r2 + 256 ^ 32 * e := by exact_mod_cast p3
      have h0 : ((0 : UInt32).toNat : ℤ) = 0 := rfl
      rw [b3, h0]
      linear_combination h2 - h1 + h3
    generalize (b + (e : ℤ) - xh) = z at key
    clear * - key hrlt hd3
    generalize digNat r = R at *
    simp only [Nat.reducePow, Int.reducePow] at *
    omega
  rw [hc]
  obtain ⟨c1, hc1, hv1⟩ := reduceAddSub_spec c
  obtain ⟨c2, hc2, hv2⟩ := reduceAddSub_spec c1
  rw [hc1, hc2]
  refine ⟨c2, rfl, ?_⟩
  obtain ⟨d, hd⟩ : ∃ d, digNat x = digNat q * l + d := ⟨_, (Nat.add_sub_cancel' q3).symm⟩
  rw [hcv, hr, hd, Nat.add_sub_cancel_left] at hv1
  have hd3 : d < 3 * l := by
    have : (digNat q + 3) * l = digNat q * l + 3 * l := by ring
    omega
  rw [hd, Nat.mul_add_mod', hv2, hv1]
  have hlpos : 0 < l := by decide +kernel
  clear * - hd3 hlpos
  generalize l = m at *
  rcases (by omega : d < m ∨ (m ≤ d ∧ d < 2 * m) ∨ (2 * m ≤ d ∧ d < 3 * m)) with h | h | h
  · rw [if_pos h, if_pos h, Nat.mod_eq_of_lt h]
  · simp only [if_neg (by omega : ¬ d < m)]
    rw [if_pos (by omega), Nat.mod_eq_sub_mod h.1, Nat.mod_eq_of_lt (by omega)]
  · simp only [if_neg (by omega : ¬ d < m)]
    rw [if_neg (by omega), Nat.mod_eq_sub_mod (by omega), Nat.mod_eq_sub_mod (by omega),
      Nat.mod_eq_of_lt (by omega)]

end Ristretto.Proofs.Cref
