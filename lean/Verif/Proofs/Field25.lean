import Verif.Spec.Repr25
import Verif.Proofs.Int64
import Mathlib.Tactic.LinearCombination

/-!
# The generic field implementation: carries, multiplication, squaring

`I64 x v B`: the `Int64` `x` holds the integer `v`, and `|v| ≤ B`.  The combinators below track both
through the code; each checks that nothing overflows.
-/

namespace Ristretto.Proofs
open Model
set_option autoImplicit false

def I64 (x : Int64) (v : ℤ) (B : ℕ) : Prop := x.toInt = v ∧ -(B : ℤ) ≤ v ∧ v ≤ B
def I32 (x : Int32) (v : ℤ) (B : ℕ) : Prop := x.toInt = v ∧ -(B : ℤ) ≤ v ∧ v ≤ B

theorem i32_bmod {x : ℤ} (h1 : -2 ^ 31 ≤ x) (h2 : x < 2 ^ 31) : x.bmod (2 ^ 32) = x := by
  rw [Int.bmod_def]
  split <;> omega

theorem I64.mono {x : Int64} {v : ℤ} {A B : ℕ} (h : I64 x v A) (hAB : A ≤ B) : I64 x v B :=
  ⟨h.1, by have := h.2.1; omega, by have := h.2.2; omega⟩

theorem I32.mono {x : Int32} {v : ℤ} {A B : ℕ} (h : I32 x v A) (hAB : A ≤ B) : I32 x v B :=
  ⟨h.1, by have := h.2.1; omega, by have := h.2.2; omega⟩

theorem I64.add {x y : Int64} {v w : ℤ} {A B : ℕ} (hx : I64 x v A) (hy : I64 y w B) (h : A + B < 2 ^ 63) :
    I64 (x + y) (v + w) (A + B) := by
  obtain ⟨rfl, a1, a2⟩ := hx
  obtain ⟨rfl, b1, b2⟩ := hy
  refine ⟨i64_add ?_ ?_, ?_, ?_⟩ <;> push_cast <;> omega

theorem I64.sub {x y : Int64} {v w : ℤ} {A B : ℕ} (hx : I64 x v A) (hy : I64 y w B) (h : A + B < 2 ^ 63) :
    I64 (x - y) (v - w) (A + B) := by
  obtain ⟨rfl, a1, a2⟩ := hx
  obtain ⟨rfl, b1, b2⟩ := hy
  refine ⟨i64_sub ?_ ?_, ?_, ?_⟩ <;> push_cast <;> omega

theorem I64.mul {x y : Int64} {v w : ℤ} {A B : ℕ} (hx : I64 x v A) (hy : I64 y w B) (h : A * B < 2 ^ 63) :
    I64 (x * y) (v * w) (A * B) := by
  obtain ⟨rfl, a1, a2⟩ := hx
  obtain ⟨rfl, b1, b2⟩ := hy
  have hz : ((A * B : ℕ) : ℤ) < 2 ^ 63 := by exact_mod_cast h
  have hab : |x.toInt * y.toInt| ≤ ((A * B : ℕ) : ℤ) := by
    rw [abs_mul]; push_cast
    exact mul_le_mul (abs_le.2 ⟨a1, a2⟩) (abs_le.2 ⟨b1, b2⟩) (abs_nonneg _) (by positivity)
  rw [abs_le] at hab
  exact ⟨i64_mul (by omega) (by omega), hab.1, hab.2⟩

theorem I64.ofLit (x : Int64) (B : ℕ) (h : x.toInt = B) : I64 x B B := ⟨h, by omega, by omega⟩

theorem I32.to64 {x : Int32} {v : ℤ} {B : ℕ} (h : I32 x v B) : I64 x.toInt64 v B :=
  ⟨by rw [Int32.toInt_toInt64]; exact h.1, h.2⟩

theorem I64.to32 {x : Int64} {v : ℤ} {B : ℕ} (h : I64 x v B) (hB : B < 2 ^ 31) : I32 x.toInt32 v B := by
  obtain ⟨rfl, a1, a2⟩ := h
  refine ⟨?_, a1, a2⟩
  rw [Int64.toInt_toInt32, i32_bmod (by omega) (by omega)]

theorem I32.add {x y : Int32} {v w : ℤ} {A B : ℕ} (hx : I32 x v A) (hy : I32 y w B) (h : A + B < 2 ^ 31) :
    I32 (x + y) (v + w) (A + B) := by
  obtain ⟨rfl, a1, a2⟩ := hx
  obtain ⟨rfl, b1, b2⟩ := hy
  refine ⟨?_, ?_, ?_⟩
  · rw [Int32.toInt_add, i32_bmod (by omega) (by omega)]
  all_goals push_cast; omega

theorem I32.sub {x y : Int32} {v w : ℤ} {A B : ℕ} (hx : I32 x v A) (hy : I32 y w B) (h : A + B < 2 ^ 31) :
    I32 (x - y) (v - w) (A + B) := by
  obtain ⟨rfl, a1, a2⟩ := hx
  obtain ⟨rfl, b1, b2⟩ := hy
  refine ⟨?_, ?_, ?_⟩
  · rw [Int32.toInt_sub, i32_bmod (by omega) (by omega)]
  all_goals push_cast; omega

theorem I32.neg {x : Int32} {v : ℤ} {A : ℕ} (hx : I32 x v A) (h : A < 2 ^ 31) : I32 (-x) (-v) A := by
  obtain ⟨rfl, a1, a2⟩ := hx
  refine ⟨?_, ?_, ?_⟩
  · rw [Int32.toInt_neg, i32_bmod (by omega) (by omega)]
  all_goals omega

theorem I32.mulc {x : Int32} {v : ℤ} {B : ℕ} (hx : I32 x v B) (k : Int32) (n : ℕ) (hk : k.toInt = n)
    (h : n * B < 2 ^ 31) : I32 (k * x) (n * v) (n * B) := by
  obtain ⟨rfl, a1, a2⟩ := hx
  have hz : ((n * B : ℕ) : ℤ) < 2 ^ 31 := by exact_mod_cast h
  have l1 : -((n * B : ℕ) : ℤ) ≤ n * x.toInt := by
    push_cast; nlinarith
  have l2 : n * x.toInt ≤ ((n * B : ℕ) : ℤ) := by push_cast; nlinarith
  refine ⟨?_, l1, l2⟩
  rw [Int32.toInt_mul, hk, i32_bmod (by omega) (by omega)]

/-- A rounding carry of 26 bits. -/
theorem carry26 {h : Int64} {v : ℤ} {B : ℕ} (hR : I64 h v B) (hB : B ≤ 7 * 2 ^ 60) :
    ∃ c : ℤ, I64 ((h + 33554432) >>> 26) c (B / 2 ^ 26 + 1) ∧
      I64 (h - (((h + 33554432) >>> 26) <<< 26)) (v - c * 2 ^ 26) (2 ^ 25) := by
  obtain ⟨rfl, a1, a2⟩ := hR
  have e1 : (h + 33554432).toInt = h.toInt + 33554432 := by
    apply i64_add <;> (rw [show (33554432 : Int64).toInt = 33554432 from rfl]; omega)
  have e2 := i64_shr (h + 33554432) 26 26 rfl
  rw [e1] at e2
  have e3 := i64_shl' ((h + 33554432) >>> 26) 26 26 rfl (by rw [e2]; omega) (by rw [e2]; omega)
  have e4 : (h - (((h + 33554432) >>> 26) <<< 26)).toInt = h.toInt - (h.toInt + 33554432) / 2 ^ 26 * 2 ^ 26 := by
    rw [i64_sub (by rw [e3, e2]; omega) (by rw [e3, e2]; omega), e3, e2]
  refine ⟨(h.toInt + 33554432) / 2 ^ 26, ⟨e2, ?_, ?_⟩, ⟨e4, ?_, ?_⟩⟩ <;> push_cast <;> omega

/-- A rounding carry of 25 bits. -/
theorem carry25 {h : Int64} {v : ℤ} {B : ℕ} (hR : I64 h v B) (hB : B ≤ 7 * 2 ^ 60) :
    ∃ c : ℤ, I64 ((h + 16777216) >>> 25) c (B / 2 ^ 25 + 1) ∧
      I64 (h - (((h + 16777216) >>> 25) <<< 25)) (v - c * 2 ^ 25) (2 ^ 24) := by
  obtain ⟨rfl, a1, a2⟩ := hR
  have e1 : (h + 16777216).toInt = h.toInt + 16777216 := by
    apply i64_add <;> (rw [show (16777216 : Int64).toInt = 16777216 from rfl]; omega)
  have e2 := i64_shr (h + 16777216) 25 25 rfl
  rw [e1] at e2
  have e3 := i64_shl' ((h + 16777216) >>> 25) 25 25 rfl (by rw [e2]; omega) (by rw [e2]; omega)
  have e4 : (h - (((h + 16777216) >>> 25) <<< 25)).toInt = h.toInt - (h.toInt + 16777216) / 2 ^ 25 * 2 ^ 25 := by
    rw [i64_sub (by rw [e3, e2]; omega) (by rw [e3, e2]; omega), e3, e2]
  refine ⟨(h.toInt + 16777216) / 2 ^ 25, ⟨e2, ?_, ?_⟩, ⟨e4, ?_, ?_⟩⟩ <;> push_cast <;> omega

/-- The bound on the coefficients `setReduced` is given. -/
def wideB : ℕ := 6 * 2 ^ 60

namespace Fe25

theorem setReduced_spec {h0 h1 h2 h3 h4 h5 h6 h7 h8 h9 : Int64} {v0 v1 v2 v3 v4 v5 v6 v7 v8 v9 : ℤ}
    (H0 : I64 h0 v0 wideB) (H1 : I64 h1 v1 wideB) (H2 : I64 h2 v2 wideB) (H3 : I64 h3 v3 wideB)
    (H4 : I64 h4 v4 wideB) (H5 : I64 h5 v5 wideB) (H6 : I64 h6 v6 wideB) (H7 : I64 h7 v7 wideB)
    (H8 : I64 h8 v8 wideB) (H9 : I64 h9 v9 wideB) :
    Tight25 (Fe25.setReduced h0 h1 h2 h3 h4 h5 h6 h7 h8 h9) ∧
    feVal25 (Fe25.setReduced h0 h1 h2 h3 h4 h5 h6 h7 h8 h9) =
      ((v0 + 2 ^ 26 * v1 + 2 ^ 51 * v2 + 2 ^ 77 * v3 + 2 ^ 102 * v4 + 2 ^ 128 * v5 + 2 ^ 153 * v6 +
        2 ^ 179 * v7 + 2 ^ 204 * v8 + 2 ^ 230 * v9 : ℤ) : Fp) := by
  unfold wideB at *
  obtain ⟨c0, Cc0, H0⟩ := carry26 H0 (by norm_num)
  replace H1 := H1.add Cc0 (by norm_num)
  obtain ⟨c1, Cc1, H4⟩ := carry26 H4 (by norm_num)
  replace H5 := H5.add Cc1 (by norm_num)
  obtain ⟨c2, Cc2, H1⟩ := carry25 H1 (by norm_num)
  replace H2 := H2.add Cc2 (by norm_num)
  obtain ⟨c3, Cc3, H5⟩ := carry25 H5 (by norm_num)
  replace H6 := H6.add Cc3 (by norm_num)
  obtain ⟨c4, Cc4, H2⟩ := carry26 H2 (by norm_num)
  replace H3 := H3.add Cc4 (by norm_num)
  obtain ⟨c5, Cc5, H6⟩ := carry26 H6 (by norm_num)
  replace H7 := H7.add Cc5 (by norm_num)
  obtain ⟨c6, Cc6, H3⟩ := carry25 H3 (by norm_num)
  replace H4 := H4.add Cc6 (by norm_num)
  obtain ⟨c7, Cc7, H7⟩ := carry25 H7 (by norm_num)
  replace H8 := H8.add Cc7 (by norm_num)
  obtain ⟨c8, Cc8, H4⟩ := carry26 H4 (by norm_num)
  replace H5 := H5.add Cc8 (by norm_num)
  obtain ⟨c9, Cc9, H8⟩ := carry26 H8 (by norm_num)
  replace H9 := H9.add Cc9 (by norm_num)
  obtain ⟨c10, Cc10, H9⟩ := carry25 H9 (by norm_num)
  replace H0 := H0.add (Cc10.mul (I64.ofLit 19 19 rfl) (by norm_num)) (by norm_num)
  obtain ⟨c11, Cc11, H0⟩ := carry26 H0 (by norm_num)
  replace H1 := H1.add Cc11 (by norm_num)
  unfold Fe25.setReduced
  simp only
  have T0 := H0.to32 (by norm_num)
  have T1 := H1.to32 (by norm_num)
  have T2 := H2.to32 (by norm_num)
  have T3 := H3.to32 (by norm_num)
  have T4 := H4.to32 (by norm_num)
  have T5 := H5.to32 (by norm_num)
  have T6 := H6.to32 (by norm_num)
  have T7 := H7.to32 (by norm_num)
  have T8 := H8.to32 (by norm_num)
  have T9 := H9.to32 (by norm_num)
  constructor
  · unfold Tight25 Limbs25
    simp only
    refine ⟨?_, ?_, ?_, ?_, ?_, ?_, ?_, ?_, ?_, ?_⟩
    · have t := T0.mono (show _ ≤ 2 ^ 25 by norm_num)
      rw [t.1]; exact t.2
    · have t := T1.mono (show _ ≤ 2 ^ 24 + 2 ^ 16 by norm_num)
      rw [t.1]; exact t.2
    · have t := T2.mono (show _ ≤ 2 ^ 25 by norm_num)
      rw [t.1]; exact t.2
    · have t := T3.mono (show _ ≤ 2 ^ 24 + 2 ^ 16 by norm_num)
      rw [t.1]; exact t.2
    · have t := T4.mono (show _ ≤ 2 ^ 25 by norm_num)
      rw [t.1]; exact t.2
    · have t := T5.mono (show _ ≤ 2 ^ 24 + 2 ^ 16 by norm_num)
      rw [t.1]; exact t.2
    · have t := T6.mono (show _ ≤ 2 ^ 25 by norm_num)
      rw [t.1]; exact t.2
    · have t := T7.mono (show _ ≤ 2 ^ 24 + 2 ^ 16 by norm_num)
      rw [t.1]; exact t.2
    · have t := T8.mono (show _ ≤ 2 ^ 25 by norm_num)
      rw [t.1]; exact t.2
    · have t := T9.mono (show _ ≤ 2 ^ 24 + 2 ^ 16 by norm_num)
      rw [t.1]; exact t.2
  · unfold feVal25 feInt25
    simp only
    rw [T0.1, T1.1, T2.1, T3.1, T4.1, T5.1, T6.1, T7.1, T8.1, T9.1]
    have hp : ((2 ^ 255 - 19 : ℤ) : Fp) = 0 := by
      have : ((2 ^ 255 - 19 : ℤ) : Fp) = ((p : ℕ) : Fp) := by
        rw [show (2 ^ 255 - 19 : ℤ) = ((p : ℕ) : ℤ) by norm_num [p]]; push_cast; rfl
      rw [this, ZMod.natCast_self]
    push_cast at hp ⊢
    linear_combination (-(c10 : Fp)) * hp

/-- The limbs as tracked integers. -/
theorem limbs_I {B C : ℕ} {a : Fe25} (h : Limbs25 B C a) :
    I32 a.l0 a.l0.toInt B ∧ I32 a.l1 a.l1.toInt C ∧ I32 a.l2 a.l2.toInt B ∧ I32 a.l3 a.l3.toInt C ∧ I32 a.l4 a.l4.toInt B ∧ I32 a.l5 a.l5.toInt C ∧ I32 a.l6 a.l6.toInt B ∧ I32 a.l7 a.l7.toInt C ∧ I32 a.l8 a.l8.toInt B ∧ I32 a.l9 a.l9.toInt C := by
  obtain ⟨h0, h1, h2, h3, h4, h5, h6, h7, h8, h9⟩ := h
  exact ⟨⟨rfl, h0⟩, ⟨rfl, h1⟩, ⟨rfl, h2⟩, ⟨rfl, h3⟩, ⟨rfl, h4⟩, ⟨rfl, h5⟩, ⟨rfl, h6⟩, ⟨rfl, h7⟩, ⟨rfl, h8⟩, ⟨rfl, h9⟩⟩

theorem Limbs25.mono {B C B' C' : ℕ} {a : Fe25} (h : Limbs25 B C a) (hB : B ≤ B') (hC : C ≤ C') :
    Limbs25 B' C' a := by
  unfold Limbs25 at *
  omega

/-- The largest limb of the second factor of `Mul`: `19 * b[i]` still fits into an `int32`. -/
def mulB : ℕ := 113025455

set_option maxHeartbeats 1600000 in
theorem mul_spec (a b : Fe25) (ha : Limbs25 (2 ^ 27) (2 ^ 27) a) (hb : Limbs25 mulB mulB b) :
    Tight25 (Fe25.mul a b) ∧ feVal25 (Fe25.mul a b) = feVal25 a * feVal25 b := by
  unfold mulB at hb
  obtain ⟨A0, A1, A2, A3, A4, A5, A6, A7, A8, A9⟩ := limbs_I ha
  obtain ⟨B0, B1, B2, B3, B4, B5, B6, B7, B8, B9⟩ := limbs_I hb
  have a0 := A0.to64
  have a1 := A1.to64
  have a2 := A2.to64
  have a3 := A3.to64
  have a4 := A4.to64
  have a5 := A5.to64
  have a6 := A6.to64
  have a7 := A7.to64
  have a8 := A8.to64
  have a9 := A9.to64
  have a1_2 := (A1.mulc 2 2 rfl (by norm_num)).to64
  have a3_2 := (A3.mulc 2 2 rfl (by norm_num)).to64
  have a5_2 := (A5.mulc 2 2 rfl (by norm_num)).to64
  have a7_2 := (A7.mulc 2 2 rfl (by norm_num)).to64
  have a9_2 := (A9.mulc 2 2 rfl (by norm_num)).to64
  have b0 := B0.to64
  have b1 := B1.to64
  have b2 := B2.to64
  have b3 := B3.to64
  have b4 := B4.to64
  have b5 := B5.to64
  have b6 := B6.to64
  have b7 := B7.to64
  have b8 := B8.to64
  have b9 := B9.to64
  have b1_19 := (B1.mulc 19 19 rfl (by norm_num)).to64
  have b2_19 := (B2.mulc 19 19 rfl (by norm_num)).to64
  have b3_19 := (B3.mulc 19 19 rfl (by norm_num)).to64
  have b4_19 := (B4.mulc 19 19 rfl (by norm_num)).to64
  have b5_19 := (B5.mulc 19 19 rfl (by norm_num)).to64
  have b6_19 := (B6.mulc 19 19 rfl (by norm_num)).to64
  have b7_19 := (B7.mulc 19 19 rfl (by norm_num)).to64
  have b8_19 := (B8.mulc 19 19 rfl (by norm_num)).to64
  have b9_19 := (B9.mulc 19 19 rfl (by norm_num)).to64
  have H0 := ((((((((((a0.mul b0 (by norm_num)).add (a1_2.mul b9_19 (by norm_num)) (by norm_num)).add (a2.mul b8_19 (by norm_num)) (by norm_num)).add (a3_2.mul b7_19 (by norm_num)) (by norm_num)).add (a4.mul b6_19 (by norm_num)) (by norm_num)).add (a5_2.mul b5_19 (by norm_num)) (by norm_num)).add (a6.mul b4_19 (by norm_num)) (by norm_num)).add (a7_2.mul b3_19 (by norm_num)) (by norm_num)).add (a8.mul b2_19 (by norm_num)) (by norm_num)).add (a9_2.mul b1_19 (by norm_num)) (by norm_num)).mono (show _ ≤ wideB by norm_num [wideB])
  have H1 := ((((((((((a0.mul b1 (by norm_num)).add (a1.mul b0 (by norm_num)) (by norm_num)).add (a2.mul b9_19 (by norm_num)) (by norm_num)).add (a3.mul b8_19 (by norm_num)) (by norm_num)).add (a4.mul b7_19 (by norm_num)) (by norm_num)).add (a5.mul b6_19 (by norm_num)) (by norm_num)).add (a6.mul b5_19 (by norm_num)) (by norm_num)).add (a7.mul b4_19 (by norm_num)) (by norm_num)).add (a8.mul b3_19 (by norm_num)) (by norm_num)).add (a9.mul b2_19 (by norm_num)) (by norm_num)).mono (show _ ≤ wideB by norm_num [wideB])
  have H2 := ((((((((((a0.mul b2 (by norm_num)).add (a1_2.mul b1 (by norm_num)) (by norm_num)).add (a2.mul b0 (by norm_num)) (by norm_num)).add (a3_2.mul b9_19 (by norm_num)) (by norm_num)).add (a4.mul b8_19 (by norm_num)) (by norm_num)).add (a5_2.mul b7_19 (by norm_num)) (by norm_num)).add (a6.mul b6_19 (by norm_num)) (by norm_num)).add (a7_2.mul b5_19 (by norm_num)) (by norm_num)).add (a8.mul b4_19 (by norm_num)) (by norm_num)).add (a9_2.mul b3_19 (by norm_num)) (by norm_num)).mono (show _ ≤ wideB by norm_num [wideB])
  have H3 := ((((((((((a0.mul b3 (by norm_num)).add (a1.mul b2 (by norm_num)) (by norm_num)).add (a2.mul b1 (by norm_num)) (by norm_num)).add (a3.mul b0 (by norm_num)) (by norm_num)).add (a4.mul b9_19 (by norm_num)) (by norm_num)).add (a5.mul b8_19 (by norm_num)) (by norm_num)).add (a6.mul b7_19 (by norm_num)) (by norm_num)).add (a7.mul b6_19 (by norm_num)) (by norm_num)).add (a8.mul b5_19 (by norm_num)) (by norm_num)).add (a9.mul b4_19 (by norm_num)) (by norm_num)).mono (show _ ≤ wideB by norm_num [wideB])
  have H4 := ((((((((((a0.mul b4 (by norm_num)).add (a1_2.mul b3 (by norm_num)) (by norm_num)).add (a2.mul b2 (by norm_num)) (by norm_num)).add (a3_2.mul b1 (by norm_num)) (by norm_num)).add (a4.mul b0 (by norm_num)) (by norm_num)).add (a5_2.mul b9_19 (by norm_num)) (by norm_num)).add (a6.mul b8_19 (by norm_num)) (by norm_num)).add (a7_2.mul b7_19 (by norm_num)) (by norm_num)).add (a8.mul b6_19 (by norm_num)) (by norm_num)).add (a9_2.mul b5_19 (by norm_num)) (by norm_num)).mono (show _ ≤ wideB by norm_num [wideB])
  have H5 := ((((((((((a0.mul b5 (by norm_num)).add (a1.mul b4 (by norm_num)) (by norm_num)).add (a2.mul b3 (by norm_num)) (by norm_num)).add (a3.mul b2 (by norm_num)) (by norm_num)).add (a4.mul b1 (by norm_num)) (by norm_num)).add (a5.mul b0 (by norm_num)) (by norm_num)).add (a6.mul b9_19 (by norm_num)) (by norm_num)).add (a7.mul b8_19 (by norm_num)) (by norm_num)).add (a8.mul b7_19 (by norm_num)) (by norm_num)).add (a9.mul b6_19 (by norm_num)) (by norm_num)).mono (show _ ≤ wideB by norm_num [wideB])
  have H6 := ((((((((((a0.mul b6 (by norm_num)).add (a1_2.mul b5 (by norm_num)) (by norm_num)).add (a2.mul b4 (by norm_num)) (by norm_num)).add (a3_2.mul b3 (by norm_num)) (by norm_num)).add (a4.mul b2 (by norm_num)) (by norm_num)).add (a5_2.mul b1 (by norm_num)) (by norm_num)).add (a6.mul b0 (by norm_num)) (by norm_num)).add (a7_2.mul b9_19 (by norm_num)) (by norm_num)).add (a8.mul b8_19 (by norm_num)) (by norm_num)).add (a9_2.mul b7_19 (by norm_num)) (by norm_num)).mono (show _ ≤ wideB by norm_num [wideB])
  have H7 := ((((((((((a0.mul b7 (by norm_num)).add (a1.mul b6 (by norm_num)) (by norm_num)).add (a2.mul b5 (by norm_num)) (by norm_num)).add (a3.mul b4 (by norm_num)) (by norm_num)).add (a4.mul b3 (by norm_num)) (by norm_num)).add (a5.mul b2 (by norm_num)) (by norm_num)).add (a6.mul b1 (by norm_num)) (by norm_num)).add (a7.mul b0 (by norm_num)) (by norm_num)).add (a8.mul b9_19 (by norm_num)) (by norm_num)).add (a9.mul b8_19 (by norm_num)) (by norm_num)).mono (show _ ≤ wideB by norm_num [wideB])
  have H8 := ((((((((((a0.mul b8 (by norm_num)).add (a1_2.mul b7 (by norm_num)) (by norm_num)).add (a2.mul b6 (by norm_num)) (by norm_num)).add (a3_2.mul b5 (by norm_num)) (by norm_num)).add (a4.mul b4 (by norm_num)) (by norm_num)).add (a5_2.mul b3 (by norm_num)) (by norm_num)).add (a6.mul b2 (by norm_num)) (by norm_num)).add (a7_2.mul b1 (by norm_num)) (by norm_num)).add (a8.mul b0 (by norm_num)) (by norm_num)).add (a9_2.mul b9_19 (by norm_num)) (by norm_num)).mono (show _ ≤ wideB by norm_num [wideB])
  have H9 := ((((((((((a0.mul b9 (by norm_num)).add (a1.mul b8 (by norm_num)) (by norm_num)).add (a2.mul b7 (by norm_num)) (by norm_num)).add (a3.mul b6 (by norm_num)) (by norm_num)).add (a4.mul b5 (by norm_num)) (by norm_num)).add (a5.mul b4 (by norm_num)) (by norm_num)).add (a6.mul b3 (by norm_num)) (by norm_num)).add (a7.mul b2 (by norm_num)) (by norm_num)).add (a8.mul b1 (by norm_num)) (by norm_num)).add (a9.mul b0 (by norm_num)) (by norm_num)).mono (show _ ≤ wideB by norm_num [wideB])
  obtain ⟨h1, h2⟩ := setReduced_spec H0 H1 H2 H3 H4 H5 H6 H7 H8 H9
  refine ⟨h1, ?_⟩
  refine Eq.trans h2 ?_
  unfold feVal25 feInt25
  have hp : ((2 : Fp) ^ 255) = 19 := by
    have : ((2 : Fp) ^ 255 - 19) = ((p : ℕ) : Fp) := by
      have e : (p : ℕ) + 19 = 2 ^ 255 := by norm_num [p]
      have := congrArg (fun n : ℕ => (n : Fp)) e
      push_cast at this
      linear_combination -this
    rw [ZMod.natCast_self] at this
    linear_combination this
  generalize a.l0.toInt = x0
  generalize b.l0.toInt = y0
  generalize a.l1.toInt = x1
  generalize b.l1.toInt = y1
  generalize a.l2.toInt = x2
  generalize b.l2.toInt = y2
  generalize a.l3.toInt = x3
  generalize b.l3.toInt = y3
  generalize a.l4.toInt = x4
  generalize b.l4.toInt = y4
  generalize a.l5.toInt = x5
  generalize b.l5.toInt = y5
  generalize a.l6.toInt = x6
  generalize b.l6.toInt = y6
  generalize a.l7.toInt = x7
  generalize b.l7.toInt = y7
  generalize a.l8.toInt = x8
  generalize b.l8.toInt = y8
  generalize a.l9.toInt = x9
  generalize b.l9.toInt = y9
  push_cast
  linear_combination (-(2 ^ 1 * (x1 : Fp) * y9 + (x2 : Fp) * y8 + 2 ^ 26 * (x2 : Fp) * y9 +
    2 ^ 1 * (x3 : Fp) * y7 + 2 ^ 26 * (x3 : Fp) * y8 + 2 ^ 52 * (x3 : Fp) * y9 +
    (x4 : Fp) * y6 + 2 ^ 26 * (x4 : Fp) * y7 + 2 ^ 51 * (x4 : Fp) * y8 +
    2 ^ 77 * (x4 : Fp) * y9 + 2 ^ 1 * (x5 : Fp) * y5 + 2 ^ 26 * (x5 : Fp) * y6 +
    2 ^ 52 * (x5 : Fp) * y7 + 2 ^ 77 * (x5 : Fp) * y8 + 2 ^ 103 * (x5 : Fp) * y9 +
    (x6 : Fp) * y4 + 2 ^ 26 * (x6 : Fp) * y5 + 2 ^ 51 * (x6 : Fp) * y6 +
    2 ^ 77 * (x6 : Fp) * y7 + 2 ^ 102 * (x6 : Fp) * y8 + 2 ^ 128 * (x6 : Fp) * y9 +
    2 ^ 1 * (x7 : Fp) * y3 + 2 ^ 26 * (x7 : Fp) * y4 + 2 ^ 52 * (x7 : Fp) * y5 +
    2 ^ 77 * (x7 : Fp) * y6 + 2 ^ 103 * (x7 : Fp) * y7 + 2 ^ 128 * (x7 : Fp) * y8 +
    2 ^ 154 * (x7 : Fp) * y9 + (x8 : Fp) * y2 + 2 ^ 26 * (x8 : Fp) * y3 +
    2 ^ 51 * (x8 : Fp) * y4 + 2 ^ 77 * (x8 : Fp) * y5 + 2 ^ 102 * (x8 : Fp) * y6 +
    2 ^ 128 * (x8 : Fp) * y7 + 2 ^ 153 * (x8 : Fp) * y8 + 2 ^ 179 * (x8 : Fp) * y9 +
    2 ^ 1 * (x9 : Fp) * y1 + 2 ^ 26 * (x9 : Fp) * y2 + 2 ^ 52 * (x9 : Fp) * y3 +
    2 ^ 77 * (x9 : Fp) * y4 + 2 ^ 103 * (x9 : Fp) * y5 + 2 ^ 128 * (x9 : Fp) * y6 +
    2 ^ 154 * (x9 : Fp) * y7 + 2 ^ 179 * (x9 : Fp) * y8 + 2 ^ 205 * (x9 : Fp) * y9)) * hp

theorem sq_term {x y : Int64} {v w : ℤ} {A B K : ℕ} (hx : I64 x v A) (hy : I64 y w B) (h : A * B = K)
    (hK : K < 2 ^ 63) : I64 (x * y) (v * w) K := h ▸ hx.mul hy (h ▸ hK)

/-- The coefficients of the square, below `267 F^2` for limbs up to `F`. -/
def SquareWide (a : Fe25) (B : ℕ) : Prop :=
  I64 (Fe25.squareWide a).h0 (a.l0.toInt * a.l0.toInt + (2 * a.l1.toInt) * (38 * a.l9.toInt) + (2 * a.l2.toInt) * (19 * a.l8.toInt) + (2 * a.l3.toInt) * (38 * a.l7.toInt) + (2 * a.l4.toInt) * (19 * a.l6.toInt) + a.l5.toInt * (38 * a.l5.toInt)) B ∧
  I64 (Fe25.squareWide a).h1 ((2 * a.l0.toInt) * a.l1.toInt + a.l2.toInt * (38 * a.l9.toInt) + (2 * a.l3.toInt) * (19 * a.l8.toInt) + a.l4.toInt * (38 * a.l7.toInt) + (2 * a.l5.toInt) * (19 * a.l6.toInt)) B ∧
  I64 (Fe25.squareWide a).h2 ((2 * a.l0.toInt) * a.l2.toInt + (2 * a.l1.toInt) * a.l1.toInt + (2 * a.l3.toInt) * (38 * a.l9.toInt) + (2 * a.l4.toInt) * (19 * a.l8.toInt) + (2 * a.l5.toInt) * (38 * a.l7.toInt) + a.l6.toInt * (19 * a.l6.toInt)) B ∧
  I64 (Fe25.squareWide a).h3 ((2 * a.l0.toInt) * a.l3.toInt + (2 * a.l1.toInt) * a.l2.toInt + a.l4.toInt * (38 * a.l9.toInt) + (2 * a.l5.toInt) * (19 * a.l8.toInt) + a.l6.toInt * (38 * a.l7.toInt)) B ∧
  I64 (Fe25.squareWide a).h4 ((2 * a.l0.toInt) * a.l4.toInt + (2 * a.l1.toInt) * (2 * a.l3.toInt) + a.l2.toInt * a.l2.toInt + (2 * a.l5.toInt) * (38 * a.l9.toInt) + (2 * a.l6.toInt) * (19 * a.l8.toInt) + a.l7.toInt * (38 * a.l7.toInt)) B ∧
  I64 (Fe25.squareWide a).h5 ((2 * a.l0.toInt) * a.l5.toInt + (2 * a.l1.toInt) * a.l4.toInt + (2 * a.l2.toInt) * a.l3.toInt + a.l6.toInt * (38 * a.l9.toInt) + (2 * a.l7.toInt) * (19 * a.l8.toInt)) B ∧
  I64 (Fe25.squareWide a).h6 ((2 * a.l0.toInt) * a.l6.toInt + (2 * a.l1.toInt) * (2 * a.l5.toInt) + (2 * a.l2.toInt) * a.l4.toInt + (2 * a.l3.toInt) * a.l3.toInt + (2 * a.l7.toInt) * (38 * a.l9.toInt) + a.l8.toInt * (19 * a.l8.toInt)) B ∧
  I64 (Fe25.squareWide a).h7 ((2 * a.l0.toInt) * a.l7.toInt + (2 * a.l1.toInt) * a.l6.toInt + (2 * a.l2.toInt) * a.l5.toInt + (2 * a.l3.toInt) * a.l4.toInt + a.l8.toInt * (38 * a.l9.toInt)) B ∧
  I64 (Fe25.squareWide a).h8 ((2 * a.l0.toInt) * a.l8.toInt + (2 * a.l1.toInt) * (2 * a.l7.toInt) + (2 * a.l2.toInt) * a.l6.toInt + (2 * a.l3.toInt) * (2 * a.l5.toInt) + a.l4.toInt * a.l4.toInt + a.l9.toInt * (38 * a.l9.toInt)) B ∧
  I64 (Fe25.squareWide a).h9 ((2 * a.l0.toInt) * a.l9.toInt + (2 * a.l1.toInt) * a.l8.toInt + (2 * a.l2.toInt) * a.l7.toInt + (2 * a.l3.toInt) * a.l6.toInt + (2 * a.l4.toInt) * a.l5.toInt) B

set_option maxHeartbeats 1600000 in
theorem squareWide_spec (a : Fe25) (F : ℕ) (hF : 534 * (F * F) ≤ wideB * 2) (ha : Limbs25 F F a) :
    SquareWide a (267 * (F * F)) := by
  unfold wideB at hF
  have hF2 : F < 2 ^ 28 := by
    by_contra hc
    have : 2 ^ 28 * 2 ^ 28 ≤ F * F := Nat.mul_le_mul (by omega) (by omega)
    omega
  obtain ⟨A0, A1, A2, A3, A4, A5, A6, A7, A8, A9⟩ := limbs_I ha
  have f0 := A0.to64
  have f1 := A1.to64
  have f2 := A2.to64
  have f3 := A3.to64
  have f4 := A4.to64
  have f5 := A5.to64
  have f6 := A6.to64
  have f7 := A7.to64
  have f8 := A8.to64
  have f9 := A9.to64
  have f0_2 := (A0.mulc 2 2 rfl (by omega)).to64
  have f1_2 := (A1.mulc 2 2 rfl (by omega)).to64
  have f2_2 := (A2.mulc 2 2 rfl (by omega)).to64
  have f3_2 := (A3.mulc 2 2 rfl (by omega)).to64
  have f4_2 := (A4.mulc 2 2 rfl (by omega)).to64
  have f5_2 := (A5.mulc 2 2 rfl (by omega)).to64
  have f6_2 := (A6.mulc 2 2 rfl (by omega)).to64
  have f7_2 := (A7.mulc 2 2 rfl (by omega)).to64
  have f5_38 := (I64.ofLit 38 38 rfl).mul f5 (by omega)
  have f6_19 := (I64.ofLit 19 19 rfl).mul f6 (by omega)
  have f7_38 := (I64.ofLit 38 38 rfl).mul f7 (by omega)
  have f8_19 := (I64.ofLit 19 19 rfl).mul f8 (by omega)
  have f9_38 := (I64.ofLit 38 38 rfl).mul f9 (by omega)
  generalize hQ : F * F = Q at *
  refine ⟨?_, ?_, ?_, ?_, ?_, ?_, ?_, ?_, ?_, ?_⟩
  · exact ((((((sq_term f0 f0 (by rw [← hQ]; ring : _ = 1 * Q) (by omega)).add (sq_term f1_2 f9_38 (by rw [← hQ]; ring : _ = 76 * Q) (by omega)) (by omega)).add (sq_term f2_2 f8_19 (by rw [← hQ]; ring : _ = 38 * Q) (by omega)) (by omega)).add (sq_term f3_2 f7_38 (by rw [← hQ]; ring : _ = 76 * Q) (by omega)) (by omega)).add (sq_term f4_2 f6_19 (by rw [← hQ]; ring : _ = 38 * Q) (by omega)) (by omega)).add (sq_term f5 f5_38 (by rw [← hQ]; ring : _ = 38 * Q) (by omega)) (by omega)).mono (by omega)
  · exact (((((sq_term f0_2 f1 (by rw [← hQ]; ring : _ = 2 * Q) (by omega)).add (sq_term f2 f9_38 (by rw [← hQ]; ring : _ = 38 * Q) (by omega)) (by omega)).add (sq_term f3_2 f8_19 (by rw [← hQ]; ring : _ = 38 * Q) (by omega)) (by omega)).add (sq_term f4 f7_38 (by rw [← hQ]; ring : _ = 38 * Q) (by omega)) (by omega)).add (sq_term f5_2 f6_19 (by rw [← hQ]; ring : _ = 38 * Q) (by omega)) (by omega)).mono (by omega)
  · exact ((((((sq_term f0_2 f2 (by rw [← hQ]; ring : _ = 2 * Q) (by omega)).add (sq_term f1_2 f1 (by rw [← hQ]; ring : _ = 2 * Q) (by omega)) (by omega)).add (sq_term f3_2 f9_38 (by rw [← hQ]; ring : _ = 76 * Q) (by omega)) (by omega)).add (sq_term f4_2 f8_19 (by rw [← hQ]; ring : _ = 38 * Q) (by omega)) (by omega)).add (sq_term f5_2 f7_38 (by rw [← hQ]; ring : _ = 76 * Q) (by omega)) (by omega)).add (sq_term f6 f6_19 (by rw [← hQ]; ring : _ = 19 * Q) (by omega)) (by omega)).mono (by omega)
  · exact (((((sq_term f0_2 f3 (by rw [← hQ]; ring : _ = 2 * Q) (by omega)).add (sq_term f1_2 f2 (by rw [← hQ]; ring : _ = 2 * Q) (by omega)) (by omega)).add (sq_term f4 f9_38 (by rw [← hQ]; ring : _ = 38 * Q) (by omega)) (by omega)).add (sq_term f5_2 f8_19 (by rw [← hQ]; ring : _ = 38 * Q) (by omega)) (by omega)).add (sq_term f6 f7_38 (by rw [← hQ]; ring : _ = 38 * Q) (by omega)) (by omega)).mono (by omega)
  · exact ((((((sq_term f0_2 f4 (by rw [← hQ]; ring : _ = 2 * Q) (by omega)).add (sq_term f1_2 f3_2 (by rw [← hQ]; ring : _ = 4 * Q) (by omega)) (by omega)).add (sq_term f2 f2 (by rw [← hQ]; ring : _ = 1 * Q) (by omega)) (by omega)).add (sq_term f5_2 f9_38 (by rw [← hQ]; ring : _ = 76 * Q) (by omega)) (by omega)).add (sq_term f6_2 f8_19 (by rw [← hQ]; ring : _ = 38 * Q) (by omega)) (by omega)).add (sq_term f7 f7_38 (by rw [← hQ]; ring : _ = 38 * Q) (by omega)) (by omega)).mono (by omega)
  · exact (((((sq_term f0_2 f5 (by rw [← hQ]; ring : _ = 2 * Q) (by omega)).add (sq_term f1_2 f4 (by rw [← hQ]; ring : _ = 2 * Q) (by omega)) (by omega)).add (sq_term f2_2 f3 (by rw [← hQ]; ring : _ = 2 * Q) (by omega)) (by omega)).add (sq_term f6 f9_38 (by rw [← hQ]; ring : _ = 38 * Q) (by omega)) (by omega)).add (sq_term f7_2 f8_19 (by rw [← hQ]; ring : _ = 38 * Q) (by omega)) (by omega)).mono (by omega)
  · exact ((((((sq_term f0_2 f6 (by rw [← hQ]; ring : _ = 2 * Q) (by omega)).add (sq_term f1_2 f5_2 (by rw [← hQ]; ring : _ = 4 * Q) (by omega)) (by omega)).add (sq_term f2_2 f4 (by rw [← hQ]; ring : _ = 2 * Q) (by omega)) (by omega)).add (sq_term f3_2 f3 (by rw [← hQ]; ring : _ = 2 * Q) (by omega)) (by omega)).add (sq_term f7_2 f9_38 (by rw [← hQ]; ring : _ = 76 * Q) (by omega)) (by omega)).add (sq_term f8 f8_19 (by rw [← hQ]; ring : _ = 19 * Q) (by omega)) (by omega)).mono (by omega)
  · exact (((((sq_term f0_2 f7 (by rw [← hQ]; ring : _ = 2 * Q) (by omega)).add (sq_term f1_2 f6 (by rw [← hQ]; ring : _ = 2 * Q) (by omega)) (by omega)).add (sq_term f2_2 f5 (by rw [← hQ]; ring : _ = 2 * Q) (by omega)) (by omega)).add (sq_term f3_2 f4 (by rw [← hQ]; ring : _ = 2 * Q) (by omega)) (by omega)).add (sq_term f8 f9_38 (by rw [← hQ]; ring : _ = 38 * Q) (by omega)) (by omega)).mono (by omega)
  · exact ((((((sq_term f0_2 f8 (by rw [← hQ]; ring : _ = 2 * Q) (by omega)).add (sq_term f1_2 f7_2 (by rw [← hQ]; ring : _ = 4 * Q) (by omega)) (by omega)).add (sq_term f2_2 f6 (by rw [← hQ]; ring : _ = 2 * Q) (by omega)) (by omega)).add (sq_term f3_2 f5_2 (by rw [← hQ]; ring : _ = 4 * Q) (by omega)) (by omega)).add (sq_term f4 f4 (by rw [← hQ]; ring : _ = 1 * Q) (by omega)) (by omega)).add (sq_term f9 f9_38 (by rw [← hQ]; ring : _ = 38 * Q) (by omega)) (by omega)).mono (by omega)
  · exact (((((sq_term f0_2 f9 (by rw [← hQ]; ring : _ = 2 * Q) (by omega)).add (sq_term f1_2 f8 (by rw [← hQ]; ring : _ = 2 * Q) (by omega)) (by omega)).add (sq_term f2_2 f7 (by rw [← hQ]; ring : _ = 2 * Q) (by omega)) (by omega)).add (sq_term f3_2 f6 (by rw [← hQ]; ring : _ = 2 * Q) (by omega)) (by omega)).add (sq_term f4_2 f5 (by rw [← hQ]; ring : _ = 2 * Q) (by omega)) (by omega)).mono (by omega)

theorem square_spec (a : Fe25) (ha : Limbs25 (2 ^ 27) (2 ^ 27) a) :
    Tight25 (Fe25.square a) ∧ feVal25 (Fe25.square a) = feVal25 a * feVal25 a := by
  obtain ⟨H0, H1, H2, H3, H4, H5, H6, H7, H8, H9⟩ := squareWide_spec a (2 ^ 27) (by norm_num [wideB]) ha
  replace H0 := H0.mono (show _ ≤ wideB by norm_num [wideB])
  replace H1 := H1.mono (show _ ≤ wideB by norm_num [wideB])
  replace H2 := H2.mono (show _ ≤ wideB by norm_num [wideB])
  replace H3 := H3.mono (show _ ≤ wideB by norm_num [wideB])
  replace H4 := H4.mono (show _ ≤ wideB by norm_num [wideB])
  replace H5 := H5.mono (show _ ≤ wideB by norm_num [wideB])
  replace H6 := H6.mono (show _ ≤ wideB by norm_num [wideB])
  replace H7 := H7.mono (show _ ≤ wideB by norm_num [wideB])
  replace H8 := H8.mono (show _ ≤ wideB by norm_num [wideB])
  replace H9 := H9.mono (show _ ≤ wideB by norm_num [wideB])
  obtain ⟨h1, h2⟩ := setReduced_spec H0 H1 H2 H3 H4 H5 H6 H7 H8 H9
  refine ⟨h1, ?_⟩
  refine Eq.trans h2 ?_
  unfold feVal25 feInt25
  have hp : ((2 : Fp) ^ 255) = 19 := by
    have : ((2 : Fp) ^ 255 - 19) = ((p : ℕ) : Fp) := by
      have e : (p : ℕ) + 19 = 2 ^ 255 := by norm_num [p]
      have := congrArg (fun n : ℕ => (n : Fp)) e
      push_cast at this
      linear_combination -this
    rw [ZMod.natCast_self] at this
    linear_combination this
  generalize a.l0.toInt = x0
  generalize a.l1.toInt = x1
  generalize a.l2.toInt = x2
  generalize a.l3.toInt = x3
  generalize a.l4.toInt = x4
  generalize a.l5.toInt = x5
  generalize a.l6.toInt = x6
  generalize a.l7.toInt = x7
  generalize a.l8.toInt = x8
  generalize a.l9.toInt = x9
  push_cast
  linear_combination (-(2 * 2 ^ 1 * (x1 : Fp) * x9 + 2 * 2 ^ 0 * (x2 : Fp) * x8 + 2 * 2 ^ 26 * (x2 : Fp) * x9 +
    2 * 2 ^ 1 * (x3 : Fp) * x7 + 2 * 2 ^ 26 * (x3 : Fp) * x8 + 2 * 2 ^ 52 * (x3 : Fp) * x9 +
    2 * 2 ^ 0 * (x4 : Fp) * x6 + 2 * 2 ^ 26 * (x4 : Fp) * x7 + 2 * 2 ^ 51 * (x4 : Fp) * x8 +
    2 * 2 ^ 77 * (x4 : Fp) * x9 + 1 * 2 ^ 1 * (x5 : Fp) * x5 + 2 * 2 ^ 26 * (x5 : Fp) * x6 +
    2 * 2 ^ 52 * (x5 : Fp) * x7 + 2 * 2 ^ 77 * (x5 : Fp) * x8 + 2 * 2 ^ 103 * (x5 : Fp) * x9 +
    1 * 2 ^ 51 * (x6 : Fp) * x6 + 2 * 2 ^ 77 * (x6 : Fp) * x7 + 2 * 2 ^ 102 * (x6 : Fp) * x8 +
    2 * 2 ^ 128 * (x6 : Fp) * x9 + 1 * 2 ^ 103 * (x7 : Fp) * x7 + 2 * 2 ^ 128 * (x7 : Fp) * x8 +
    2 * 2 ^ 154 * (x7 : Fp) * x9 + 1 * 2 ^ 153 * (x8 : Fp) * x8 + 2 * 2 ^ 179 * (x8 : Fp) * x9 +
    1 * 2 ^ 205 * (x9 : Fp) * x9)) * hp

theorem doubledSquare_spec (a : Fe25) (ha : Limbs25 mulB mulB a) :
    Tight25 (Fe25.doubledSquare a) ∧ feVal25 (Fe25.doubledSquare a) = 2 * (feVal25 a * feVal25 a) := by
  obtain ⟨H0, H1, H2, H3, H4, H5, H6, H7, H8, H9⟩ := squareWide_spec a mulB (by norm_num [wideB, mulB]) ha
  have K0 := (H0.add H0 (by norm_num [mulB])).mono (show _ ≤ wideB by norm_num [wideB, mulB])
  have K1 := (H1.add H1 (by norm_num [mulB])).mono (show _ ≤ wideB by norm_num [wideB, mulB])
  have K2 := (H2.add H2 (by norm_num [mulB])).mono (show _ ≤ wideB by norm_num [wideB, mulB])
  have K3 := (H3.add H3 (by norm_num [mulB])).mono (show _ ≤ wideB by norm_num [wideB, mulB])
  have K4 := (H4.add H4 (by norm_num [mulB])).mono (show _ ≤ wideB by norm_num [wideB, mulB])
  have K5 := (H5.add H5 (by norm_num [mulB])).mono (show _ ≤ wideB by norm_num [wideB, mulB])
  have K6 := (H6.add H6 (by norm_num [mulB])).mono (show _ ≤ wideB by norm_num [wideB, mulB])
  have K7 := (H7.add H7 (by norm_num [mulB])).mono (show _ ≤ wideB by norm_num [wideB, mulB])
  have K8 := (H8.add H8 (by norm_num [mulB])).mono (show _ ≤ wideB by norm_num [wideB, mulB])
  have K9 := (H9.add H9 (by norm_num [mulB])).mono (show _ ≤ wideB by norm_num [wideB, mulB])
  obtain ⟨h1, h2⟩ := setReduced_spec K0 K1 K2 K3 K4 K5 K6 K7 K8 K9
  refine ⟨h1, ?_⟩
  refine Eq.trans h2 ?_
  unfold feVal25 feInt25
  have hp : ((2 : Fp) ^ 255) = 19 := by
    have : ((2 : Fp) ^ 255 - 19) = ((p : ℕ) : Fp) := by
      have e : (p : ℕ) + 19 = 2 ^ 255 := by norm_num [p]
      have := congrArg (fun n : ℕ => (n : Fp)) e
      push_cast at this
      linear_combination -this
    rw [ZMod.natCast_self] at this
    linear_combination this
  generalize a.l0.toInt = x0
  generalize a.l1.toInt = x1
  generalize a.l2.toInt = x2
  generalize a.l3.toInt = x3
  generalize a.l4.toInt = x4
  generalize a.l5.toInt = x5
  generalize a.l6.toInt = x6
  generalize a.l7.toInt = x7
  generalize a.l8.toInt = x8
  generalize a.l9.toInt = x9
  push_cast
  linear_combination 2 * (-(2 * 2 ^ 1 * (x1 : Fp) * x9 + 2 * 2 ^ 0 * (x2 : Fp) * x8 + 2 * 2 ^ 26 * (x2 : Fp) * x9 +
    2 * 2 ^ 1 * (x3 : Fp) * x7 + 2 * 2 ^ 26 * (x3 : Fp) * x8 + 2 * 2 ^ 52 * (x3 : Fp) * x9 +
    2 * 2 ^ 0 * (x4 : Fp) * x6 + 2 * 2 ^ 26 * (x4 : Fp) * x7 + 2 * 2 ^ 51 * (x4 : Fp) * x8 +
    2 * 2 ^ 77 * (x4 : Fp) * x9 + 1 * 2 ^ 1 * (x5 : Fp) * x5 + 2 * 2 ^ 26 * (x5 : Fp) * x6 +
    2 * 2 ^ 52 * (x5 : Fp) * x7 + 2 * 2 ^ 77 * (x5 : Fp) * x8 + 2 * 2 ^ 103 * (x5 : Fp) * x9 +
    1 * 2 ^ 51 * (x6 : Fp) * x6 + 2 * 2 ^ 77 * (x6 : Fp) * x7 + 2 * 2 ^ 102 * (x6 : Fp) * x8 +
    2 * 2 ^ 128 * (x6 : Fp) * x9 + 1 * 2 ^ 103 * (x7 : Fp) * x7 + 2 * 2 ^ 128 * (x7 : Fp) * x8 +
    2 * 2 ^ 154 * (x7 : Fp) * x9 + 1 * 2 ^ 153 * (x8 : Fp) * x8 + 2 * 2 ^ 179 * (x8 : Fp) * x9 +
    1 * 2 ^ 205 * (x9 : Fp) * x9)) * hp

end Fe25
end Ristretto.Proofs
