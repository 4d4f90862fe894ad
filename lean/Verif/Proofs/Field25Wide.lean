import Verif.Proofs.Sim25
import Verif.Proofs.Field25Bytes
/-!
# `BytesInto` of the generic build on wider elements

`EqualsI` hands `BytesInto` the difference of two elements (field.go:151-154), each of which
may have been rewritten in place before (field_generic.go:251-332).  The even limbs of such a
difference reach `2^27`.
-/
set_option autoImplicit false
set_option linter.unusedVariables false
namespace Ristretto.Proofs
open Model
namespace Fe25

theorem reduceIntW (f0 f1 f2 f3 f4 f5 f6 f7 f8 f9 q0 q1 q2 q3 q4 q5 q6 q7 q8 q9 q10 c0 c1 c2 c3 c4 c5 c6 c7 c8 c9 s0 s1 s2 s3 s4 s5 s6 s7 s8 s9 : ℤ)
    (b0 : -134217728 ≤ f0 ∧ f0 ≤ 134217728)
    (b1 : -100663296 ≤ f1 ∧ f1 ≤ 100663296)
    (b2 : -134217728 ≤ f2 ∧ f2 ≤ 134217728)
    (b3 : -100663296 ≤ f3 ∧ f3 ≤ 100663296)
    (b4 : -134217728 ≤ f4 ∧ f4 ≤ 134217728)
    (b5 : -100663296 ≤ f5 ∧ f5 ≤ 100663296)
    (b6 : -134217728 ≤ f6 ∧ f6 ≤ 134217728)
    (b7 : -100663296 ≤ f7 ∧ f7 ≤ 100663296)
    (b8 : -134217728 ≤ f8 ∧ f8 ≤ 134217728)
    (b9 : -100663296 ≤ f9 ∧ f9 ≤ 100663296)
    (e0 : q0 = (19 * f9 + 2 ^ 24) / 2 ^ 25)
    (e1 : q1 = (f0 + q0) / 2 ^ 26)
    (e2 : q2 = (f1 + q1) / 2 ^ 25)
    (e3 : q3 = (f2 + q2) / 2 ^ 26)
    (e4 : q4 = (f3 + q3) / 2 ^ 25)
    (e5 : q5 = (f4 + q4) / 2 ^ 26)
    (e6 : q6 = (f5 + q5) / 2 ^ 25)
    (e7 : q7 = (f6 + q6) / 2 ^ 26)
    (e8 : q8 = (f7 + q7) / 2 ^ 25)
    (e9 : q9 = (f8 + q8) / 2 ^ 26)
    (e10 : q10 = (f9 + q9) / 2 ^ 25)
    (g0 : c0 = (f0 + 19 * q10) / 2 ^ 26) (k0 : s0 = (f0 + 19 * q10) % 2 ^ 26)
    (g1 : c1 = (f1 + c0) / 2 ^ 25) (k1 : s1 = (f1 + c0) % 2 ^ 25)
    (g2 : c2 = (f2 + c1) / 2 ^ 26) (k2 : s2 = (f2 + c1) % 2 ^ 26)
    (g3 : c3 = (f3 + c2) / 2 ^ 25) (k3 : s3 = (f3 + c2) % 2 ^ 25)
    (g4 : c4 = (f4 + c3) / 2 ^ 26) (k4 : s4 = (f4 + c3) % 2 ^ 26)
    (g5 : c5 = (f5 + c4) / 2 ^ 25) (k5 : s5 = (f5 + c4) % 2 ^ 25)
    (g6 : c6 = (f6 + c5) / 2 ^ 26) (k6 : s6 = (f6 + c5) % 2 ^ 26)
    (g7 : c7 = (f7 + c6) / 2 ^ 25) (k7 : s7 = (f7 + c6) % 2 ^ 25)
    (g8 : c8 = (f8 + c7) / 2 ^ 26) (k8 : s8 = (f8 + c7) % 2 ^ 26)
    (g9 : c9 = (f9 + c8) / 2 ^ 25) (k9 : s9 = (f9 + c8) % 2 ^ 25)
    : (s0 + 2 ^ 26 * s1 + 2 ^ 51 * s2 + 2 ^ 77 * s3 + 2 ^ 102 * s4 + 2 ^ 128 * s5 + 2 ^ 153 * s6 + 2 ^ 179 * s7 + 2 ^ 204 * s8 + 2 ^ 230 * s9) =
        (f0 + 2 ^ 26 * f1 + 2 ^ 51 * f2 + 2 ^ 77 * f3 + 2 ^ 102 * f4 + 2 ^ 128 * f5 + 2 ^ 153 * f6 + 2 ^ 179 * f7 + 2 ^ 204 * f8 + 2 ^ 230 * f9) - q10 * (2 ^ 255 - 19) ∧
      0 ≤ s0 + 2 ^ 26 * s1 + 2 ^ 51 * s2 + 2 ^ 77 * s3 + 2 ^ 102 * s4 + 2 ^ 128 * s5 + 2 ^ 153 * s6 + 2 ^ 179 * s7 + 2 ^ 204 * s8 + 2 ^ 230 * s9 ∧
      s0 + 2 ^ 26 * s1 + 2 ^ 51 * s2 + 2 ^ 77 * s3 + 2 ^ 102 * s4 + 2 ^ 128 * s5 + 2 ^ 153 * s6 + 2 ^ 179 * s7 + 2 ^ 204 * s8 + 2 ^ 230 * s9 < 2 ^ 255 - 19 := by
  have euc : ∀ (x m : ℤ), 0 < m → x = m * (x / m) + x % m ∧ 0 ≤ x % m ∧ x % m ≤ m - 1 := by
    intro x m hm
    exact ⟨(Int.mul_ediv_add_emod x m).symm, Int.emod_nonneg _ hm.ne', by have := Int.emod_lt_of_pos x hm; omega⟩
  obtain ⟨rr0, rl0, ru0⟩ := euc (f0 + q0) (2 ^ 26) (by norm_num)
  rw [← e1] at rr0
  obtain ⟨rr1, rl1, ru1⟩ := euc (f1 + q1) (2 ^ 25) (by norm_num)
  rw [← e2] at rr1
  obtain ⟨rr2, rl2, ru2⟩ := euc (f2 + q2) (2 ^ 26) (by norm_num)
  rw [← e3] at rr2
  obtain ⟨rr3, rl3, ru3⟩ := euc (f3 + q3) (2 ^ 25) (by norm_num)
  rw [← e4] at rr3
  obtain ⟨rr4, rl4, ru4⟩ := euc (f4 + q4) (2 ^ 26) (by norm_num)
  rw [← e5] at rr4
  obtain ⟨rr5, rl5, ru5⟩ := euc (f5 + q5) (2 ^ 25) (by norm_num)
  rw [← e6] at rr5
  obtain ⟨rr6, rl6, ru6⟩ := euc (f6 + q6) (2 ^ 26) (by norm_num)
  rw [← e7] at rr6
  obtain ⟨rr7, rl7, ru7⟩ := euc (f7 + q7) (2 ^ 25) (by norm_num)
  rw [← e8] at rr7
  obtain ⟨rr8, rl8, ru8⟩ := euc (f8 + q8) (2 ^ 26) (by norm_num)
  rw [← e9] at rr8
  obtain ⟨rr9, rl9, ru9⟩ := euc (f9 + q9) (2 ^ 25) (by norm_num)
  rw [← e10] at rr9
  obtain ⟨t0, tl0, tu0⟩ := euc (f0 + 19 * q10) (2 ^ 26) (by norm_num)
  rw [← g0, ← k0] at t0
  rw [← k0] at tl0 tu0
  obtain ⟨t1, tl1, tu1⟩ := euc (f1 + c0) (2 ^ 25) (by norm_num)
  rw [← g1, ← k1] at t1
  rw [← k1] at tl1 tu1
  obtain ⟨t2, tl2, tu2⟩ := euc (f2 + c1) (2 ^ 26) (by norm_num)
  rw [← g2, ← k2] at t2
  rw [← k2] at tl2 tu2
  obtain ⟨t3, tl3, tu3⟩ := euc (f3 + c2) (2 ^ 25) (by norm_num)
  rw [← g3, ← k3] at t3
  rw [← k3] at tl3 tu3
  obtain ⟨t4, tl4, tu4⟩ := euc (f4 + c3) (2 ^ 26) (by norm_num)
  rw [← g4, ← k4] at t4
  rw [← k4] at tl4 tu4
  obtain ⟨t5, tl5, tu5⟩ := euc (f5 + c4) (2 ^ 25) (by norm_num)
  rw [← g5, ← k5] at t5
  rw [← k5] at tl5 tu5
  obtain ⟨t6, tl6, tu6⟩ := euc (f6 + c5) (2 ^ 26) (by norm_num)
  rw [← g6, ← k6] at t6
  rw [← k6] at tl6 tu6
  obtain ⟨t7, tl7, tu7⟩ := euc (f7 + c6) (2 ^ 25) (by norm_num)
  rw [← g7, ← k7] at t7
  rw [← k7] at tl7 tu7
  obtain ⟨t8, tl8, tu8⟩ := euc (f8 + c7) (2 ^ 26) (by norm_num)
  rw [← g8, ← k8] at t8
  rw [← k8] at tl8 tu8
  obtain ⟨t9, tl9, tu9⟩ := euc (f9 + c8) (2 ^ 25) (by norm_num)
  rw [← g9, ← k9] at t9
  rw [← k9] at tl9 tu9
  clear euc
  generalize (f0 + q0) % 2 ^ 26 = r0 at rr0 rl0 ru0
  generalize (f1 + q1) % 2 ^ 25 = r1 at rr1 rl1 ru1
  generalize (f2 + q2) % 2 ^ 26 = r2 at rr2 rl2 ru2
  generalize (f3 + q3) % 2 ^ 25 = r3 at rr3 rl3 ru3
  generalize (f4 + q4) % 2 ^ 26 = r4 at rr4 rl4 ru4
  generalize (f5 + q5) % 2 ^ 25 = r5 at rr5 rl5 ru5
  generalize (f6 + q6) % 2 ^ 26 = r6 at rr6 rl6 ru6
  generalize (f7 + q7) % 2 ^ 25 = r7 at rr7 rl7 ru7
  generalize (f8 + q8) % 2 ^ 26 = r8 at rr8 rl8 ru8
  generalize (f9 + q9) % 2 ^ 25 = r9 at rr9 rl9 ru9
  clear g0 k0 e1 g1 k1 e2 g2 k2 e3 g3 k3 e4 g4 k4 e5 g5 k5 e6 g6 k6 e7 g7 k7 e8 g8 k8 e9 g9 k9 e10
  have hR : (f0 + 2 ^ 26 * f1 + 2 ^ 51 * f2 + 2 ^ 77 * f3 + 2 ^ 102 * f4 + 2 ^ 128 * f5 + 2 ^ 153 * f6 + 2 ^ 179 * f7 + 2 ^ 204 * f8 + 2 ^ 230 * f9) + q0 = 2 ^ 255 * q10 + (r0 + 2 ^ 26 * r1 + 2 ^ 51 * r2 + 2 ^ 77 * r3 + 2 ^ 102 * r4 + 2 ^ 128 * r5 + 2 ^ 153 * r6 + 2 ^ 179 * r7 + 2 ^ 204 * r8 + 2 ^ 230 * r9) := by
    linear_combination rr0 + 2 ^ 26 * rr1 + 2 ^ 51 * rr2 + 2 ^ 77 * rr3 + 2 ^ 102 * rr4 + 2 ^ 128 * rr5 + 2 ^ 153 * rr6 + 2 ^ 179 * rr7 + 2 ^ 204 * rr8 + 2 ^ 230 * rr9
  have hS : (f0 + 2 ^ 26 * f1 + 2 ^ 51 * f2 + 2 ^ 77 * f3 + 2 ^ 102 * f4 + 2 ^ 128 * f5 + 2 ^ 153 * f6 + 2 ^ 179 * f7 + 2 ^ 204 * f8 + 2 ^ 230 * f9) + 19 * q10 = 2 ^ 255 * c9 + (s0 + 2 ^ 26 * s1 + 2 ^ 51 * s2 + 2 ^ 77 * s3 + 2 ^ 102 * s4 + 2 ^ 128 * s5 + 2 ^ 153 * s6 + 2 ^ 179 * s7 + 2 ^ 204 * s8 + 2 ^ 230 * s9) := by
    linear_combination t0 + 2 ^ 26 * t1 + 2 ^ 51 * t2 + 2 ^ 77 * t3 + 2 ^ 102 * t4 + 2 ^ 128 * t5 + 2 ^ 153 * t6 + 2 ^ 179 * t7 + 2 ^ 204 * t8 + 2 ^ 230 * t9
  have hR0 : 0 ≤ r0 + 2 ^ 26 * r1 + 2 ^ 51 * r2 + 2 ^ 77 * r3 + 2 ^ 102 * r4 + 2 ^ 128 * r5 + 2 ^ 153 * r6 + 2 ^ 179 * r7 + 2 ^ 204 * r8 + 2 ^ 230 * r9 := by positivity
  have hS0 : 0 ≤ s0 + 2 ^ 26 * s1 + 2 ^ 51 * s2 + 2 ^ 77 * s3 + 2 ^ 102 * s4 + 2 ^ 128 * s5 + 2 ^ 153 * s6 + 2 ^ 179 * s7 + 2 ^ 204 * s8 + 2 ^ 230 * s9 := by positivity
  have hR1 : r0 + 2 ^ 26 * r1 + 2 ^ 51 * r2 + 2 ^ 77 * r3 + 2 ^ 102 * r4 + 2 ^ 128 * r5 + 2 ^ 153 * r6 + 2 ^ 179 * r7 + 2 ^ 204 * r8 + 2 ^ 230 * r9 < 2 ^ 255 := by linarith
  have hS1 : s0 + 2 ^ 26 * s1 + 2 ^ 51 * s2 + 2 ^ 77 * s3 + 2 ^ 102 * s4 + 2 ^ 128 * s5 + 2 ^ 153 * s6 + 2 ^ 179 * s7 + 2 ^ 204 * s8 + 2 ^ 230 * s9 < 2 ^ 255 := by linarith
  have hW0 : -2 ^ 232 < f0 + 2 ^ 26 * f1 + 2 ^ 51 * f2 + 2 ^ 77 * f3 + 2 ^ 102 * f4 + 2 ^ 128 * f5 + 2 ^ 153 * f6 + 2 ^ 179 * f7 + 2 ^ 204 * f8 := by linarith [b0.1, b1.1, b2.1, b3.1, b4.1, b5.1, b6.1, b7.1, b8.1]
  have hW1 : f0 + 2 ^ 26 * f1 + 2 ^ 51 * f2 + 2 ^ 77 * f3 + 2 ^ 102 * f4 + 2 ^ 128 * f5 + 2 ^ 153 * f6 + 2 ^ 179 * f7 + 2 ^ 204 * f8 < 2 ^ 232 := by linarith [b0.2, b1.2, b2.2, b3.2, b4.2, b5.2, b6.2, b7.2, b8.2]
  have hQ := quotient (f0 + 2 ^ 26 * f1 + 2 ^ 51 * f2 + 2 ^ 77 * f3 + 2 ^ 102 * f4 + 2 ^ 128 * f5 + 2 ^ 153 * f6 + 2 ^ 179 * f7 + 2 ^ 204 * f8 + 2 ^ 230 * f9) f9 (f0 + 2 ^ 26 * f1 + 2 ^ 51 * f2 + 2 ^ 77 * f3 + 2 ^ 102 * f4 + 2 ^ 128 * f5 + 2 ^ 153 * f6 + 2 ^ 179 * f7 + 2 ^ 204 * f8) q0 q10 (r0 + 2 ^ 26 * r1 + 2 ^ 51 * r2 + 2 ^ 77 * r3 + 2 ^ 102 * r4 + 2 ^ 128 * r5 + 2 ^ 153 * r6 + 2 ^ 179 * r7 + 2 ^ 204 * r8 + 2 ^ 230 * r9)
    (by ring) ⟨hW0, hW1⟩ ⟨by linarith [b9.1], by linarith [b9.2]⟩ e0 hR hR0 hR1
  clear hW0 hW1 hR hR0 hR1 e0 b0 rr0 rl0 ru0 t0 tl0 tu0 b1 rr1 rl1 ru1 t1 tl1 tu1 b2 rr2 rl2 ru2 t2 tl2 tu2 b3 rr3 rl3 ru3 t3 tl3 tu3 b4 rr4 rl4 ru4 t4 tl4 tu4 b5 rr5 rl5 ru5 t5 tl5 tu5 b6 rr6 rl6 ru6 t6 tl6 tu6 b7 rr7 rl7 ru7 t7 tl7 tu7 b8 rr8 rl8 ru8 t8 tl8 tu8 b9 rr9 rl9 ru9 t9 tl9 tu9
  generalize s0 + 2 ^ 26 * s1 + 2 ^ 51 * s2 + 2 ^ 77 * s3 + 2 ^ 102 * s4 + 2 ^ 128 * s5 + 2 ^ 153 * s6 + 2 ^ 179 * s7 + 2 ^ 204 * s8 + 2 ^ 230 * s9 = S at *
  generalize f0 + 2 ^ 26 * f1 + 2 ^ 51 * f2 + 2 ^ 77 * f3 + 2 ^ 102 * f4 + 2 ^ 128 * f5 + 2 ^ 153 * f6 + 2 ^ 179 * f7 + 2 ^ 204 * f8 + 2 ^ 230 * f9 = v at *
  simp only [Int.reducePow] at *
  omega

theorem reduce_specW (a : Fe25) (ha : Limbs25 (2 ^ 27) bytesB a) :
    (∃ q : ℤ, feInt25 (Fe25.reduce a) = feInt25 a - q * (2 ^ 255 - 19)) ∧
    0 ≤ feInt25 (Fe25.reduce a) ∧ feInt25 (Fe25.reduce a) < 2 ^ 255 - 19 ∧
    (0 ≤ (Fe25.reduce a).l0.toInt ∧ (Fe25.reduce a).l0.toInt < 2 ^ 26) ∧
    (0 ≤ (Fe25.reduce a).l1.toInt ∧ (Fe25.reduce a).l1.toInt < 2 ^ 25) ∧
    (0 ≤ (Fe25.reduce a).l2.toInt ∧ (Fe25.reduce a).l2.toInt < 2 ^ 26) ∧
    (0 ≤ (Fe25.reduce a).l3.toInt ∧ (Fe25.reduce a).l3.toInt < 2 ^ 25) ∧
    (0 ≤ (Fe25.reduce a).l4.toInt ∧ (Fe25.reduce a).l4.toInt < 2 ^ 26) ∧
    (0 ≤ (Fe25.reduce a).l5.toInt ∧ (Fe25.reduce a).l5.toInt < 2 ^ 25) ∧
    (0 ≤ (Fe25.reduce a).l6.toInt ∧ (Fe25.reduce a).l6.toInt < 2 ^ 26) ∧
    (0 ≤ (Fe25.reduce a).l7.toInt ∧ (Fe25.reduce a).l7.toInt < 2 ^ 25) ∧
    (0 ≤ (Fe25.reduce a).l8.toInt ∧ (Fe25.reduce a).l8.toInt < 2 ^ 26) ∧
    (0 ≤ (Fe25.reduce a).l9.toInt ∧ (Fe25.reduce a).l9.toInt < 2 ^ 25) := by
  unfold bytesB at ha
  obtain ⟨A0, A1, A2, A3, A4, A5, A6, A7, A8, A9⟩ := limbs_I ha
  have Q0 : I32 ((19 * a.l9 + 16777216) >>> 25) ((19 * a.l9.toInt + 2 ^ 24) / 2 ^ 25) 99 := by
    obtain ⟨e, a1, a2⟩ := (A9.mulc 19 19 rfl (by norm_num)).add (⟨rfl, by decide, by decide⟩ : I32 16777216 16777216 16777216)
      (by norm_num)
    refine ⟨?_, ?_, ?_⟩
    · rw [i32_shr _ 25 25 rfl, e]; rfl
    all_goals push_cast at *; omega
  have Q1 := qstep26 A0 Q0 (by norm_num)
  have Q2 := qstep25 A1 Q1 (by norm_num)
  have Q3 := qstep26 A2 Q2 (by norm_num)
  have Q4 := qstep25 A3 Q3 (by norm_num)
  have Q5 := qstep26 A4 Q4 (by norm_num)
  have Q6 := qstep25 A5 Q5 (by norm_num)
  have Q7 := qstep26 A6 Q6 (by norm_num)
  have Q8 := qstep25 A7 Q7 (by norm_num)
  have Q9 := qstep26 A8 Q8 (by norm_num)
  have Q10 := qstep25 A9 Q9 (by norm_num)
  have G0 := A0.add ((Q10.mulc 19 19 rfl (by norm_num))) (by norm_num)
  obtain ⟨C0, S0⟩ := low26 G0 (by norm_num)
  have G1 := A1.add C0 (by norm_num)
  obtain ⟨C1, S1⟩ := low25 G1 (by norm_num)
  have G2 := A2.add C1 (by norm_num)
  obtain ⟨C2, S2⟩ := low26 G2 (by norm_num)
  have G3 := A3.add C2 (by norm_num)
  obtain ⟨C3, S3⟩ := low25 G3 (by norm_num)
  have G4 := A4.add C3 (by norm_num)
  obtain ⟨C4, S4⟩ := low26 G4 (by norm_num)
  have G5 := A5.add C4 (by norm_num)
  obtain ⟨C5, S5⟩ := low25 G5 (by norm_num)
  have G6 := A6.add C5 (by norm_num)
  obtain ⟨C6, S6⟩ := low26 G6 (by norm_num)
  have G7 := A7.add C6 (by norm_num)
  obtain ⟨C7, S7⟩ := low25 G7 (by norm_num)
  have G8 := A8.add C7 (by norm_num)
  obtain ⟨C8, S8⟩ := low26 G8 (by norm_num)
  have G9 := A9.add C8 (by norm_num)
  obtain ⟨C9, S9⟩ := low25 G9 (by norm_num)
  have key := reduceIntW _ _ _ _ _ _ _ _ _ _ _ _ _ _ _ _ _ _ _ _ _ _ _ _ _ _ _ _ _ _ _ _ _ _ _ _ _ _ _ _ _
    (by exact_mod_cast A0.2 : -134217728 ≤ a.l0.toInt ∧ a.l0.toInt ≤ 134217728) (by exact_mod_cast A1.2 : -100663296 ≤ a.l1.toInt ∧ a.l1.toInt ≤ 100663296) (by exact_mod_cast A2.2 : -134217728 ≤ a.l2.toInt ∧ a.l2.toInt ≤ 134217728) (by exact_mod_cast A3.2 : -100663296 ≤ a.l3.toInt ∧ a.l3.toInt ≤ 100663296) (by exact_mod_cast A4.2 : -134217728 ≤ a.l4.toInt ∧ a.l4.toInt ≤ 134217728) (by exact_mod_cast A5.2 : -100663296 ≤ a.l5.toInt ∧ a.l5.toInt ≤ 100663296) (by exact_mod_cast A6.2 : -134217728 ≤ a.l6.toInt ∧ a.l6.toInt ≤ 134217728) (by exact_mod_cast A7.2 : -100663296 ≤ a.l7.toInt ∧ a.l7.toInt ≤ 100663296) (by exact_mod_cast A8.2 : -134217728 ≤ a.l8.toInt ∧ a.l8.toInt ≤ 134217728) (by exact_mod_cast A9.2 : -100663296 ≤ a.l9.toInt ∧ a.l9.toInt ≤ 100663296)
    rfl rfl rfl rfl rfl rfl rfl rfl rfl rfl rfl rfl rfl rfl rfl rfl rfl rfl rfl rfl rfl rfl rfl rfl rfl rfl rfl rfl rfl rfl rfl
  unfold Fe25.reduce feInt25
  simp only
  push_cast at *
  rw [S0, S1, S2, S3, S4, S5, S6, S7, S8, S9]
  refine ⟨⟨_, key.1⟩, key.2.1, key.2.2, ⟨Int.emod_nonneg _ (by norm_num), Int.emod_lt_of_pos _ (by norm_num)⟩, ⟨Int.emod_nonneg _ (by norm_num), Int.emod_lt_of_pos _ (by norm_num)⟩, ⟨Int.emod_nonneg _ (by norm_num), Int.emod_lt_of_pos _ (by norm_num)⟩, ⟨Int.emod_nonneg _ (by norm_num), Int.emod_lt_of_pos _ (by norm_num)⟩, ⟨Int.emod_nonneg _ (by norm_num), Int.emod_lt_of_pos _ (by norm_num)⟩, ⟨Int.emod_nonneg _ (by norm_num), Int.emod_lt_of_pos _ (by norm_num)⟩, ⟨Int.emod_nonneg _ (by norm_num), Int.emod_lt_of_pos _ (by norm_num)⟩, ⟨Int.emod_nonneg _ (by norm_num), Int.emod_lt_of_pos _ (by norm_num)⟩, ⟨Int.emod_nonneg _ (by norm_num), Int.emod_lt_of_pos _ (by norm_num)⟩, ⟨Int.emod_nonneg _ (by norm_num), Int.emod_lt_of_pos _ (by norm_num)⟩⟩

theorem bytes_specW (a : Fe25) (ha : Limbs25 (2 ^ 27) bytesB a) : leVal (Fe25.bytes a) = (feVal25 a).val := by
  obtain ⟨⟨q, hq⟩, h0, h1, l⟩ := reduce_specW a ha
  obtain ⟨l0, l1, l2, l3, l4, l5, l6, l7, l8, l9⟩ := l
  have hp := pack_spec (Fe25.reduce a) l0 l1 l2 l3 l4 l5 l6 l7 l8 l9
  have hlt : leVal (Fe25.bytes a) < p := by
    have : (leVal (Fe25.bytes a) : ℤ) < 2 ^ 255 - 19 := by unfold Fe25.bytes; rw [hp]; exact h1
    have e : ((p : ℕ) : ℤ) = 2 ^ 255 - 19 := by norm_num [p]
    omega
  have hv : feVal25 a = ((leVal (Fe25.bytes a) : ℕ) : Fp) := by
    have h2 : ((leVal (Fe25.bytes a) : ℕ) : ℤ) = feInt25 a - q * (2 ^ 255 - 19) := by
      unfold Fe25.bytes; rw [hp, hq]
    have h3 := congrArg (fun z : ℤ => (z : Fp)) h2
    have hp0 : ((2 ^ 255 - 19 : ℤ) : Fp) = 0 := by
      have : ((2 ^ 255 - 19 : ℤ) : Fp) = ((p : ℕ) : Fp) := by
        rw [show (2 ^ 255 - 19 : ℤ) = ((p : ℕ) : ℤ) by norm_num [p]]; push_cast; rfl
      rw [this, ZMod.natCast_self]
    simp only [Int.cast_sub, Int.cast_mul, Int.cast_natCast] at h3
    simp only [Int.cast_sub] at hp0
    rw [hp0, mul_zero, sub_zero] at h3
    exact h3.symm
  rw [hv, ZMod.val_natCast, Nat.mod_eq_of_lt hlt]

end Fe25
end Ristretto.Proofs
