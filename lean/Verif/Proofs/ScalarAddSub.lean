import Verif.Proofs.ScalarPack
import Verif.Proofs.Bytes

/-! # Addition, subtraction, byte conversions, predicates of scalars -/

namespace Ristretto.Proofs
open Model Scalar
set_option autoImplicit false

theorem shr63 (x : UInt64) : (x >>> 63).toNat = x.toNat / 2 ^ 63 := by
  rw [UInt64.toNat_shiftRight]; exact Nat.shiftRight_eq_div_pow _ 63
theorem shr32 (x : UInt64) : (x >>> 32).toNat = x.toNat / 2 ^ 32 := by
  rw [UInt64.toNat_shiftRight]; exact Nat.shiftRight_eq_div_pow _ 32

theorem scVal_lt (s : Scalar) : scVal s < 2 ^ 256 := by
  have h0 := s[0].toNat_lt
  have h1 := s[1].toNat_lt
  have h2 := s[2].toNat_lt
  have h3 := s[3].toNat_lt
  have h4 := s[4].toNat_lt
  have h5 := s[5].toNat_lt
  have h6 := s[6].toNat_lt
  have h7 := s[7].toNat_lt
  unfold scVal
  omega

theorem subStep_spec (a b : UInt32) (p : UInt64) :
    a.toNat + 2 ^ 32 * (subStep a b p >>> 63).toNat =
      b.toNat + (p >>> 63).toNat + (subStep a b p).toUInt32.toNat ∧ (subStep a b p >>> 63).toNat ≤ 1 := by
  have ha := a.toNat_lt
  have hb := b.toNat_lt
  have hp : (p >>> 63).toNat ≤ 1 := by rw [shr63]; have := p.toNat_lt; omega
  unfold subStep
  generalize p >>> 63 = q at *
  rw [shr63, UInt64.toNat_toUInt32, UInt64.toNat_sub, UInt64.toNat_sub, UInt32.toNat_toUInt64, UInt32.toNat_toUInt64]
  omega

theorem addBackStep_spec (x : UInt32) (c mask li : UInt64) (hc : (c >>> 32).toNat ≤ 2) (hl : (mask &&& li).toNat < 2 ^ 32) :
    (addBackStep x c mask li).toUInt32.toNat + 2 ^ 32 * (addBackStep x c mask li >>> 32).toNat =
      x.toNat + (c >>> 32).toNat + (mask &&& li).toNat ∧ (addBackStep x c mask li >>> 32).toNat ≤ 2 := by
  have hx := x.toNat_lt
  unfold addBackStep
  generalize c >>> 32 = q at *
  generalize mask &&& li = m at *
  rw [shr32, UInt64.toNat_toUInt32, UInt64.toNat_add, UInt64.toNat_add, UInt32.toNat_toUInt64]
  omega

theorem mask_spec (w : UInt64) (hw : (w >>> 63).toNat ≤ 1) (li : UInt64) :
    ((((w >>> 63) ^^^ 1) - 1) &&& li).toNat = (w >>> 63).toNat * li.toNat := by
  have : w >>> 63 = 0 ∨ w >>> 63 = 1 := by
    have : (w >>> 63).toNat = 0 ∨ (w >>> 63).toNat = 1 := by omega
    rcases this with h | h
    · left; exact UInt64.toNat_inj.1 h
    · right; exact UInt64.toNat_inj.1 h
  rcases this with h | h
  · rw [h]
    have : ((0 : UInt64) ^^^ 1) - 1 = 0 := by decide
    rw [this, UInt64.toNat_and]; simp
  · rw [h]
    have e : ((1 : UInt64) ^^^ 1) - 1 = 0xffffffffffffffff := by decide
    have e2 : (0xffffffffffffffff : UInt64) &&& li = li := by
      rw [← UInt64.toNat_inj, UInt64.toNat_and, Nat.and_comm]
      have := Nat.and_two_pow_sub_one_eq_mod li.toNat 64
      have h64 : (0xffffffffffffffff : UInt64).toNat = 2 ^ 64 - 1 := rfl
      rw [h64, this, Nat.mod_eq_of_lt li.toNat_lt]
    rw [e, e2]; simp

/-- What `Sub` computes on arbitrary words. -/
theorem sub_val (a b : Scalar) : scVal (Scalar.sub a b) =
    if scVal a < scVal b then (scVal a + 2 ^ 256 - scVal b + l) % 2 ^ 256 else scVal a - scVal b := by
  unfold Scalar.sub
  extract_lets w0 w1 w2 w3 w4 w5 w6 w7 uf c0 c1 c2 c3 c4 c5 c6 c7
  obtain ⟨e0, f0⟩ := subStep_spec a[0] b[0] 0
  obtain ⟨e1, f1⟩ := subStep_spec a[1] b[1] w0
  obtain ⟨e2, f2⟩ := subStep_spec a[2] b[2] w1
  obtain ⟨e3, f3⟩ := subStep_spec a[3] b[3] w2
  obtain ⟨e4, f4⟩ := subStep_spec a[4] b[4] w3
  obtain ⟨e5, f5⟩ := subStep_spec a[5] b[5] w4
  obtain ⟨e6, f6⟩ := subStep_spec a[6] b[6] w5
  obtain ⟨e7, f7⟩ := subStep_spec a[7] b[7] w6
  have f7' : (w7 >>> 63).toNat ≤ 1 := f7
  have m0 := mask_spec w7 f7 0x5CF5D3ED
  have m1 := mask_spec w7 f7 0x5812631A
  have m2 := mask_spec w7 f7 0xA2F79CD6
  have m3 := mask_spec w7 f7 0x14DEF9DE
  have m4 := mask_spec w7 f7 0
  have m7 := mask_spec w7 f7 0x10000000
  have n0 : (0x5CF5D3ED : UInt64).toNat = 0x5CF5D3ED := rfl
  have n1 : (0x5812631A : UInt64).toNat = 0x5812631A := rfl
  have n2 : (0xA2F79CD6 : UInt64).toNat = 0xA2F79CD6 := rfl
  have n3 : (0x14DEF9DE : UInt64).toNat = 0x14DEF9DE := rfl
  have n4 : (0 : UInt64).toNat = 0 := rfl
  have n7 : (0x10000000 : UInt64).toNat = 0x10000000 := rfl
  rw [n0] at m0; rw [n1] at m1; rw [n2] at m2; rw [n3] at m3; rw [n4] at m4; rw [n7] at m7
  have z : ((0 : UInt64) >>> 32).toNat = 0 := by decide
  have z' : ((0 : UInt64) >>> 63).toNat = 0 := by decide
  obtain ⟨g0, k0⟩ := addBackStep_spec w0.toUInt32 0 uf 0x5CF5D3ED (by rw [z]; omega) (by rw [m0]; omega)
  obtain ⟨g1, k1⟩ := addBackStep_spec w1.toUInt32 c0 uf 0x5812631A k0 (by rw [m1]; omega)
  obtain ⟨g2, k2⟩ := addBackStep_spec w2.toUInt32 c1 uf 0xA2F79CD6 k1 (by rw [m2]; omega)
  obtain ⟨g3, k3⟩ := addBackStep_spec w3.toUInt32 c2 uf 0x14DEF9DE k2 (by rw [m3]; omega)
  obtain ⟨g4, k4⟩ := addBackStep_spec w4.toUInt32 c3 uf 0 k3 (by rw [m4]; omega)
  obtain ⟨g5, k5⟩ := addBackStep_spec w5.toUInt32 c4 uf 0 k4 (by rw [m4]; omega)
  obtain ⟨g6, k6⟩ := addBackStep_spec w6.toUInt32 c5 uf 0 k5 (by rw [m4]; omega)
  obtain ⟨g7, k7⟩ := addBackStep_spec w7.toUInt32 c6 uf 0x10000000 k6 (by rw [m7]; omega)
  rw [m0, z] at g0; rw [m1] at g1; rw [m2] at g2; rw [m3] at g3; rw [m4] at g4 g5 g6; rw [m7] at g7
  rw [z'] at e0
  have hT : scVal a + 2 ^ 256 * (w7 >>> 63).toNat = scVal b + (w0.toUInt32.toNat + w1.toUInt32.toNat * 2 ^ 32 +
      w2.toUInt32.toNat * 2 ^ 64 + w3.toUInt32.toNat * 2 ^ 96 + w4.toUInt32.toNat * 2 ^ 128 +
      w5.toUInt32.toNat * 2 ^ 160 + w6.toUInt32.toNat * 2 ^ 192 + w7.toUInt32.toNat * 2 ^ 224) := by
    unfold scVal
    clear * - e0 e1 e2 e3 e4 e5 e6 e7
    change a[0].toNat + 2 ^ 32 * (w0 >>> 63).toNat = b[0].toNat + 0 + w0.toUInt32.toNat at e0
    change a[1].toNat + 2 ^ 32 * (w1 >>> 63).toNat = b[1].toNat + (w0 >>> 63).toNat + w1.toUInt32.toNat at e1
    change a[2].toNat + 2 ^ 32 * (w2 >>> 63).toNat = b[2].toNat + (w1 >>> 63).toNat + w2.toUInt32.toNat at e2
    change a[3].toNat + 2 ^ 32 * (w3 >>> 63).toNat = b[3].toNat + (w2 >>> 63).toNat + w3.toUInt32.toNat at e3
    change a[4].toNat + 2 ^ 32 * (w4 >>> 63).toNat = b[4].toNat + (w3 >>> 63).toNat + w4.toUInt32.toNat at e4
    change a[5].toNat + 2 ^ 32 * (w5 >>> 63).toNat = b[5].toNat + (w4 >>> 63).toNat + w5.toUInt32.toNat at e5
    change a[6].toNat + 2 ^ 32 * (w6 >>> 63).toNat = b[6].toNat + (w5 >>> 63).toNat + w6.toUInt32.toNat at e6
    change a[7].toNat + 2 ^ 32 * (w7 >>> 63).toNat = b[7].toNat + (w6 >>> 63).toNat + w7.toUInt32.toNat at e7
    zify at *
    linear_combination e0 + 2 ^ 32 * e1 + 2 ^ 64 * e2 + 2 ^ 96 * e3 + 2 ^ 128 * e4 + 2 ^ 160 * e5 + 2 ^ 192 * e6 + 2 ^ 224 * e7
  have hR : scVal #v[c0.toUInt32, c1.toUInt32, c2.toUInt32, c3.toUInt32, c4.toUInt32, c5.toUInt32, c6.toUInt32, c7.toUInt32] +
      2 ^ 256 * (c7 >>> 32).toNat = (w0.toUInt32.toNat + w1.toUInt32.toNat * 2 ^ 32 +
      w2.toUInt32.toNat * 2 ^ 64 + w3.toUInt32.toNat * 2 ^ 96 + w4.toUInt32.toNat * 2 ^ 128 +
      w5.toUInt32.toNat * 2 ^ 160 + w6.toUInt32.toNat * 2 ^ 192 + w7.toUInt32.toNat * 2 ^ 224) + (w7 >>> 63).toNat * l := by
    show (c0.toUInt32.toNat + c1.toUInt32.toNat * 2 ^ 32 + c2.toUInt32.toNat * 2 ^ 64 + c3.toUInt32.toNat * 2 ^ 96 +
      c4.toUInt32.toNat * 2 ^ 128 + c5.toUInt32.toNat * 2 ^ 160 + c6.toUInt32.toNat * 2 ^ 192 + c7.toUInt32.toNat * 2 ^ 224) + _ = _
    clear * - g0 g1 g2 g3 g4 g5 g6 g7
    change c0.toUInt32.toNat + 2 ^ 32 * (c0 >>> 32).toNat = w0.toUInt32.toNat + 0 + (w7 >>> 63).toNat * _ at g0
    change c1.toUInt32.toNat + 2 ^ 32 * (c1 >>> 32).toNat = w1.toUInt32.toNat + (c0 >>> 32).toNat + (w7 >>> 63).toNat * _ at g1
    change c2.toUInt32.toNat + 2 ^ 32 * (c2 >>> 32).toNat = w2.toUInt32.toNat + (c1 >>> 32).toNat + (w7 >>> 63).toNat * _ at g2
    change c3.toUInt32.toNat + 2 ^ 32 * (c3 >>> 32).toNat = w3.toUInt32.toNat + (c2 >>> 32).toNat + (w7 >>> 63).toNat * _ at g3
    change c4.toUInt32.toNat + 2 ^ 32 * (c4 >>> 32).toNat = w4.toUInt32.toNat + (c3 >>> 32).toNat + (w7 >>> 63).toNat * _ at g4
    change c5.toUInt32.toNat + 2 ^ 32 * (c5 >>> 32).toNat = w5.toUInt32.toNat + (c4 >>> 32).toNat + (w7 >>> 63).toNat * _ at g5
    change c6.toUInt32.toNat + 2 ^ 32 * (c6 >>> 32).toNat = w6.toUInt32.toNat + (c5 >>> 32).toNat + (w7 >>> 63).toNat * _ at g6
    change c7.toUInt32.toNat + 2 ^ 32 * (c7 >>> 32).toNat = w7.toUInt32.toNat + (c6 >>> 32).toNat + (w7 >>> 63).toNat * _ at g7
    rw [l_eq]
    zify at *
    linear_combination g0 + 2 ^ 32 * g1 + 2 ^ 64 * g2 + 2 ^ 96 * g3 + 2 ^ 128 * g4 + 2 ^ 160 * g5 + 2 ^ 192 * g6 + 2 ^ 224 * g7
  have hRlt := scVal_lt #v[c0.toUInt32, c1.toUInt32, c2.toUInt32, c3.toUInt32, c4.toUInt32, c5.toUInt32, c6.toUInt32, c7.toUInt32]
  have hTlt := scVal_lt #v[w0.toUInt32, w1.toUInt32, w2.toUInt32, w3.toUInt32, w4.toUInt32, w5.toUInt32, w6.toUInt32, w7.toUInt32]
  change w0.toUInt32.toNat + w1.toUInt32.toNat * 2 ^ 32 +
      w2.toUInt32.toNat * 2 ^ 64 + w3.toUInt32.toNat * 2 ^ 96 + w4.toUInt32.toNat * 2 ^ 128 +
      w5.toUInt32.toNat * 2 ^ 160 + w6.toUInt32.toNat * 2 ^ 192 + w7.toUInt32.toNat * 2 ^ 224 < 2 ^ 256 at hTlt
  generalize w0.toUInt32.toNat + w1.toUInt32.toNat * 2 ^ 32 +
      w2.toUInt32.toNat * 2 ^ 64 + w3.toUInt32.toNat * 2 ^ 96 + w4.toUInt32.toNat * 2 ^ 128 +
      w5.toUInt32.toNat * 2 ^ 160 + w6.toUInt32.toNat * 2 ^ 192 + w7.toUInt32.toNat * 2 ^ 224 = T at *
  generalize scVal #v[c0.toUInt32, c1.toUInt32, c2.toUInt32, c3.toUInt32, c4.toUInt32, c5.toUInt32, c6.toUInt32, c7.toUInt32] = R at *
  have ha := scVal_lt a
  have hb := scVal_lt b
  generalize scVal a = A at *
  generalize scVal b = C at *
  generalize (w7 >>> 63).toNat = bw at *
  generalize (c7 >>> 32).toNat = cy at *
  clear * - hT hR hRlt hTlt ha hb f7'
  have hl := l_eq
  generalize l = L at *
  rcases Nat.le_one_iff_eq_zero_or_eq_one.1 f7' with rfl | rfl
  · rw [if_neg (by omega)]; omega
  · rw [if_pos (by omega)]; omega

/-- On the domain the API uses, `Sub` computes the difference modulo `l`. -/
theorem sub_red {a b : Scalar} (hb : scVal b ≤ scVal a + l) :
    (scVal (Scalar.sub a b) : ℤ) = if scVal a < scVal b then (scVal a : ℤ) - scVal b + l else (scVal a : ℤ) - scVal b := by
  rw [sub_val]
  have ha := scVal_lt a
  have hb' := scVal_lt b
  have hl := l_eq
  generalize l = L at *
  generalize scVal a = A at *
  generalize scVal b = C at *
  split <;> omega

theorem scVal_scL : scVal scL = l := by decide +kernel
theorem scVal_scZero : scVal scZero = 0 := by decide +kernel
theorem scVal_scOne : scVal scOne = 1 := by decide +kernel

theorem addStep_spec (a b : UInt32) (c : UInt64) (hc : (c >>> 32).toNat ≤ 1) :
    (addStep a b c).toUInt32.toNat + 2 ^ 32 * (addStep a b c >>> 32).toNat =
      a.toNat + b.toNat + (c >>> 32).toNat ∧ (addStep a b c >>> 32).toNat ≤ 1 := by
  have ha := a.toNat_lt
  have hb := b.toNat_lt
  unfold addStep
  generalize c >>> 32 = q at *
  rw [shr32, UInt64.toNat_toUInt32, UInt64.toNat_add, UInt64.toNat_add, UInt32.toNat_toUInt64, UInt32.toNat_toUInt64]
  omega

theorem addRaw_val (a b : Scalar) : scVal (addRaw a b) = (scVal a + scVal b) % 2 ^ 256 := by
  unfold addRaw
  extract_lets c0 c1 c2 c3 c4 c5 c6 c7
  have z : ((0 : UInt64) >>> 32).toNat = 0 := by decide
  obtain ⟨g0, k0⟩ := addStep_spec a[0] b[0] 0 (by rw [z]; omega)
  obtain ⟨g1, k1⟩ := addStep_spec a[1] b[1] c0 k0
  obtain ⟨g2, k2⟩ := addStep_spec a[2] b[2] c1 k1
  obtain ⟨g3, k3⟩ := addStep_spec a[3] b[3] c2 k2
  obtain ⟨g4, k4⟩ := addStep_spec a[4] b[4] c3 k3
  obtain ⟨g5, k5⟩ := addStep_spec a[5] b[5] c4 k4
  obtain ⟨g6, k6⟩ := addStep_spec a[6] b[6] c5 k5
  obtain ⟨g7, k7⟩ := addStep_spec a[7] b[7] c6 k6
  rw [z] at g0
  have hR : scVal #v[c0.toUInt32, c1.toUInt32, c2.toUInt32, c3.toUInt32, c4.toUInt32, c5.toUInt32, c6.toUInt32, c7.toUInt32] +
      2 ^ 256 * (c7 >>> 32).toNat = scVal a + scVal b := by
    show (c0.toUInt32.toNat + c1.toUInt32.toNat * 2 ^ 32 + c2.toUInt32.toNat * 2 ^ 64 + c3.toUInt32.toNat * 2 ^ 96 +
      c4.toUInt32.toNat * 2 ^ 128 + c5.toUInt32.toNat * 2 ^ 160 + c6.toUInt32.toNat * 2 ^ 192 + c7.toUInt32.toNat * 2 ^ 224) + _ = _
    unfold scVal
    clear * - g0 g1 g2 g3 g4 g5 g6 g7
    change c0.toUInt32.toNat + 2 ^ 32 * (c0 >>> 32).toNat = _ at g0
    change c1.toUInt32.toNat + 2 ^ 32 * (c1 >>> 32).toNat = _ at g1
    change c2.toUInt32.toNat + 2 ^ 32 * (c2 >>> 32).toNat = _ at g2
    change c3.toUInt32.toNat + 2 ^ 32 * (c3 >>> 32).toNat = _ at g3
    change c4.toUInt32.toNat + 2 ^ 32 * (c4 >>> 32).toNat = _ at g4
    change c5.toUInt32.toNat + 2 ^ 32 * (c5 >>> 32).toNat = _ at g5
    change c6.toUInt32.toNat + 2 ^ 32 * (c6 >>> 32).toNat = _ at g6
    change c7.toUInt32.toNat + 2 ^ 32 * (c7 >>> 32).toNat = _ at g7
    zify at *
    linear_combination g0 + 2 ^ 32 * g1 + 2 ^ 64 * g2 + 2 ^ 96 * g3 + 2 ^ 128 * g4 + 2 ^ 160 * g5 + 2 ^ 192 * g6 + 2 ^ 224 * g7
  have hRlt := scVal_lt #v[c0.toUInt32, c1.toUInt32, c2.toUInt32, c3.toUInt32, c4.toUInt32, c5.toUInt32, c6.toUInt32, c7.toUInt32]
  rw [← hR, Nat.add_mul_mod_self_left, Nat.mod_eq_of_lt hRlt]

/-- `Add` of reduced scalars (in fact of scalars whose sum is below `2 l`). -/
theorem add_red {a b : Scalar} (h : scVal a + scVal b < 2 * l) :
    scVal (Scalar.add a b) = (scVal a + scVal b) % l := by
  unfold Scalar.add
  have hs := addRaw_val a b
  have hl := l_eq
  have hlt : (scVal a + scVal b) % 2 ^ 256 = scVal a + scVal b := Nat.mod_eq_of_lt (by rw [hl] at h; omega)
  rw [hlt] at hs
  rw [sub_val, scVal_scL, hs]
  generalize scVal a + scVal b = S at *
  split
  · rename_i h'
    rw [Nat.mod_eq_of_lt h']
    generalize l = L at *
    omega
  · rename_i h'
    rw [Nat.mod_eq_sub_mod (by omega), Nat.mod_eq_of_lt (by omega)]

theorem sub_red_mod {a b : Scalar} (ha : scVal a < l) (hb : scVal b < l) :
    (scVal (Scalar.sub a b) : ℤ) = ((scVal a : ℤ) - scVal b) % l := by
  rw [sub_red (by omega)]
  split
  · rw [← Int.add_emod_right, Int.emod_eq_of_lt] <;> omega
  · rw [Int.emod_eq_of_lt] <;> omega

end Ristretto.Proofs
