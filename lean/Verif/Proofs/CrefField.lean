import Verif.Model.CrefField
import Verif.Proofs.Field25Bytes

/-!
# The field of the C reference implementation

`fe25519_add`, `sub`, `neg`, `mul` and `pack` compute the same limbs and bytes as their counterparts in
field_generic.go, for all inputs.  `fe25519_square` and `square_double` multiply by 19 and 38 in 32 bits and agree as
long as those products do not overflow; `fe25519_unpack` carries in a different order.
-/

namespace Ristretto.Proofs.Cref
set_option autoImplicit false
open Model Fe25

theorem add_eq (a b : Fe25) : Cref.add a b = Fe25.add a b := rfl
theorem sub_eq (a b : Fe25) : Cref.sub a b = Fe25.sub a b := rfl
theorem neg_eq (a : Fe25) : Cref.neg a = Fe25.neg a := rfl
theorem pack_eq (a : Fe25) : Cref.pack a = Fe25.bytes a := rfl
theorem mul_eq (a b : Fe25) : Cref.mul a b = Fe25.mul a b := rfl

/-- The ten coefficients of a square, given the products by 19 and 38. -/
def wide (f : Fe25) (f5_38 f6_19 f7_38 f8_19 f9_38 : Int64) : Fe25.Wide :=
  let f0 := f.l0.toInt64
  let f1 := f.l1.toInt64
  let f2 := f.l2.toInt64
  let f3 := f.l3.toInt64
  let f4 := f.l4.toInt64
  let f5 := f.l5.toInt64
  let f6 := f.l6.toInt64
  let f7 := f.l7.toInt64
  let f8 := f.l8.toInt64
  let f9 := f.l9.toInt64
  let f0_2 := (2 * f.l0).toInt64
  let f1_2 := (2 * f.l1).toInt64
  let f2_2 := (2 * f.l2).toInt64
  let f3_2 := (2 * f.l3).toInt64
  let f4_2 := (2 * f.l4).toInt64
  let f5_2 := (2 * f.l5).toInt64
  let f6_2 := (2 * f.l6).toInt64
  let f7_2 := (2 * f.l7).toInt64
  ⟨f0 * f0 + f1_2 * f9_38 + f2_2 * f8_19 + f3_2 * f7_38 + f4_2 * f6_19 + f5 * f5_38,
   f0_2 * f1 + f2 * f9_38 + f3_2 * f8_19 + f4 * f7_38 + f5_2 * f6_19,
   f0_2 * f2 + f1_2 * f1 + f3_2 * f9_38 + f4_2 * f8_19 + f5_2 * f7_38 + f6 * f6_19,
   f0_2 * f3 + f1_2 * f2 + f4 * f9_38 + f5_2 * f8_19 + f6 * f7_38,
   f0_2 * f4 + f1_2 * f3_2 + f2 * f2 + f5_2 * f9_38 + f6_2 * f8_19 + f7 * f7_38,
   f0_2 * f5 + f1_2 * f4 + f2_2 * f3 + f6 * f9_38 + f7_2 * f8_19,
   f0_2 * f6 + f1_2 * f5_2 + f2_2 * f4 + f3_2 * f3 + f7_2 * f9_38 + f8 * f8_19,
   f0_2 * f7 + f1_2 * f6 + f2_2 * f5 + f3_2 * f4 + f8 * f9_38,
   f0_2 * f8 + f1_2 * f7_2 + f2_2 * f6 + f3_2 * f5_2 + f4 * f4 + f9 * f9_38,
   f0_2 * f9 + f1_2 * f8 + f2_2 * f7 + f3_2 * f6 + f4_2 * f5⟩

/-- The coefficients with the products in 32 bits. -/
def wide32 (f : Fe25) : Fe25.Wide :=
  wide f (38 * f.l5).toInt64 (19 * f.l6).toInt64 (38 * f.l7).toInt64 (19 * f.l8).toInt64 (38 * f.l9).toInt64

theorem square_wide (f : Fe25) : Cref.square f =
    Fe25.setReduced (wide32 f).h0 (wide32 f).h1 (wide32 f).h2 (wide32 f).h3 (wide32 f).h4 (wide32 f).h5 (wide32 f).h6
      (wide32 f).h7 (wide32 f).h8 (wide32 f).h9 := rfl

theorem squareDouble_wide (f : Fe25) : Cref.squareDouble f =
    Fe25.setReduced ((wide32 f).h0 + (wide32 f).h0) ((wide32 f).h1 + (wide32 f).h1) ((wide32 f).h2 + (wide32 f).h2)
      ((wide32 f).h3 + (wide32 f).h3) ((wide32 f).h4 + (wide32 f).h4) ((wide32 f).h5 + (wide32 f).h5)
      ((wide32 f).h6 + (wide32 f).h6) ((wide32 f).h7 + (wide32 f).h7) ((wide32 f).h8 + (wide32 f).h8)
      ((wide32 f).h9 + (wide32 f).h9) := rfl

theorem squareWide_wide (f : Fe25) : Fe25.squareWide f =
    wide f (38 * f.l5.toInt64) (19 * f.l6.toInt64) (38 * f.l7.toInt64) (19 * f.l8.toInt64) (38 * f.l9.toInt64) := rfl

/-- A product by a small constant that fits into 32 bits. -/
theorem mulc_to64 {x : Int32} {B : ℕ} (hx : I32 x x.toInt B) (k : Int32) (k' : Int64) (n : ℕ) (hk : k.toInt = n)
    (hk' : k'.toInt = n) (h : n * B < 2 ^ 31) : (k * x).toInt64 = k' * x.toInt64 := by
  have h1 := (hx.mulc k n hk h).to64
  have h2 := (I64.ofLit k' n hk').mul hx.to64 (by omega)
  exact Int64.toInt_inj.1 (h1.1.trans h2.1.symm)

/-- Bounds under which `38 * f` (odd limbs) and `19 * f` (even limbs) fit into 32 bits. -/
def sqB : ℕ := 113025455
/-- See `sqB`. -/
def sqC : ℕ := 56512727

theorem wide32_eq {f : Fe25} (h : Limbs25 sqB sqC f) : wide32 f = Fe25.squareWide f := by
  obtain ⟨A0, A1, A2, A3, A4, A5, A6, A7, A8, A9⟩ := limbs_I h
  rw [squareWide_wide, wide32, mulc_to64 A5 38 38 38 rfl rfl (by norm_num [sqC]),
    mulc_to64 A6 19 19 19 rfl rfl (by norm_num [sqB]), mulc_to64 A7 38 38 38 rfl rfl (by norm_num [sqC]),
    mulc_to64 A8 19 19 19 rfl rfl (by norm_num [sqB]), mulc_to64 A9 38 38 38 rfl rfl (by norm_num [sqC])]

theorem square_eq {f : Fe25} (h : Limbs25 sqB sqC f) : Cref.square f = Fe25.square f := by
  rw [square_wide, wide32_eq h]; rfl

theorem squareDouble_eq {f : Fe25} (h : Limbs25 sqB sqC f) : Cref.squareDouble f = Fe25.doubledSquare f := by
  rw [squareDouble_wide, wide32_eq h]; rfl

theorem cmov_zero (r x : Fe25) : Cref.cmov r x 0 = r := by
  have h : ∀ a b : Int32, Cref.cmovLimb (-(0 : UInt8).toUInt32) a b = a := by
    intro a b; unfold Cref.cmovLimb; simp
  simp only [Cref.cmov, h]

theorem cmov_one (r x : Fe25) : Cref.cmov r x 1 = x := by
  have h : ∀ a b : Int32, Cref.cmovLimb (-(1 : UInt8).toUInt32) a b = b := by
    intro a b
    have e : (-(1 : UInt8).toUInt32) = -1 := rfl
    unfold Cref.cmovLimb
    rw [e]
    simp [UInt32.xor_comm b.toUInt32 a.toUInt32, ← UInt32.xor_assoc]
  simp only [Cref.cmov, h]

theorem load3_eq (x y z : UInt8) : (Cref.load3 x y z).toInt64 = Fe25.load3 x y z := rfl
theorem load4_eq (x y z w : UInt8) : (Cref.load4 x y z w).toInt64 = Fe25.load4 x y z w := rfl

/-- The carries of `fe25519_unpack`. -/
def carries (h0 h1 h2 h3 h4 h5 h6 h7 h8 h9 : Int64) : Fe25 :=
  let c9 := (h9 + 16777216) >>> 25
  let h0 := h0 + c9 * 19
  let h9 := h9 - (c9 <<< 25)
  let c1 := (h1 + 16777216) >>> 25
  let h2 := h2 + c1
  let h1 := h1 - (c1 <<< 25)
  let c3 := (h3 + 16777216) >>> 25
  let h4 := h4 + c3
  let h3 := h3 - (c3 <<< 25)
  let c5 := (h5 + 16777216) >>> 25
  let h6 := h6 + c5
  let h5 := h5 - (c5 <<< 25)
  let c7 := (h7 + 16777216) >>> 25
  let h8 := h8 + c7
  let h7 := h7 - (c7 <<< 25)
  let c0 := (h0 + 33554432) >>> 26
  let h1 := h1 + c0
  let h0 := h0 - (c0 <<< 26)
  let c2 := (h2 + 33554432) >>> 26
  let h3 := h3 + c2
  let h2 := h2 - (c2 <<< 26)
  let c4 := (h4 + 33554432) >>> 26
  let h5 := h5 + c4
  let h4 := h4 - (c4 <<< 26)
  let c6 := (h6 + 33554432) >>> 26
  let h7 := h7 + c6
  let h6 := h6 - (c6 <<< 26)
  let c8 := (h8 + 33554432) >>> 26
  let h9 := h9 + c8
  let h8 := h8 - (c8 <<< 26)
  ⟨h0.toInt32, h1.toInt32, h2.toInt32, h3.toInt32, h4.toInt32, h5.toInt32, h6.toInt32, h7.toInt32, h8.toInt32, h9.toInt32⟩

theorem unpack_carries (s : Bytes 32) : Cref.unpack s = carries
    (Fe25.load4 s[0] s[1] s[2] s[3])
    (Fe25.load3 s[4] s[5] s[6] <<< 6)
    (Fe25.load3 s[7] s[8] s[9] <<< 5)
    (Fe25.load3 s[10] s[11] s[12] <<< 3)
    (Fe25.load3 s[13] s[14] s[15] <<< 2)
    (Fe25.load4 s[16] s[17] s[18] s[19])
    (Fe25.load3 s[20] s[21] s[22] <<< 7)
    (Fe25.load3 s[23] s[24] s[25] <<< 5)
    (Fe25.load3 s[26] s[27] s[28] <<< 4)
    ((Fe25.load3 s[29] s[30] s[31] &&& 8388607) <<< 2) := rfl

theorem _root_.Ristretto.Proofs.I64.shlT {x : Int64} {v : ℤ} {B : ℕ} (h : I64 x v B) (k : Int64) (n : ℕ) (hk : (k.toBitVec.smod 64).toNat = n)
    (hB : B * 2 ^ n < 2 ^ 63) : I64 (x <<< k) (v * 2 ^ n) (B * 2 ^ n) := by
  obtain ⟨rfl, a1, a2⟩ := h
  have hp0 : (0 : ℤ) < 2 ^ n := by positivity
  have hz : (B : ℤ) * 2 ^ n < 2 ^ 63 := by exact_mod_cast hB
  have b1 : x.toInt * 2 ^ n ≤ B * 2 ^ n := by nlinarith
  have b2 : -(B * 2 ^ n) ≤ x.toInt * 2 ^ n := by nlinarith
  refine ⟨i64_shl' x k n hk (by omega) (by omega), ?_, ?_⟩ <;> (push_cast; omega)

theorem carries_spec {h0 h1 h2 h3 h4 h5 h6 h7 h8 h9 : Int64} {v0 v1 v2 v3 v4 v5 v6 v7 v8 v9 : ℤ}
    (H0 : I64 h0 v0 (2 ^ 34)) (H1 : I64 h1 v1 (2 ^ 34)) (H2 : I64 h2 v2 (2 ^ 34)) (H3 : I64 h3 v3 (2 ^ 34)) (H4 : I64 h4 v4 (2 ^ 34)) (H5 : I64 h5 v5 (2 ^ 34)) (H6 : I64 h6 v6 (2 ^ 34)) (H7 : I64 h7 v7 (2 ^ 34)) (H8 : I64 h8 v8 (2 ^ 34)) (H9 : I64 h9 v9 (2 ^ 34)) :
    Tight25 (carries h0 h1 h2 h3 h4 h5 h6 h7 h8 h9) ∧
    feVal25 (carries h0 h1 h2 h3 h4 h5 h6 h7 h8 h9) =
      ((v0 + 2 ^ 26 * v1 + 2 ^ 51 * v2 + 2 ^ 77 * v3 + 2 ^ 102 * v4 + 2 ^ 128 * v5 + 2 ^ 153 * v6 +
        2 ^ 179 * v7 + 2 ^ 204 * v8 + 2 ^ 230 * v9 : ℤ) : Fp) := by
  obtain ⟨c9, Cc9, H9⟩ := carry25 H9 (by norm_num)
  replace H0 := H0.add (Cc9.mul (I64.ofLit 19 19 rfl) (by norm_num)) (by norm_num)
  obtain ⟨c1, Cc1, H1⟩ := carry25 H1 (by norm_num)
  replace H2 := H2.add Cc1 (by norm_num)
  obtain ⟨c3, Cc3, H3⟩ := carry25 H3 (by norm_num)
  replace H4 := H4.add Cc3 (by norm_num)
  obtain ⟨c5, Cc5, H5⟩ := carry25 H5 (by norm_num)
  replace H6 := H6.add Cc5 (by norm_num)
  obtain ⟨c7, Cc7, H7⟩ := carry25 H7 (by norm_num)
  replace H8 := H8.add Cc7 (by norm_num)
  obtain ⟨c0, Cc0, H0⟩ := carry26 H0 (by norm_num)
  replace H1 := H1.add Cc0 (by norm_num)
  obtain ⟨c2, Cc2, H2⟩ := carry26 H2 (by norm_num)
  replace H3 := H3.add Cc2 (by norm_num)
  obtain ⟨c4, Cc4, H4⟩ := carry26 H4 (by norm_num)
  replace H5 := H5.add Cc4 (by norm_num)
  obtain ⟨c6, Cc6, H6⟩ := carry26 H6 (by norm_num)
  replace H7 := H7.add Cc6 (by norm_num)
  obtain ⟨c8, Cc8, H8⟩ := carry26 H8 (by norm_num)
  replace H9 := H9.add Cc8 (by norm_num)
  unfold carries
  simp only
  have T0 := H0.to32 (by norm_num)
  have T1 := H1.to32 (by norm_num)
  have T2 := H2.to32 (by norm_num)
  have T3 := H3.to32 (by norm_num)
  have T4 := H4.to32 (by norm_num)
  have T5 := H5.to32 (by norm_num)
  have T6 := H6.to32 (by norm_num)
  have T7 := H7.to32 (by norm_num)
  have T8 := H8.to32 (by norm_num)
  have T9 := H9.to32 (by norm_num)
  constructor
  · unfold Tight25 Limbs25
    simp only
    refine ⟨?_, ?_, ?_, ?_, ?_, ?_, ?_, ?_, ?_, ?_⟩
    · have t := T0.mono (show _ ≤ 2 ^ 25 by norm_num)
      rw [t.1]; exact t.2
    · have t := T1.mono (show _ ≤ 2 ^ 24 + 2 ^ 16 by norm_num)
      rw [t.1]; exact t.2
    · have t := T2.mono (show _ ≤ 2 ^ 25 by norm_num)
      rw [t.1]; exact t.2
    · have t := T3.mono (show _ ≤ 2 ^ 24 + 2 ^ 16 by norm_num)
      rw [t.1]; exact t.2
    · have t := T4.mono (show _ ≤ 2 ^ 25 by norm_num)
      rw [t.1]; exact t.2
    · have t := T5.mono (show _ ≤ 2 ^ 24 + 2 ^ 16 by norm_num)
      rw [t.1]; exact t.2
    · have t := T6.mono (show _ ≤ 2 ^ 25 by norm_num)
      rw [t.1]; exact t.2
    · have t := T7.mono (show _ ≤ 2 ^ 24 + 2 ^ 16 by norm_num)
      rw [t.1]; exact t.2
    · have t := T8.mono (show _ ≤ 2 ^ 25 by norm_num)
      rw [t.1]; exact t.2
    · have t := T9.mono (show _ ≤ 2 ^ 24 + 2 ^ 16 by norm_num)
      rw [t.1]; exact t.2
  · unfold feVal25 feInt25
    simp only
    rw [T0.1, T1.1, T2.1, T3.1, T4.1, T5.1, T6.1, T7.1, T8.1, T9.1]
    have hp : ((2 ^ 255 - 19 : ℤ) : Fp) = 0 := by
      have : ((2 ^ 255 - 19 : ℤ) : Fp) = ((p : ℕ) : Fp) := by
        rw [show (2 ^ 255 - 19 : ℤ) = ((p : ℕ) : ℤ) by norm_num [p]]; push_cast; rfl
      rw [this, ZMod.natCast_self]
    push_cast at hp ⊢
    linear_combination (-(c9 : Fp)) * hp

/-- `fe25519_unpack` reads a little-endian number and ignores its top bit. -/
theorem unpack_spec (s : Bytes 32) :
    Tight25 (Cref.unpack s) ∧ feVal25 (Cref.unpack s) = ((leVal s % 2 ^ 255 : ℕ) : Fp) := by
  rw [unpack_carries]
  obtain ⟨h1, h2⟩ := carries_spec
    ((load4_spec s[0] s[1] s[2] s[3]).mono (by norm_num))
    (((load3_spec s[4] s[5] s[6]).shlT 6 6 rfl (by norm_num)).mono (by norm_num))
    (((load3_spec s[7] s[8] s[9]).shlT 5 5 rfl (by norm_num)).mono (by norm_num))
    (((load3_spec s[10] s[11] s[12]).shlT 3 3 rfl (by norm_num)).mono (by norm_num))
    (((load3_spec s[13] s[14] s[15]).shlT 2 2 rfl (by norm_num)).mono (by norm_num))
    ((load4_spec s[16] s[17] s[18] s[19]).mono (by norm_num))
    (((load3_spec s[20] s[21] s[22]).shlT 7 7 rfl (by norm_num)).mono (by norm_num))
    (((load3_spec s[23] s[24] s[25]).shlT 5 5 rfl (by norm_num)).mono (by norm_num))
    (((load3_spec s[26] s[27] s[28]).shlT 4 4 rfl (by norm_num)).mono (by norm_num))
    (((load3m_spec s[29] s[30] s[31]).shlT 2 2 rfl (by norm_num)).mono (by norm_num))
  refine ⟨h1, Eq.trans h2 ?_⟩
  refine (congrArg (fun z : ℤ => (z : Fp)) ?_).trans (Int.cast_natCast (leVal s % 2 ^ 255))
  rw [leVal_32]
  refine setBytes_arith _ _ _ _ _ _ _ _ _ _ _ _ _ _ _ _ _ _ _ _ _ _ _ _ _ _ _ _ _ _ _ _ ?_
  simp only [List.mem_cons, List.not_mem_nil, or_false, forall_eq_or_imp, forall_eq]
  refine ⟨Nat.le_of_lt_succ s[0].toNat_lt, Nat.le_of_lt_succ s[1].toNat_lt, Nat.le_of_lt_succ s[2].toNat_lt, Nat.le_of_lt_succ s[3].toNat_lt, Nat.le_of_lt_succ s[4].toNat_lt, Nat.le_of_lt_succ s[5].toNat_lt, Nat.le_of_lt_succ s[6].toNat_lt, Nat.le_of_lt_succ s[7].toNat_lt, Nat.le_of_lt_succ s[8].toNat_lt, Nat.le_of_lt_succ s[9].toNat_lt, Nat.le_of_lt_succ s[10].toNat_lt, Nat.le_of_lt_succ s[11].toNat_lt, Nat.le_of_lt_succ s[12].toNat_lt, Nat.le_of_lt_succ s[13].toNat_lt, Nat.le_of_lt_succ s[14].toNat_lt, Nat.le_of_lt_succ s[15].toNat_lt, Nat.le_of_lt_succ s[16].toNat_lt, Nat.le_of_lt_succ s[17].toNat_lt, Nat.le_of_lt_succ s[18].toNat_lt, Nat.le_of_lt_succ s[19].toNat_lt, Nat.le_of_lt_succ s[20].toNat_lt, Nat.le_of_lt_succ s[21].toNat_lt, Nat.le_of_lt_succ s[22].toNat_lt, Nat.le_of_lt_succ s[23].toNat_lt, Nat.le_of_lt_succ s[24].toNat_lt, Nat.le_of_lt_succ s[25].toNat_lt, Nat.le_of_lt_succ s[26].toNat_lt, Nat.le_of_lt_succ s[27].toNat_lt, Nat.le_of_lt_succ s[28].toNat_lt, Nat.le_of_lt_succ s[29].toNat_lt, Nat.le_of_lt_succ s[30].toNat_lt⟩

end Ristretto.Proofs.Cref
