import Verif.Proofs.Field51Bytes

/-! Full reduction, packing and conditional assignment for radix-2^51 field elements. -/

namespace Ristretto.Proofs
open Model Model.Fe51
set_option autoImplicit false

namespace Fe51

theorem setReduced_spec (a : Fe51) (ha : Bd (2 ^ 63) a) :
    nat (setReduced a) = (eval a).val ∧
    (setReduced a).l0.toNat < 2 ^ 51 ∧ (setReduced a).l1.toNat < 2 ^ 51 ∧
    (setReduced a).l2.toNat < 2 ^ 51 ∧ (setReduced a).l3.toNat < 2 ^ 51 ∧
    (setReduced a).l4.toNat < 2 ^ 51 := by
  obtain ⟨hq, h0, h1, h2, h3, h4⟩ := carryChain_spec a ha
  have he := nat_eq_eval hq
  rw [← he]
  clear he hq
  simp only [setReduced]
  generalize carryChain a = t at *
  obtain ⟨t0, t1, t2, t3, t4⟩ := t
  simp only at h0 h1 h2 h3 h4
  have hnat : nat ⟨t0, t1, t2, t3, t4⟩ = t0.toNat + 2 ^ 51 * t1.toNat + 2 ^ 102 * t2.toNat +
    2 ^ 153 * t3.toNat + 2 ^ 204 * t4.toNat := rfl
  simp only []
  have k19 : (19 : UInt64).toNat = 19 := rfl
  -- the carry `c`
  have a0 := toNat_add_of_lt t0 19 (by rw [k19]; omega)
  have c0 := shr51 (t0 + 19)
  rw [a0, k19] at c0
  generalize (t0 + 19) >>> 51 = d0 at *
  have a1 := toNat_add_of_lt t1 d0 (by omega)
  have c1 := shr51 (t1 + d0)
  rw [a1] at c1
  generalize (t1 + d0) >>> 51 = d1 at *
  have a2 := toNat_add_of_lt t2 d1 (by omega)
  have c2 := shr51 (t2 + d1)
  rw [a2] at c2
  generalize (t2 + d1) >>> 51 = d2 at *
  have a3 := toNat_add_of_lt t3 d2 (by omega)
  have c3 := shr51 (t3 + d2)
  rw [a3] at c3
  generalize (t3 + d2) >>> 51 = d3 at *
  have a4 := toNat_add_of_lt t4 d3 (by omega)
  have c4 := shr51 (t4 + d3)
  rw [a4] at c4
  generalize (t4 + d3) >>> 51 = d4 at *
  clear a0 a1 a2 a3 a4
  have hd4 : d4.toNat = (nat ⟨t0, t1, t2, t3, t4⟩ + 19) / 2 ^ 255 := by rw [hnat]; omega
  have hd4' : d4.toNat ≤ 1 := by omega
  clear c0 c1 c2 c3 c4
  -- the second carry chain
  have m := toNat_mul_of_lt 19 d4 (by rw [k19]; omega)
  rw [k19] at m
  have b0 := toNat_add_of_lt t0 (19 * d4) (by rw [m]; omega)
  rw [m] at b0
  generalize t0 + 19 * d4 = u0 at *
  have x1 := toNat_add_of_lt t1 (u0 >>> 51) (by rw [shr51]; omega)
  rw [shr51] at x1
  generalize t1 + (u0 >>> 51) = u1 at *
  have x2 := toNat_add_of_lt t2 (u1 >>> 51) (by rw [shr51]; omega)
  rw [shr51] at x2
  generalize t2 + (u1 >>> 51) = u2 at *
  have x3 := toNat_add_of_lt t3 (u2 >>> 51) (by rw [shr51]; omega)
  rw [shr51] at x3
  generalize t3 + (u2 >>> 51) = u3 at *
  have x4 := toNat_add_of_lt t4 (u3 >>> 51) (by rw [shr51]; omega)
  rw [shr51] at x4
  generalize t4 + (u3 >>> 51) = u4 at *
  simp only [and51, eval]
  rw [ZMod.val_natCast]
  refine ⟨?_, by omega, by omega, by omega, by omega, by omega⟩
  have hr : nat ⟨u0 &&& 2251799813685247, u1 &&& 2251799813685247, u2 &&& 2251799813685247,
      u3 &&& 2251799813685247, u4 &&& 2251799813685247⟩ =
      (nat ⟨t0, t1, t2, t3, t4⟩ + 19 * d4.toNat) % 2 ^ 255 := by
    rw [hnat]
    simp only [nat, and51]
    omega
  rw [hr, hd4]
  have hV : nat ⟨t0, t1, t2, t3, t4⟩ < 2 ^ 255 + 19 * 2 ^ 13 := by rw [hnat]; omega
  generalize nat ⟨t0, t1, t2, t3, t4⟩ = V at *
  clear hr hd4 hd4' x1 x2 x3 x4 b0 m
  rcases lt_or_ge V (2 ^ 255 - 19) with h | h
  · have : (V + 19) / 2 ^ 255 = 0 := Nat.div_eq_of_lt (by omega)
    rw [this, Nat.mod_eq_of_lt (by omega), Nat.mod_eq_of_lt (by simp only [p]; omega)]
    rfl
  · have : (V + 19) / 2 ^ 255 = 1 := by omega
    rw [this, Nat.mod_eq_sub_mod (by omega), Nat.mod_eq_of_lt (by omega)]
    rw [Nat.mod_eq_sub_mod (show V ≥ p by simp only [p]; omega), Nat.mod_eq_of_lt]
    · simp only [p]; omega
    · simp only [p]; omega

theorem leVal_mk32 (x0 x1 x2 x3 x4 x5 x6 x7 x8 x9 x10 x11 x12 x13 x14 x15 x16 x17 x18 x19 x20 x21 x22 x23 x24 x25 x26 x27 x28 x29 x30 x31 : UInt8) :
    leVal #v[x0, x1, x2, x3, x4, x5, x6, x7, x8, x9, x10, x11, x12, x13, x14, x15, x16, x17, x18, x19, x20, x21, x22, x23, x24, x25, x26, x27, x28, x29, x30, x31] =
    x0.toNat +
    2 ^ 8 * x1.toNat +
    2 ^ 16 * x2.toNat +
    2 ^ 24 * x3.toNat +
    2 ^ 32 * x4.toNat +
    2 ^ 40 * x5.toNat +
    2 ^ 48 * x6.toNat +
    2 ^ 56 * x7.toNat +
    2 ^ 64 * x8.toNat +
    2 ^ 72 * x9.toNat +
    2 ^ 80 * x10.toNat +
    2 ^ 88 * x11.toNat +
    2 ^ 96 * x12.toNat +
    2 ^ 104 * x13.toNat +
    2 ^ 112 * x14.toNat +
    2 ^ 120 * x15.toNat +
    2 ^ 128 * x16.toNat +
    2 ^ 136 * x17.toNat +
    2 ^ 144 * x18.toNat +
    2 ^ 152 * x19.toNat +
    2 ^ 160 * x20.toNat +
    2 ^ 168 * x21.toNat +
    2 ^ 176 * x22.toNat +
    2 ^ 184 * x23.toNat +
    2 ^ 192 * x24.toNat +
    2 ^ 200 * x25.toNat +
    2 ^ 208 * x26.toNat +
    2 ^ 216 * x27.toNat +
    2 ^ 224 * x28.toNat +
    2 ^ 232 * x29.toNat +
    2 ^ 240 * x30.toNat +
    2 ^ 248 * x31.toNat := by
  have : ∀ v : Bytes 32, leVal v = leNat v.toList := fun _ => rfl
  rw [this, Vector.toList_mk]
  simp only [leNat]
  ring

theorem nat_lt_of (a : Fe51) (h0 : a.l0.toNat < 2 ^ 51) (h1 : a.l1.toNat < 2 ^ 51)
    (h2 : a.l2.toNat < 2 ^ 51) (h3 : a.l3.toNat < 2 ^ 51) (h4 : a.l4.toNat < 2 ^ 51) :
    nat a < 2 ^ 255 := by
  simp only [nat]; omega

/-- The packing part of `bytes`. -/
def pack (t : Fe51) : Bytes 32 :=
  #v[(t.l0 &&& 0xff).toUInt8,
    ((t.l0 >>> 8) &&& 0xff).toUInt8,
    ((t.l0 >>> 16) &&& 0xff).toUInt8,
    ((t.l0 >>> 24) &&& 0xff).toUInt8,
    ((t.l0 >>> 32) &&& 0xff).toUInt8,
    ((t.l0 >>> 40) &&& 0xff).toUInt8,
    (t.l0 >>> 48).toUInt8 ^^^ ((t.l1 <<< 3) &&& 0xf8).toUInt8,
    ((t.l1 >>> 5) &&& 0xff).toUInt8,
    ((t.l1 >>> 13) &&& 0xff).toUInt8,
    ((t.l1 >>> 21) &&& 0xff).toUInt8,
    ((t.l1 >>> 29) &&& 0xff).toUInt8,
    ((t.l1 >>> 37) &&& 0xff).toUInt8,
    (t.l1 >>> 45).toUInt8 ^^^ ((t.l2 <<< 6) &&& 0xc0).toUInt8,
    ((t.l2 >>> 2) &&& 0xff).toUInt8,
    ((t.l2 >>> 10) &&& 0xff).toUInt8,
    ((t.l2 >>> 18) &&& 0xff).toUInt8,
    ((t.l2 >>> 26) &&& 0xff).toUInt8,
    ((t.l2 >>> 34) &&& 0xff).toUInt8,
    ((t.l2 >>> 42) &&& 0xff).toUInt8,
    (t.l2 >>> 50).toUInt8 ^^^ ((t.l3 <<< 1) &&& 0xfe).toUInt8,
    ((t.l3 >>> 7) &&& 0xff).toUInt8,
    ((t.l3 >>> 15) &&& 0xff).toUInt8,
    ((t.l3 >>> 23) &&& 0xff).toUInt8,
    ((t.l3 >>> 31) &&& 0xff).toUInt8,
    ((t.l3 >>> 39) &&& 0xff).toUInt8,
    (t.l3 >>> 47).toUInt8 ^^^ ((t.l4 <<< 4) &&& 0xf0).toUInt8,
    ((t.l4 >>> 4) &&& 0xff).toUInt8,
    ((t.l4 >>> 12) &&& 0xff).toUInt8,
    ((t.l4 >>> 20) &&& 0xff).toUInt8,
    ((t.l4 >>> 28) &&& 0xff).toUInt8,
    ((t.l4 >>> 36) &&& 0xff).toUInt8,
    (t.l4 >>> 44).toUInt8]

theorem bytes_eq (a : Fe51) : bytes a = pack (setReduced a) := rfl

theorem pack_spec (t : Fe51) (h0 : t.l0.toNat < 2 ^ 51) (h1 : t.l1.toNat < 2 ^ 51)
    (h2 : t.l2.toNat < 2 ^ 51) (h3 : t.l3.toNat < 2 ^ 51) (h4 : t.l4.toNat < 2 ^ 51) :
    leVal (pack t) = nat t := by
  obtain ⟨t0, t1, t2, t3, t4⟩ := t
  simp only at h0 h1 h2 h3 h4
  unfold nat pack
  dsimp only
  rw [leVal_mk32]
  have Z8 : (8 : UInt64) = UInt64.ofNat 8 := rfl
  have q0_0 := byteAt0 t0
  have q0_8 : ((t0 >>> 8) &&& 0xff).toUInt8.toNat = t0.toNat / 2 ^ 8 % 256 := byteAt t0 8 (by omega)
  have q0_16 : ((t0 >>> 16) &&& 0xff).toUInt8.toNat = t0.toNat / 2 ^ 16 % 256 := byteAt t0 16 (by omega)
  have q0_24 : ((t0 >>> 24) &&& 0xff).toUInt8.toNat = t0.toNat / 2 ^ 24 % 256 := byteAt t0 24 (by omega)
  have q0_32 : ((t0 >>> 32) &&& 0xff).toUInt8.toNat = t0.toNat / 2 ^ 32 % 256 := byteAt t0 32 (by omega)
  have q0_40 : ((t0 >>> 40) &&& 0xff).toUInt8.toNat = t0.toNat / 2 ^ 40 % 256 := byteAt t0 40 (by omega)
  have q1_5 : ((t1 >>> 5) &&& 0xff).toUInt8.toNat = t1.toNat / 2 ^ 5 % 256 := byteAt t1 5 (by omega)
  have q1_13 : ((t1 >>> 13) &&& 0xff).toUInt8.toNat = t1.toNat / 2 ^ 13 % 256 := byteAt t1 13 (by omega)
  have q1_21 : ((t1 >>> 21) &&& 0xff).toUInt8.toNat = t1.toNat / 2 ^ 21 % 256 := byteAt t1 21 (by omega)
  have q1_29 : ((t1 >>> 29) &&& 0xff).toUInt8.toNat = t1.toNat / 2 ^ 29 % 256 := byteAt t1 29 (by omega)
  have q1_37 : ((t1 >>> 37) &&& 0xff).toUInt8.toNat = t1.toNat / 2 ^ 37 % 256 := byteAt t1 37 (by omega)
  have q2_2 : ((t2 >>> 2) &&& 0xff).toUInt8.toNat = t2.toNat / 2 ^ 2 % 256 := byteAt t2 2 (by omega)
  have q2_10 : ((t2 >>> 10) &&& 0xff).toUInt8.toNat = t2.toNat / 2 ^ 10 % 256 := byteAt t2 10 (by omega)
  have q2_18 : ((t2 >>> 18) &&& 0xff).toUInt8.toNat = t2.toNat / 2 ^ 18 % 256 := byteAt t2 18 (by omega)
  have q2_26 : ((t2 >>> 26) &&& 0xff).toUInt8.toNat = t2.toNat / 2 ^ 26 % 256 := byteAt t2 26 (by omega)
  have q2_34 : ((t2 >>> 34) &&& 0xff).toUInt8.toNat = t2.toNat / 2 ^ 34 % 256 := byteAt t2 34 (by omega)
  have q2_42 : ((t2 >>> 42) &&& 0xff).toUInt8.toNat = t2.toNat / 2 ^ 42 % 256 := byteAt t2 42 (by omega)
  have q3_7 : ((t3 >>> 7) &&& 0xff).toUInt8.toNat = t3.toNat / 2 ^ 7 % 256 := byteAt t3 7 (by omega)
  have q3_15 : ((t3 >>> 15) &&& 0xff).toUInt8.toNat = t3.toNat / 2 ^ 15 % 256 := byteAt t3 15 (by omega)
  have q3_23 : ((t3 >>> 23) &&& 0xff).toUInt8.toNat = t3.toNat / 2 ^ 23 % 256 := byteAt t3 23 (by omega)
  have q3_31 : ((t3 >>> 31) &&& 0xff).toUInt8.toNat = t3.toNat / 2 ^ 31 % 256 := byteAt t3 31 (by omega)
  have q3_39 : ((t3 >>> 39) &&& 0xff).toUInt8.toNat = t3.toNat / 2 ^ 39 % 256 := byteAt t3 39 (by omega)
  have q4_4 : ((t4 >>> 4) &&& 0xff).toUInt8.toNat = t4.toNat / 2 ^ 4 % 256 := byteAt t4 4 (by omega)
  have q4_12 : ((t4 >>> 12) &&& 0xff).toUInt8.toNat = t4.toNat / 2 ^ 12 % 256 := byteAt t4 12 (by omega)
  have q4_20 : ((t4 >>> 20) &&& 0xff).toUInt8.toNat = t4.toNat / 2 ^ 20 % 256 := byteAt t4 20 (by omega)
  have q4_28 : ((t4 >>> 28) &&& 0xff).toUInt8.toNat = t4.toNat / 2 ^ 28 % 256 := byteAt t4 28 (by omega)
  have q4_36 : ((t4 >>> 36) &&& 0xff).toUInt8.toNat = t4.toNat / 2 ^ 36 % 256 := byteAt t4 36 (by omega)
  have m0 : ((t0 >>> 48).toUInt8 ^^^ ((t1 <<< 3) &&& 0xf8).toUInt8).toNat = t0.toNat / 2 ^ 48 + 2 ^ 3 * (t1.toNat % 2 ^ 5) :=
    byteMix t0 t1 0xf8 48 3 (by omega) rfl (by omega) h0
  have m1 : ((t1 >>> 45).toUInt8 ^^^ ((t2 <<< 6) &&& 0xc0).toUInt8).toNat = t1.toNat / 2 ^ 45 + 2 ^ 6 * (t2.toNat % 2 ^ 2) :=
    byteMix t1 t2 0xc0 45 6 (by omega) rfl (by omega) h1
  have m2 : ((t2 >>> 50).toUInt8 ^^^ ((t3 <<< 1) &&& 0xfe).toUInt8).toNat = t2.toNat / 2 ^ 50 + 2 ^ 1 * (t3.toNat % 2 ^ 7) :=
    byteMix t2 t3 0xfe 50 1 (by omega) rfl (by omega) h2
  have m3 : ((t3 >>> 47).toUInt8 ^^^ ((t4 <<< 4) &&& 0xf0).toUInt8).toNat = t3.toNat / 2 ^ 47 + 2 ^ 4 * (t4.toNat % 2 ^ 4) :=
    byteMix t3 t4 0xf0 47 4 (by omega) rfl (by omega) h3
  have w4 : (t4 >>> 44).toUInt8.toNat = t4.toNat / 2 ^ 44 % 256 := byteTop t4 44 (by omega)
  rw [q0_0, q0_8, q0_16, q0_24, q0_32, q0_40, q1_5, q1_13, q1_21, q1_29, q1_37, q2_2, q2_10, q2_18, q2_26, q2_34, q2_42, q3_7, q3_15, q3_23, q3_31, q3_39, q4_4, q4_12, q4_20, q4_28, q4_36, m0, m1, m2, m3, w4]
  clear q0_0 q0_8 q0_16 q0_24 q0_32 q0_40 q1_5 q1_13 q1_21 q1_29 q1_37 q2_2 q2_10 q2_18 q2_26 q2_34 q2_42 q3_7 q3_15 q3_23 q3_31 q3_39 q4_4 q4_12 q4_20 q4_28 q4_36 m0 m1 m2 m3 w4
  have d0 : t0.toNat = t0.toNat % 256 + 2 ^ 8 * (t0.toNat / 2 ^ 8 % 256) + 2 ^ 16 * (t0.toNat / 2 ^ 16 % 256) + 2 ^ 24 * (t0.toNat / 2 ^ 24 % 256) + 2 ^ 32 * (t0.toNat / 2 ^ 32 % 256) + 2 ^ 40 * (t0.toNat / 2 ^ 40 % 256) + 2 ^ 48 * (t0.toNat / 2 ^ 48) := by omega
  have d1 : t1.toNat = t1.toNat % 2 ^ 5 + 2 ^ 5 * (t1.toNat / 2 ^ 5 % 256) + 2 ^ 13 * (t1.toNat / 2 ^ 13 % 256) + 2 ^ 21 * (t1.toNat / 2 ^ 21 % 256) + 2 ^ 29 * (t1.toNat / 2 ^ 29 % 256) + 2 ^ 37 * (t1.toNat / 2 ^ 37 % 256) + 2 ^ 45 * (t1.toNat / 2 ^ 45) := by omega
  have d2 : t2.toNat = t2.toNat % 2 ^ 2 + 2 ^ 2 * (t2.toNat / 2 ^ 2 % 256) + 2 ^ 10 * (t2.toNat / 2 ^ 10 % 256) + 2 ^ 18 * (t2.toNat / 2 ^ 18 % 256) + 2 ^ 26 * (t2.toNat / 2 ^ 26 % 256) + 2 ^ 34 * (t2.toNat / 2 ^ 34 % 256) + 2 ^ 42 * (t2.toNat / 2 ^ 42 % 256) + 2 ^ 50 * (t2.toNat / 2 ^ 50) := by omega
  have d3 : t3.toNat = t3.toNat % 2 ^ 7 + 2 ^ 7 * (t3.toNat / 2 ^ 7 % 256) + 2 ^ 15 * (t3.toNat / 2 ^ 15 % 256) + 2 ^ 23 * (t3.toNat / 2 ^ 23 % 256) + 2 ^ 31 * (t3.toNat / 2 ^ 31 % 256) + 2 ^ 39 * (t3.toNat / 2 ^ 39 % 256) + 2 ^ 47 * (t3.toNat / 2 ^ 47) := by omega
  have d4 : t4.toNat = t4.toNat % 2 ^ 4 + 2 ^ 4 * (t4.toNat / 2 ^ 4 % 256) + 2 ^ 12 * (t4.toNat / 2 ^ 12 % 256) + 2 ^ 20 * (t4.toNat / 2 ^ 20 % 256) + 2 ^ 28 * (t4.toNat / 2 ^ 28 % 256) + 2 ^ 36 * (t4.toNat / 2 ^ 36 % 256) + 2 ^ 44 * (t4.toNat / 2 ^ 44 % 256) := by omega
  linarith

theorem bytes_spec (a : Fe51) (ha : Bd (2 ^ 63) a) : leVal (bytes a) = (eval a).val := by
  obtain ⟨hn, h0, h1, h2, h3, h4⟩ := setReduced_spec a ha
  rw [← hn, bytes_eq]
  exact pack_spec _ h0 h1 h2 h3 h4

/-- The two values a well-formed flag can take. -/
theorem maskOf_zero : maskOf 0 = 0 := by decide
theorem maskOf_one : maskOf 1 = 0xffffffffffffffff := by decide

theorem condSet_zero (a b : Fe51) : condSet a b 0 = a := by
  simp [condSet, maskOf_zero]

theorem xor_mask (x y : UInt64) : x ^^^ (0xffffffffffffffff &&& (x ^^^ y)) = y := by
  rw [show (0xffffffffffffffff : UInt64) = -1 from rfl, UInt64.neg_one_and, ← UInt64.xor_assoc,
    UInt64.xor_self, UInt64.zero_xor]

theorem condSet_one (a b : Fe51) : condSet a b 1 = b := by
  simp only [condSet, maskOf_one, xor_mask]

end Fe51
end Ristretto.Proofs
