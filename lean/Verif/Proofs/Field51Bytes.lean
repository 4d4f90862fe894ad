import Verif.Proofs.Field51
import Verif.Proofs.Bytes

/-! Reduction and packing of radix-2^51 field elements. -/

namespace Ristretto.Proofs
open Model Model.Fe51
set_option autoImplicit false

theorem nat_xor_add (k x y : ℕ) (hx : x < 2 ^ k) : x ^^^ (2 ^ k * y) = x + 2 ^ k * y := by
  rw [add_comm x]
  apply Nat.eq_of_testBit_eq
  intro j
  rw [Nat.testBit_xor, Nat.testBit_two_pow_mul_add _ hx, Nat.testBit_two_pow_mul]
  by_cases hj : j < k
  · simp [hj, Nat.not_le.2 hj]
  · have : x.testBit j = false := Nat.testBit_lt_two_pow (lt_of_lt_of_le hx (Nat.pow_le_pow_right (by norm_num) (by omega)))
    simp [hj, this, Nat.le_of_not_lt hj]

theorem nat_or_add (k x y : ℕ) (hx : x < 2 ^ k) : x ||| (2 ^ k * y) = x + 2 ^ k * y := by
  rw [add_comm x, Nat.two_pow_add_eq_or_of_lt hx, Nat.or_comm]

theorem shr (x : UInt64) (k : ℕ) (hk : k < 64) : (x >>> (UInt64.ofNat k)).toNat = x.toNat / 2 ^ k := by
  rw [UInt64.toNat_shiftRight, UInt64.toNat_ofNat', Nat.shiftRight_eq_div_pow]
  congr 2
  omega

theorem byteAt (x : UInt64) (k : ℕ) (hk : k < 64) :
    ((x >>> (UInt64.ofNat k)) &&& 0xff).toUInt8.toNat = x.toNat / 2 ^ k % 256 := by
  rw [UInt64.toNat_toUInt8, UInt64.toNat_and, shr x k hk]
  rw [show (0xff : UInt64).toNat = 2 ^ 8 - 1 from rfl, Nat.and_two_pow_sub_one_eq_mod]
  omega

theorem byteAt0 (x : UInt64) : (x &&& 0xff).toUInt8.toNat = x.toNat % 256 := by
  have := byteAt x 0 (by omega)
  simpa using this

theorem byteTop (x : UInt64) (k : ℕ) (hk : k < 64) :
    (x >>> (UInt64.ofNat k)).toUInt8.toNat = x.toNat / 2 ^ k % 256 := by
  rw [UInt64.toNat_toUInt8, shr x k hk]

/-- A byte made of the top `k` bits of one limb and the low `8-k` bits of the next. -/
theorem byteMix (x y : UInt64) (m : UInt64) (s k : ℕ) (hk : k < 8)
    (hm : m.toNat = 2 ^ 8 - 2 ^ k) (hs : s + k = 51) (hx : x.toNat < 2 ^ 51) :
    ((x >>> (UInt64.ofNat s)).toUInt8 ^^^ ((y <<< (UInt64.ofNat k)) &&& m).toUInt8).toNat =
      x.toNat / 2 ^ s + 2 ^ k * (y.toNat % 2 ^ (8 - k)) := by
  have hs' : s < 64 := by omega
  rw [UInt8.toNat_xor, byteTop x s hs', UInt64.toNat_toUInt8, UInt64.toNat_and, UInt64.toNat_shiftLeft,
    UInt64.toNat_ofNat', hm]
  have e2 : k % 2 ^ 64 % 64 = k := by omega
  rw [e2, Nat.shiftLeft_eq]
  have hx2 : x.toNat / 2 ^ s < 2 ^ k := by
    apply Nat.div_lt_of_lt_mul
    rw [← pow_add, hs]; exact hx
  have h256 : 2 ^ k ≤ 128 := by
    have := Nat.pow_le_pow_right (n := 2) (by norm_num) (show k ≤ 7 by omega)
    simpa using this
  rw [Nat.mod_eq_of_lt (show x.toNat / 2 ^ s < 256 by omega)]
  have key : (y.toNat * 2 ^ k % 2 ^ 64 &&& 2 ^ 8 - 2 ^ k) % 2 ^ 8 = 2 ^ k * (y.toNat % 2 ^ (8 - k)) := by
    have e1 : y.toNat * 2 ^ k % 2 ^ 64 = (y.toNat % 2 ^ (64 - k)) <<< k := by
      rw [Nat.shiftLeft_eq, show (64 : ℕ) = (64 - k) + k by omega, pow_add, Nat.mul_mod_mul_right]
      simp
    have e3 : 2 ^ 8 - 2 ^ k = (2 ^ (8 - k) - 1) <<< k := by
      rw [Nat.shiftLeft_eq, Nat.sub_mul, ← pow_add, one_mul]; congr 2; omega
    rw [e1, e3, ← Nat.shiftLeft_and_distrib, Nat.and_two_pow_sub_one_eq_mod, Nat.shiftLeft_eq,
      Nat.mod_mod_of_dvd _ (Nat.pow_dvd_pow 2 (by omega)), mul_comm, Nat.mod_eq_of_lt]
    calc 2 ^ k * (y.toNat % 2 ^ (8 - k)) < 2 ^ k * 2 ^ (8 - k) :=
          Nat.mul_lt_mul_of_pos_left (Nat.mod_lt _ (by positivity)) (by positivity)
      _ = 2 ^ 8 := by rw [← pow_add]; congr 1; omega
  rw [key]
  exact nat_xor_add k _ _ hx2

theorem orShl (x : UInt64) (b : UInt8) (k : ℕ) (hx : x.toNat < 2 ^ k) (hk : k ≤ 56) :
    (x ||| (b.toUInt64 <<< (UInt64.ofNat k))).toNat = x.toNat + 2 ^ k * b.toNat := by
  rw [UInt64.toNat_or, UInt64.toNat_shiftLeft, UInt64.toNat_ofNat', UInt8.toNat_toUInt64,
    Nat.shiftLeft_eq]
  have e2 : k % 2 ^ 64 % 64 = k := by omega
  have hb := b.toNat_lt
  rw [e2, Nat.mod_eq_of_lt, mul_comm, nat_or_add k _ _ hx]
  calc b.toNat * 2 ^ k < 2 ^ 8 * 2 ^ k := Nat.mul_lt_mul_of_pos_right hb (by positivity)
    _ = 2 ^ (8 + k) := by rw [← pow_add]
    _ ≤ 2 ^ 64 := Nat.pow_le_pow_right (by norm_num) (by omega)

theorem u8shr (b : UInt8) (k : ℕ) (hk : k < 64) :
    (b.toUInt64 >>> (UInt64.ofNat k)).toNat = b.toNat / 2 ^ k := by
  rw [shr _ k hk, UInt8.toNat_toUInt64]

theorem u8and (b m : UInt8) (k : ℕ) (hm : m.toNat = 2 ^ k - 1) : (b &&& m).toNat = b.toNat % 2 ^ k := by
  rw [UInt8.toNat_and, hm, Nat.and_two_pow_sub_one_eq_mod]

namespace Fe51

theorem or7 (x : UInt64) (b1 b2 b3 b4 b5 b6 : UInt8) (k : ℕ) (hk : k ≤ 8) (hx : x.toNat < 2 ^ k) :
    (x ||| (b1.toUInt64 <<< UInt64.ofNat k) ||| (b2.toUInt64 <<< UInt64.ofNat (k + 8)) |||
      (b3.toUInt64 <<< UInt64.ofNat (k + 16)) ||| (b4.toUInt64 <<< UInt64.ofNat (k + 24)) |||
      (b5.toUInt64 <<< UInt64.ofNat (k + 32)) ||| (b6.toUInt64 <<< UInt64.ofNat (k + 40))).toNat =
    x.toNat + 2 ^ k * b1.toNat + 2 ^ (k + 8) * b2.toNat + 2 ^ (k + 16) * b3.toNat +
      2 ^ (k + 24) * b4.toNat + 2 ^ (k + 32) * b5.toNat + 2 ^ (k + 40) * b6.toNat := by
  have step : ∀ (y : UInt64) (b : UInt8) (j : ℕ), y.toNat < 2 ^ j →
      y.toNat + 2 ^ j * b.toNat < 2 ^ (j + 8) := by
    intro y b j h
    have hb := b.toNat_lt
    have : 2 ^ j * b.toNat ≤ 2 ^ j * 255 := Nat.mul_le_mul_left _ (by omega)
    rw [pow_add]; omega
  have h1 := orShl x b1 k hx (by omega)
  have l1 := step x b1 k hx
  rw [← h1] at l1
  have h2 := orShl _ b2 (k + 8) l1 (by omega)
  have l2 := step _ b2 _ l1
  rw [← h2] at l2
  have h3 := orShl _ b3 (k + 16) l2 (by omega)
  have l3 := step _ b3 _ l2
  rw [← h3] at l3
  have h4 := orShl _ b4 (k + 24) l3 (by omega)
  have l4 := step _ b4 _ l3
  rw [← h4] at l4
  have h5 := orShl _ b5 (k + 32) l4 (by omega)
  have l5 := step _ b5 _ l4
  rw [← h5] at l5
  have h6 := orShl _ b6 (k + 40) l5 (by omega)
  rw [h6, h5, h4, h3, h2, h1]

theorem setBytes_nat (b : Bytes 32) : nat (setBytes b) = leVal b % 2 ^ 255 ∧
    (setBytes b).l0.toNat < 2 ^ 51 ∧ (setBytes b).l1.toNat < 2 ^ 51 ∧
    (setBytes b).l2.toNat < 2 ^ 51 ∧ (setBytes b).l3.toNat < 2 ^ 51 ∧
    (setBytes b).l4.toNat < 2 ^ 51 := by
  have hb : ∀ i (h : i < 32), b[i].toNat < 256 := fun i h => b[i].toNat_lt
  have e0 : (setBytes b).l0.toNat = b[0].toNat + 2 ^ 8 * b[1].toNat + 2 ^ 16 * b[2].toNat +
      2 ^ 24 * b[3].toNat + 2 ^ 32 * b[4].toNat + 2 ^ 40 * b[5].toNat + 2 ^ 48 * (b[6].toNat % 2 ^ 3) := by
    have := or7 b[0].toUInt64 b[1] b[2] b[3] b[4] b[5] (b[6] &&& 7) 8 (by omega)
      (by rw [UInt8.toNat_toUInt64]; exact hb 0 (by omega))
    rw [u8and _ _ 3 rfl, UInt8.toNat_toUInt64] at this
    exact this
  have e1 : (setBytes b).l1.toNat = b[6].toNat / 2 ^ 3 + 2 ^ 5 * b[7].toNat + 2 ^ 13 * b[8].toNat +
      2 ^ 21 * b[9].toNat + 2 ^ 29 * b[10].toNat + 2 ^ 37 * b[11].toNat + 2 ^ 45 * (b[12].toNat % 2 ^ 6) := by
    have := or7 (b[6].toUInt64 >>> 3) b[7] b[8] b[9] b[10] b[11] (b[12] &&& 63) 5 (by omega)
      (by have := hb 6 (by omega); rw [show (3 : UInt64) = UInt64.ofNat 3 from rfl, u8shr _ 3 (by omega)]; omega)
    rw [u8and _ _ 6 rfl, show (3 : UInt64) = UInt64.ofNat 3 from rfl, u8shr _ 3 (by omega)] at this
    exact this
  have e3 : (setBytes b).l3.toNat = b[19].toNat / 2 ^ 1 + 2 ^ 7 * b[20].toNat + 2 ^ 15 * b[21].toNat +
      2 ^ 23 * b[22].toNat + 2 ^ 31 * b[23].toNat + 2 ^ 39 * b[24].toNat + 2 ^ 47 * (b[25].toNat % 2 ^ 4) := by
    have := or7 (b[19].toUInt64 >>> 1) b[20] b[21] b[22] b[23] b[24] (b[25] &&& 15) 7 (by omega)
      (by have := hb 19 (by omega); rw [show (1 : UInt64) = UInt64.ofNat 1 from rfl, u8shr _ 1 (by omega)]; omega)
    rw [u8and _ _ 4 rfl, show (1 : UInt64) = UInt64.ofNat 1 from rfl, u8shr _ 1 (by omega)] at this
    exact this
  have e4 : (setBytes b).l4.toNat = b[25].toNat / 2 ^ 4 + 2 ^ 4 * b[26].toNat + 2 ^ 12 * b[27].toNat +
      2 ^ 20 * b[28].toNat + 2 ^ 28 * b[29].toNat + 2 ^ 36 * b[30].toNat + 2 ^ 44 * (b[31].toNat % 2 ^ 7) := by
    have := or7 (b[25].toUInt64 >>> 4) b[26] b[27] b[28] b[29] b[30] (b[31] &&& 127) 4 (by omega)
      (by have := hb 25 (by omega); rw [show (4 : UInt64) = UInt64.ofNat 4 from rfl, u8shr _ 4 (by omega)]; omega)
    rw [u8and _ _ 7 rfl, show (4 : UInt64) = UInt64.ofNat 4 from rfl, u8shr _ 4 (by omega)] at this
    exact this
  have e2 : (setBytes b).l2.toNat = b[12].toNat / 2 ^ 6 + 2 ^ 2 * b[13].toNat + 2 ^ 10 * b[14].toNat +
      2 ^ 18 * b[15].toNat + 2 ^ 26 * b[16].toNat + 2 ^ 34 * b[17].toNat + 2 ^ 42 * b[18].toNat +
      2 ^ 50 * (b[19].toNat % 2 ^ 1) := by
    have h7 := or7 (b[12].toUInt64 >>> 6) b[13] b[14] b[15] b[16] b[17] b[18] 2 (by omega)
      (by have := hb 12 (by omega); rw [show (6 : UInt64) = UInt64.ofNat 6 from rfl, u8shr _ 6 (by omega)]; omega)
    rw [show (6 : UInt64) = UInt64.ofNat 6 from rfl, u8shr _ 6 (by omega)] at h7
    have := orShl _ (b[19] &&& 1) 50 (by
      rw [h7]
      have := hb 12 (by omega)
      have := hb 13 (by omega)
      have := hb 14 (by omega)
      have := hb 15 (by omega)
      have := hb 16 (by omega)
      have := hb 17 (by omega)
      have := hb 18 (by omega)
      omega) (by omega)
    rw [h7, u8and _ _ 1 rfl] at this
    exact this
  have h0 := hb 0 (by omega)
  have h1 := hb 1 (by omega)
  have h2 := hb 2 (by omega)
  have h3 := hb 3 (by omega)
  have h4 := hb 4 (by omega)
  have h5 := hb 5 (by omega)
  have h6 := hb 6 (by omega)
  have h7 := hb 7 (by omega)
  have h8 := hb 8 (by omega)
  have h9 := hb 9 (by omega)
  have h10 := hb 10 (by omega)
  have h11 := hb 11 (by omega)
  have h12 := hb 12 (by omega)
  have h13 := hb 13 (by omega)
  have h14 := hb 14 (by omega)
  have h15 := hb 15 (by omega)
  have h16 := hb 16 (by omega)
  have h17 := hb 17 (by omega)
  have h18 := hb 18 (by omega)
  have h19 := hb 19 (by omega)
  have h20 := hb 20 (by omega)
  have h21 := hb 21 (by omega)
  have h22 := hb 22 (by omega)
  have h23 := hb 23 (by omega)
  have h24 := hb 24 (by omega)
  have h25 := hb 25 (by omega)
  have h26 := hb 26 (by omega)
  have h27 := hb 27 (by omega)
  have h28 := hb 28 (by omega)
  have h29 := hb 29 (by omega)
  have h30 := hb 30 (by omega)
  have h31 := hb 31 (by omega)
  have l0 : (setBytes b).l0.toNat < 2 ^ 51 := by rw [e0]; omega
  have l1 : (setBytes b).l1.toNat < 2 ^ 51 := by rw [e1]; omega
  have l2 : (setBytes b).l2.toNat < 2 ^ 51 := by rw [e2]; omega
  have l3 : (setBytes b).l3.toNat < 2 ^ 51 := by rw [e3]; omega
  have l4 : (setBytes b).l4.toNat < 2 ^ 51 := by rw [e4]; omega
  refine ⟨?_, l0, l1, l2, l3, l4⟩
  have key : leVal b = nat (setBytes b) + 2 ^ 255 * (b[31].toNat / 2 ^ 7) := by
    rw [leVal_32, nat, e0, e1, e2, e3, e4]
    omega
  have hlt : nat (setBytes b) < 2 ^ 255 := by
    rw [nat]; omega
  rw [key, Nat.add_mul_mod_self_left, Nat.mod_eq_of_lt hlt]

end Fe51
end Ristretto.Proofs
