import Verif.Props.Scalars
import Verif.Proofs.CrefScalarOps

/-!
# C62: arithmetic modulo the group order in the C reference implementation

`IsNum s n` (Spec/CrefScalar.lean): the 32 digits of the `group_scalar` `s` are bytes, and `n` is the number they stand for.
-/

namespace Ristretto.Props
open Model Model.Cref Proofs Proofs.Cref
set_option autoImplicit false

/-- Every number below 2^256 is represented, by one array: the hypotheses below are met. -/
theorem isNum_all (n : ℕ) (h : n < 2 ^ 256) : ∃ s, IsNum s n ∧ ∀ s', IsNum s' n → s' = s := by
  have hv : leVal (leBytes 32 n) = n := by rw [leVal_leBytes, Nat.mod_eq_of_lt (lt_of_lt_of_eq h (by norm_num))]
  refine ⟨ofBytes (leBytes 32 n), ?_, ?_⟩
  · have := isNum_ofBytes (leBytes 32 n)
    rwa [hv] at this
  · intro s' hs
    obtain ⟨b, rfl, hb⟩ := isNum_bytes hs
    rw [leVal_inj (hb.trans hv.symm)]

/-- The scalar whose digits all are 255. -/
def maxSc : Sc := Vector.replicate 32 255

theorem maxSc_num : IsNum maxSc (2 ^ 256 - 1) := by unfold IsNum; decide +kernel

/-- **C62** (Barrett reduction, `scalar_from64bytes`): for every 64 bytes. -/
theorem C62_from64bytes (h : Bytes 64) : IsNum (from64bytes h) (leVal h % l) := isNum_from64bytes h

example : IsNum (from64bytes (Vector.replicate 64 0xff)) ((2 ^ 512 - 1) % l) := by
  have := C62_from64bytes (Vector.replicate 64 0xff)
  rwa [show leVal (Vector.replicate 64 (0xff : UInt8)) = 2 ^ 512 - 1 by decide +kernel] at this

/-- **C62** (multiplication and squaring): the operands need not be reduced. -/
theorem C62_mul (x y : Sc) (n m : ℕ) (hx : IsNum x n) (hy : IsNum y m) :
    IsNum (scMul x y) (n * m % l) ∧ IsNum (scSquare x) (n * n % l) := ⟨isNum_mul hx hy, isNum_square hx⟩

example : IsNum (scMul maxSc maxSc) ((2 ^ 256 - 1) * (2 ^ 256 - 1) % l) := (C62_mul _ _ _ _ maxSc_num maxSc_num).1

/-- **C62** (addition). -/
theorem C62_add (x y : Sc) (n m : ℕ) (hx : IsNum x n) (hy : IsNum y m) (hn : n < l) (hm : m < l) :
    IsNum (scAdd x y) ((n + m) % l) := by
  have hl : 2 * l < 2 ^ 256 := by decide +kernel
  have := isNum_add hx hy (by omega)
  convert this using 1
  clear * - hn hm
  generalize l = L at *
  split
  · exact Nat.mod_eq_of_lt (by assumption)
  · rw [Nat.mod_eq_sub_mod (by omega), Nat.mod_eq_of_lt (by omega)]

/-- **C62** (addition of unreduced scalars): congruent modulo `l` as long as the sum is below 2^256, but not always reduced. -/
theorem C62_add_unreduced (x y : Sc) (n m : ℕ) (hx : IsNum x n) (hy : IsNum y m) (h : n + m < 2 ^ 256) :
    IsNum (scAdd x y) (if n + m < l then n + m else n + m - l) := isNum_add hx hy h

/-- **C62** (subtraction). -/
theorem C62_sub (x y : Sc) (n m : ℕ) (hx : IsNum x n) (hy : IsNum y m) (hn : n < l) (hm : m < l) :
    ∃ r : ℕ, IsNum (scSub x y) r ∧ (r : ℤ) = ((n : ℤ) - m) % l := by
  refine ⟨_, isNum_sub hx hy hn hm, ?_⟩
  push_cast [Nat.cast_sub hm.le]
  rw [show (n : ℤ) + (l - m) = n - m + l by ring, Int.add_emod_right]

/-- **C62** (negation). -/
theorem C62_neg (x : Sc) (n : ℕ) (hx : IsNum x n) (hn : n < l) :
    ∃ r : ℕ, IsNum (scNegate x) r ∧ (r : ℤ) = (-(n : ℤ)) % l := by
  refine ⟨_, isNum_negate hx hn, ?_⟩
  push_cast [Nat.cast_sub hn.le]
  rw [show (l : ℤ) - n = -n + l by ring, Int.add_emod_right]

/-- Zero is its own negative: the subtrahend `l - 0` needs one subtraction of `l`. -/
example : IsNum (scNegate scSetZero) 0 := by
  obtain ⟨r, h1, h2⟩ := C62_neg scSetZero 0 isNum_zero (by decide +kernel)
  rw [Nat.cast_zero, neg_zero, Int.zero_emod] at h2
  rw [Nat.cast_eq_zero] at h2
  rwa [h2] at h1

example : ∃ x y, IsNum x (l - 1) ∧ IsNum y 2 ∧ IsNum (scAdd x y) 1 := by
  obtain ⟨x, hx, -⟩ := isNum_all (l - 1) (by decide +kernel)
  obtain ⟨y, hy, -⟩ := isNum_all 2 (by decide +kernel)
  refine ⟨x, y, hx, hy, ?_⟩
  have := C62_add x y _ _ hx hy (by decide +kernel) (by decide +kernel)
  rwa [show (l - 1 + 2) % l = 1 by decide +kernel] at this

/-- **C62** (inversion): the inverse modulo `l`, and zero for the multiples of `l`. -/
theorem C62_invert (x : Sc) (n : ℕ) (hx : IsNum x n) :
    ∃ r : ℕ, IsNum (scInvert x) r ∧ r < l ∧ (n % l ≠ 0 → r * n % l = 1) ∧ (n % l = 0 → r = 0) := by
  refine ⟨_, isNum_invert_pow hx, Nat.mod_lt _ (by decide +kernel), ?_, ?_⟩
  · intro h; rw [pow_inv, if_neg h]
  · intro h
    have h2 := l_prime.two_le
    have hl2 : l ≠ 2 := by decide +kernel
    exact Nat.mod_eq_zero_of_dvd (Dvd.dvd.pow (Nat.dvd_of_mod_eq_zero h) (by omega))

example : ∃ r, IsNum (scInvert maxSc) r ∧ r * (2 ^ 256 - 1) % l = 1 := by
  obtain ⟨r, h1, -, h2, -⟩ := C62_invert maxSc _ maxSc_num
  exact ⟨r, h1, h2 (by decide +kernel)⟩

/-- **C62** (constants and tests). The tests compare numbers below 2^256, not residues. -/
theorem C62_tests (x y : Sc) (n m : ℕ) (hx : IsNum x n) (hy : IsNum y m) :
    IsNum scSetZero 0 ∧ IsNum scSetOne 1 ∧
    scIsZero x = (if n = 0 then 1 else 0) ∧ scIsOne x = (if n = 1 then 1 else 0) ∧
    scEquals x y = (if n = m then 1 else 0) :=
  ⟨isNum_zero, isNum_one, scIsZero_spec hx, scIsOne_spec hx, scEquals_spec hx hy⟩

/-- **C62** (bits): `scalar_tstbit` is the bit at a position, `scalar_bitlen` the position of the leading bit, counted
from one; zero has length 0. -/
theorem C62_bits (x : Sc) (n : ℕ) (hx : IsNum x n) :
    (∀ pos : Fin 256, tstbit x pos = if n / 2 ^ (pos : ℕ) % 2 = 1 then 1 else 0) ∧
    ∃ k : ℕ, k ≤ 256 ∧ (bitlen x).toInt = k ∧ n < 2 ^ k ∧ ∀ j : ℕ, n < 2 ^ j → k ≤ j := by
  refine ⟨fun pos => ?_, n.size, ?_, ?_, Nat.lt_size_self n, fun j hj => Nat.size_le.2 hj⟩
  · rw [tstbit_spec hx]
    have : n.testBit pos.val = true ↔ n / 2 ^ (pos : ℕ) % 2 = 1 := by
      rw [Nat.testBit_eq_decide_div_mod_eq, decide_eq_true_eq]
    simp only [this]
  · exact Nat.size_le.2 (isNum_lt hx)
  · have hs : n.size ≤ 256 := Nat.size_le.2 (isNum_lt hx)
    rw [bitlen_spec hx]
    generalize n.size = s at *
    have : ∀ s : Fin 257, (Int32.ofNat s.val).toInt = s.val := by decide +kernel
    exact this ⟨s, by omega⟩

example : (∀ pos : Fin 256, tstbit maxSc pos = 1) ∧ (bitlen maxSc).toInt = 256 := by
  obtain ⟨h1, k, h2, h3, h4, -⟩ := C62_bits maxSc _ maxSc_num
  refine ⟨fun pos => ?_, ?_⟩
  · rw [h1, if_pos]
    have : ∀ p : Fin 256, (2 ^ 256 - 1) / 2 ^ (p : ℕ) % 2 = 1 := by decide +kernel
    exact this pos
  · have : ¬ k ≤ 255 := by
      intro hk
      have := lt_of_lt_of_le h4 (Nat.pow_le_pow_right (by norm_num) hk)
      revert this
      decide +kernel
    have hk : k = 256 := by clear h3 h4 h1; omega
    rw [h3, hk]
    norm_num

/-- **C62** (agreement): the C and the Go scalars that stand for the same reduced numbers still do so after any of the
operations both packages have. -/
theorem C62_agrees (x y : Sc) (a b : Scalar) (hx : IsNum x (scVal a)) (hy : IsNum y (scVal b)) :
    IsNum (scMul x y) (scVal (Scalar.mul a b)) ∧ IsNum (scSquare x) (scVal (Scalar.square a)) ∧
    IsNum (scInvert x) (scVal (Scalar.inverse a)) ∧
    (scVal a < l → scVal b < l → IsNum (scAdd x y) (scVal (Scalar.add a b)) ∧ IsNum (scSub x y) (scVal (Scalar.sub a b)) ∧
      IsNum (scNegate x) (scVal (Scalar.neg a))) ∧
    (∀ h : Bytes 64, IsNum (from64bytes h) (scVal (Scalar.setReduced h))) := by
  refine ⟨?_, ?_, ?_, fun ha hb => ⟨?_, ?_, ?_⟩, fun h => ?_⟩
  · rw [(C03_mul a b).1]; exact (C62_mul x y _ _ hx hy).1
  · rw [(C03_square a).1, sq]; exact (C62_mul x y _ _ hx hy).2
  · obtain ⟨r, h1, h2, h3, h4⟩ := C62_invert x _ hx
    obtain ⟨g2, g3, g4⟩ := C05_inverse a
    by_cases h0 : scVal a % l = 0
    · rw [g4 h0, ← h4 h0]; exact h1
    · have : r = scVal (Scalar.inverse a) := by
        have e1 : ((r : ℕ) : ZMod l) * (scVal a : ℕ) = 1 := by
          have := (ZMod.natCast_eq_natCast_iff (r * scVal a) 1 l).2
            ((h3 h0).trans (Nat.mod_eq_of_lt l_prime.one_lt).symm)
          push_cast at this; exact this
        have e2 : ((scVal (Scalar.inverse a) : ℕ) : ZMod l) * (scVal a : ℕ) = 1 := by
          have := (ZMod.natCast_eq_natCast_iff (scVal (Scalar.inverse a) * scVal a) 1 l).2
            ((g3 h0).trans (Nat.mod_eq_of_lt l_prime.one_lt).symm)
          push_cast at this; exact this
        have e3 : ((r : ℕ) : ZMod l) = (scVal (Scalar.inverse a) : ℕ) := by
          calc ((r : ℕ) : ZMod l) = r * (scVal (Scalar.inverse a) * scVal a) := by rw [e2, mul_one]
            _ = scVal (Scalar.inverse a) * (r * scVal a) := by ring
            _ = scVal (Scalar.inverse a) := by rw [e1, mul_one]
        have e4 := (ZMod.natCast_eq_natCast_iff _ _ l).1 e3
        unfold Nat.ModEq at e4
        rwa [Nat.mod_eq_of_lt h2, Nat.mod_eq_of_lt g2] at e4
      rw [← this]; exact h1
  · rw [(C01_add a b ha hb).1]; exact C62_add x y _ _ hx hy ha hb
  · obtain ⟨r, h1, h2⟩ := C62_sub x y _ _ hx hy ha hb
    have := (C01_sub a b ha hb).1
    rw [← h2] at this
    rw [Nat.cast_inj.1 this]; exact h1
  · obtain ⟨r, h1, h2⟩ := C62_neg x _ hx ha
    have := (C02_neg a ha).1
    rw [← h2] at this
    rw [Nat.cast_inj.1 this]; exact h1
  · rw [(C08_setReduced h).1]; exact C62_from64bytes h

/-- Both representations of `l - 1`. -/
example : ∃ x : Sc, IsNum x (scVal lMinusOne) ∧ IsNum (scMul x x) 1 := by
  obtain ⟨x, hx, -⟩ := isNum_all (scVal lMinusOne) (by decide +kernel)
  refine ⟨x, hx, ?_⟩
  have := (C62_agrees x x lMinusOne lMinusOne hx hx).1
  rwa [show scVal (Scalar.mul lMinusOne lMinusOne) = 1 by decide +kernel] at this

end Ristretto.Props
