import Verif.Proofs.Lawful

/-! # Correctness of the field predicates -/

namespace Ristretto.Proofs
open Model FieldOps LawfulField
set_option autoImplicit false

/-- The value of a flag. -/
def flag (b : Prop) [Decidable b] : Int32 := if b then 1 else 0

theorem u64_or_eq_zero (a b : UInt64) : a ||| b = 0 ↔ a = 0 ∧ b = 0 := by
  constructor
  · intro h
    have h' : a.toBitVec ||| b.toBitVec = 0#64 := by
      have := congrArg UInt64.toBitVec h; simpa using this
    rw [BitVec.or_eq_zero_iff] at h'
    exact ⟨UInt64.toBitVec_inj.1 (by simpa using h'.1), UInt64.toBitVec_inj.1 (by simpa using h'.2)⟩
  · rintro ⟨rfl, rfl⟩; rfl

theorem u8_shl_eq_zero (b : UInt8) (k : UInt64) (hk : k.toNat ≤ 56) :
    b.toUInt64 <<< k = 0 ↔ b = 0 := by
  constructor
  · intro h
    have := congrArg UInt64.toNat h
    simp only [UInt64.toNat_shiftLeft, UInt8.toNat_toUInt64, UInt64.toNat_zero] at this
    rw [Nat.mod_eq_of_lt (a := k.toNat) (by omega), Nat.shiftLeft_eq, Nat.mod_eq_of_lt] at this
    · have hb : b.toNat = 0 := by
        rcases Nat.mul_eq_zero.1 this with h | h
        · exact h
        · exact absurd h (by positivity)
      exact UInt8.toNat_inj.1 (by simpa using hb)
    · calc b.toNat * 2 ^ k.toNat < 2 ^ 8 * 2 ^ k.toNat := by
            apply Nat.mul_lt_mul_of_pos_right b.toNat_lt (by positivity)
        _ ≤ 2 ^ 8 * 2 ^ 56 := by apply Nat.mul_le_mul_left; exact Nat.pow_le_pow_right (by norm_num) hk
        _ = 2 ^ 64 := by norm_num
  · rintro rfl
    apply UInt64.toNat_inj.1
    simp

theorem leUint64_eq_zero (b0 b1 b2 b3 b4 b5 b6 b7 : UInt8) :
    leUint64 b0 b1 b2 b3 b4 b5 b6 b7 = 0 ↔
      b0 = 0 ∧ b1 = 0 ∧ b2 = 0 ∧ b3 = 0 ∧ b4 = 0 ∧ b5 = 0 ∧ b6 = 0 ∧ b7 = 0 := by
  have h0 : b0.toUInt64 = 0 ↔ b0 = 0 := by
    constructor
    · intro h
      have := congrArg UInt64.toNat h
      exact UInt8.toNat_inj.1 (by simpa using this)
    · rintro rfl; rfl
  simp only [leUint64, u64_or_eq_zero, h0, u8_shl_eq_zero b1 8 (by decide), u8_shl_eq_zero b2 16 (by decide),
    u8_shl_eq_zero b3 24 (by decide), u8_shl_eq_zero b4 32 (by decide), u8_shl_eq_zero b5 40 (by decide),
    u8_shl_eq_zero b6 48 (by decide), u8_shl_eq_zero b7 56 (by decide)]
  tauto

/-- The OR-folding at the end of `IsNonZeroI`. -/
def orFold (ret : UInt64) : UInt64 :=
  let ret := ret ||| (ret >>> 32)
  let ret := ret ||| (ret >>> 16)
  let ret := ret ||| (ret >>> 8)
  let ret := ret ||| (ret >>> 4)
  let ret := ret ||| (ret >>> 2)
  ret ||| (ret >>> 1)

/-- The flag extracted from it. -/
def smear (ret : UInt64) : Int32 := (orFold ret &&& 1).toUInt32.toInt32

theorem smear_step (n k i : ℕ) : (n ||| n >>> k).testBit i = (n.testBit i || n.testBit (k + i)) := by
  simp [Nat.testBit_or, Nat.testBit_shiftRight]

theorem smear_spec (r : UInt64) : smear r = flag (r ≠ 0) := by
  have key : ∀ n : ℕ, n < 2 ^ 64 → (
      let ret := n ||| (n >>> 32)
      let ret := ret ||| (ret >>> 16)
      let ret := ret ||| (ret >>> 8)
      let ret := ret ||| (ret >>> 4)
      let ret := ret ||| (ret >>> 2)
      let ret := ret ||| (ret >>> 1)
      ret.testBit 0) = decide (n ≠ 0) := by
    intro n hn
    simp only [smear_step]
    by_cases h0 : n = 0
    · subst h0; simp
    · rw [decide_eq_true h0]
      by_contra hc
      apply h0
      apply Nat.eq_of_testBit_eq
      intro i
      rw [Nat.zero_testBit]
      by_cases hi : i < 64
      · simp only [Bool.not_eq_true, Bool.or_eq_false_iff] at hc
        norm_num at hc
        interval_cases i <;> simp_all
      · apply Nat.testBit_lt_two_pow
        exact lt_of_lt_of_le hn (Nat.pow_le_pow_right (by norm_num) (by omega))
  have hk := key r.toNat r.toNat_lt
  unfold smear flag
  generalize hR : orFold r = R
  have hR' : R.toNat.testBit 0 = decide (r.toNat ≠ 0) := by
    rw [← hk, ← hR]
    simp only [orFold, UInt64.toNat_or, UInt64.toNat_shiftRight]
    rfl
  have hand : (R &&& 1).toNat = R.toNat % 2 := by
    rw [UInt64.toNat_and]; exact Nat.and_one_is_mod _
  rw [Nat.testBit_zero] at hR'
  by_cases h0 : r = 0
  · have : R.toNat % 2 = 0 := by
      subst h0
      simp at hR'
      omega
    have h1 : R &&& 1 = 0 := UInt64.toNat_inj.1 (by rw [hand, this]; rfl)
    rw [h1, h0]; simp
  · have hn0 : r.toNat ≠ 0 := fun h => h0 (UInt64.toNat_inj.1 (by simpa using h))
    have : R.toNat % 2 = 1 := by simpa [hn0] using hR'
    have h1 : R &&& 1 = 1 := UInt64.toNat_inj.1 (by rw [hand, this]; rfl)
    rw [h1, if_pos h0]; rfl

variable {F : Type} [LawfulField F]

theorem isNonZeroI_spec {x : F} (hx : bd 12 x) : isNonZeroI x = flag (eval x ≠ 0) := by
  have h1 : isNonZeroI x = smear (leUint64 (bytes x)[0] (bytes x)[1] (bytes x)[2] (bytes x)[3] (bytes x)[4] (bytes x)[5] (bytes x)[6] (bytes x)[7] |||
    leUint64 (bytes x)[8] (bytes x)[9] (bytes x)[10] (bytes x)[11] (bytes x)[12] (bytes x)[13] (bytes x)[14] (bytes x)[15] |||
    leUint64 (bytes x)[16] (bytes x)[17] (bytes x)[18] (bytes x)[19] (bytes x)[20] (bytes x)[21] (bytes x)[22] (bytes x)[23] |||
    leUint64 (bytes x)[24] (bytes x)[25] (bytes x)[26] (bytes x)[27] (bytes x)[28] (bytes x)[29] (bytes x)[30] (bytes x)[31]) := rfl
  have hb := bytes_law hx
  rw [leVal_32] at hb
  rw [h1, smear_spec]
  unfold flag
  have e : ∀ b : UInt8, b = 0 ↔ b.toNat = 0 := fun b => by rw [← UInt8.toNat_inj]; rfl
  have : (eval x = 0) ↔ (leUint64 (bytes x)[0] (bytes x)[1] (bytes x)[2] (bytes x)[3] (bytes x)[4] (bytes x)[5] (bytes x)[6] (bytes x)[7] |||
    leUint64 (bytes x)[8] (bytes x)[9] (bytes x)[10] (bytes x)[11] (bytes x)[12] (bytes x)[13] (bytes x)[14] (bytes x)[15] |||
    leUint64 (bytes x)[16] (bytes x)[17] (bytes x)[18] (bytes x)[19] (bytes x)[20] (bytes x)[21] (bytes x)[22] (bytes x)[23] |||
    leUint64 (bytes x)[24] (bytes x)[25] (bytes x)[26] (bytes x)[27] (bytes x)[28] (bytes x)[29] (bytes x)[30] (bytes x)[31]) = 0 := by
    rw [← ZMod.val_eq_zero, ← hb]
    simp only [u64_or_eq_zero, leUint64_eq_zero, e]
    omega
  by_cases h0 : eval x = 0
  · rw [if_neg (not_not.2 (this.1 h0)), if_neg (not_not.2 h0)]
  · rw [if_pos (fun h => h0 (this.2 h)), if_pos h0]

theorem isNegativeI_spec {x : F} (hx : bd 12 x) : isNegativeI x = flag (IsNeg (eval x)) := by
  have hb := bytes_law hx
  rw [leVal_32] at hb
  have hI : IsNeg (eval x) ↔ (eval x).val % 2 = 1 := Iff.rfl
  rw [← hb] at hI
  unfold isNegativeI flag
  have h2 : ((bytes x)[0] &&& 1).toNat = (bytes x)[0].toNat % 2 := by
    rw [UInt8.toNat_and]; exact Nat.and_one_is_mod _
  simp only
  rcases Nat.mod_two_eq_zero_or_one (bytes x)[0].toNat with h | h
  · have h1 : (bytes x)[0] &&& 1 = 0 := UInt8.toNat_inj.1 (by rw [h2, h]; rfl)
    rw [h1, if_neg (by rw [hI]; omega)]; rfl
  · have h1 : (bytes x)[0] &&& 1 = 1 := UInt8.toNat_inj.1 (by rw [h2, h]; rfl)
    rw [h1, if_pos (by rw [hI]; omega)]; rfl

theorem one_sub_flag (b : Prop) [Decidable b] : 1 - flag b = flag (¬ b) := by
  unfold flag; by_cases h : b <;> simp [h]

theorem flag_congr {a b : Prop} [Decidable a] [Decidable b] (h : a ↔ b) : flag a = flag b := by
  unfold flag; by_cases h' : a <;> simp [h', h.1, ← h]

theorem feEqualsI_spec {x y : F} (hx : bd 6 x) (hy : bd 6 y) :
    feEqualsI x y = flag (eval x = eval y) := by
  obtain ⟨h1, h2⟩ := sub_law hx hy le_rfl
  rw [feEqualsI, isNonZeroI_spec (bd_mono (by norm_num) h1), one_sub_flag, h2]
  apply flag_congr
  rw [not_not, sub_eq_zero]

theorem feEquals_spec {x y : F} (hx : bd 6 x) (hy : bd 6 y) :
    feEquals x y = decide (eval x = eval y) := by
  obtain ⟨h1, h2⟩ := sub_law hx hy le_rfl
  rw [feEquals, isNonZeroI_spec (bd_mono (by norm_num) h1), h2]
  unfold flag
  by_cases h : eval x = eval y
  · simp [h]
  · have : eval x - eval y ≠ 0 := sub_ne_zero.2 h
    simp [h, this]

theorem isOneI_spec {x : F} (hx : bd 6 x) : isOneI x = flag (eval x = 1) := by
  obtain ⟨h1, h2⟩ := sub_law hx (bd_mono (by norm_num) bd_feOne) le_rfl
  rw [isOneI, isNonZeroI_spec (bd_mono (by norm_num) h1), one_sub_flag, h2, eval_feOne]
  apply flag_congr
  rw [not_not, sub_eq_zero]

theorem condSet_flag (a b : F) (c : Prop) [Decidable c] :
    condSet a b (flag c) = if c then b else a := by
  unfold flag
  by_cases h : c
  · simp [h, LawfulField.condSet_one]
  · simp [h, LawfulField.condSet_zero]

theorem feAbsSelf_spec {x : F} (hx : bd 6 x) :
    bd 6 (feAbsSelf x) ∧ eval (feAbsSelf x) = absFp (eval x) := by
  obtain ⟨h1, h2⟩ := neg_law hx
  obtain ⟨t1, t2⟩ := touch_law hx
  unfold feAbsSelf
  simp only
  rw [isNegativeI_spec (bd_mono (by norm_num) hx), condSet_flag, absFp]
  split
  · exact ⟨bd_mono (by norm_num) h1, h2⟩
  · exact ⟨t1, t2⟩

theorem feAbs_spec {n : ℕ} {x : F} (hx : bd n x) (hn : n ≤ 6) :
    bd (max n 2) (feAbs x) ∧ eval (feAbs x) = absFp (eval x) := by
  obtain ⟨h1, h2⟩ := neg_law (bd_mono hn hx)
  unfold feAbs
  simp only
  rw [isNegativeI_spec (bd_mono (by omega) hx), condSet_flag, absFp]
  split
  · exact ⟨bd_mono (le_max_right _ _) h1, h2⟩
  · exact ⟨bd_mono (le_max_left _ _) hx, rfl⟩

theorem feAdd_spec {x y : F} (hx : bd 6 x) (hy : bd 6 y) :
    bd 1 (feAdd x y) ∧ eval (feAdd x y) = eval x + eval y := by
  obtain ⟨h1, h2⟩ := add_law hx hy (by norm_num)
  obtain ⟨h3, h4⟩ := normalize_law h1
  exact ⟨h3, h4.trans h2⟩

theorem feSub_spec {x y : F} (hx : bd 6 x) (hy : bd 6 y) :
    bd 1 (feSub x y) ∧ eval (feSub x y) = eval x - eval y := by
  obtain ⟨h1, h2⟩ := sub_law hx hy (by norm_num)
  obtain ⟨h3, h4⟩ := normalize_law (bd_mono (by norm_num) h1)
  exact ⟨h3, h4.trans h2⟩

end Ristretto.Proofs
