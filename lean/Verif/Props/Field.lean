import Verif.Proofs.Repr
import Verif.Proofs.FieldPow
import Verif.Proofs.FieldFlags

/-!
# C15–C20: the field GF(2^255-19) of the 64-bit build

`feVal a` (Spec/Repr.lean) is the field element five limbs stand for, `LimbsLe B a` bounds the limbs.
`tight = 2^51 + 2^18` bounds the limbs of a product; the coordinate formulas add and subtract such
values, so that limbs stay below `6 * tight < 2^54` (this is part of C21 and C41).
-/

namespace Ristretto.Props
open Model Proofs
set_option autoImplicit false

/-- Bound on the limbs of a product. -/
def tight : ℕ := 2 ^ 51 + 2 ^ 18

theorem one_bd {a : Fe51} (h : LawfulField.bd 1 a) : LimbsLe tight a := by
  have h' : LimbsLe (1 * (2 ^ 51 + 2 ^ 18)) a := h
  rw [Nat.one_mul] at h'
  exact h'

/-- A field element with large limbs used in the examples. -/
def bigFe : Fe51 := ⟨2 ^ 54 - 1, 2 ^ 54 - 1, 2 ^ 54 - 1, 2 ^ 54 - 1, 2 ^ 54 - 1⟩

/-- **C15** (addition without normalisation). The result is exact as an integer: no word wraps. -/
theorem C15_add (a b : Fe51) (B C : ℕ) (ha : LimbsLe B a) (hb : LimbsLe C b) (h : B + C < 2 ^ 64) :
    LimbsLe (B + C) (Fe51.add a b) ∧ feNat (Fe51.add a b) = feNat a + feNat b ∧
      feVal (Fe51.add a b) = feVal a + feVal b := by
  obtain ⟨h1, h2⟩ := Fe51.add_spec a b B C ha hb h
  refine ⟨h1, ?_, h2⟩
  obtain ⟨a0, a1, a2, a3, a4⟩ := a
  obtain ⟨b0, b1, b2, b3, b4⟩ := b
  obtain ⟨ha0, ha1, ha2, ha3, ha4⟩ := ha
  obtain ⟨hb0, hb1, hb2, hb3, hb4⟩ := hb
  simp only at ha0 ha1 ha2 ha3 ha4 hb0 hb1 hb2 hb3 hb4
  have e : ∀ x y : UInt64, x.toNat ≤ B → y.toNat ≤ C → (x + y).toNat = x.toNat + y.toNat := by
    intro x y hx hy
    rw [UInt64.toNat_add, Nat.mod_eq_of_lt (by omega)]
  simp only [feNat, Fe51.add, e _ _ ha0 hb0, e _ _ ha1 hb1, e _ _ ha2 hb2, e _ _ ha3 hb3, e _ _ ha4 hb4]
  ring

/-- **C15** (subtraction without normalisation, negation). -/
theorem C15_sub (a b : Fe51) (B : ℕ) (ha : LimbsLe B a) (hB : B ≤ 2 ^ 63) (hb : LimbsLe (2 ^ 63) b) :
    LimbsLe (B + 2 ^ 52) (Fe51.sub a b) ∧ feVal (Fe51.sub a b) = feVal a - feVal b :=
  Fe51.sub_spec a b B ha hB hb

theorem C15_neg (a : Fe51) (ha : LimbsLe (2 ^ 63) a) :
    LimbsLe (2 ^ 52) (Fe51.neg a) ∧ feVal (Fe51.neg a) = -feVal a := Fe51.neg_spec a ha

/-- **C15** (normalisation). The result is the canonical representative in `[0, p)` in 51-bit limbs. -/
theorem C15_normalize (a : Fe51) (ha : LimbsLe (2 ^ 63) a) :
    feNat (Fe51.normalize a) = (feVal a).val ∧ LimbsLe (2 ^ 51 - 1) (Fe51.normalize a) ∧
      feVal (Fe51.normalize a) = feVal a := by
  obtain ⟨h, h0, h1, h2, h3, h4⟩ := Fe51.setReduced_spec a ha
  have h' : feNat (Fe51.normalize a) = (feVal a).val := h
  refine ⟨h', ⟨?_, ?_, ?_, ?_, ?_⟩, ?_⟩
  · exact Nat.le_sub_one_of_lt h0
  · exact Nat.le_sub_one_of_lt h1
  · exact Nat.le_sub_one_of_lt h2
  · exact Nat.le_sub_one_of_lt h3
  · exact Nat.le_sub_one_of_lt h4
  · rw [feVal, h', ZMod.natCast_zmod_val]

/-- **C15** (`double`). -/
theorem C15_double (a : Fe51) (ha : LimbsLe (2 ^ 62) a) :
    LimbsLe (2 ^ 63) (feDouble a) ∧ feVal (feDouble a) = 2 * feVal a := by
  obtain ⟨h1, -, h2⟩ := C15_add a a _ _ ha ha (by norm_num)
  exact ⟨h1, by rw [two_mul]; exact h2⟩

/-- **C15** (`Add`, `Sub`: with normalisation). -/
theorem C15_Add_Sub (a b : Fe51) (ha : LimbsLe (2 ^ 62) a) (hb : LimbsLe (2 ^ 62) b) :
    feNat (feAdd a b) = (feVal a + feVal b).val ∧ feNat (feSub a b) = (feVal a - feVal b).val := by
  have m : ∀ {x : Fe51} {B C : ℕ}, B ≤ C → LimbsLe B x → LimbsLe C x := fun h hx => Fe51.Bd.mono hx h
  obtain ⟨h1, -, h2⟩ := C15_add a b _ _ ha hb (by norm_num)
  obtain ⟨h3, h4⟩ := C15_sub a b _ ha (by norm_num) (m (by norm_num) hb)
  have h5 := (C15_normalize _ (m (by norm_num) h1)).1
  have h6 := (C15_normalize _ (m (by norm_num) h3)).1
  rw [h2] at h5
  rw [h4] at h6
  exact ⟨h5, h6⟩

example : feVal (Fe51.sub bigFe bigFe) = 0 := by
  rw [(C15_sub bigFe bigFe (2 ^ 54) (by unfold LimbsLe; decide +kernel) (by norm_num) (by unfold LimbsLe; decide +kernel)).2, sub_self]
/-- p itself is normalised to 0. -/
example : Fe51.normalize ⟨2 ^ 51 - 19, 2 ^ 51 - 1, 2 ^ 51 - 1, 2 ^ 51 - 1, 2 ^ 51 - 1⟩ = ⟨0, 0, 0, 0, 0⟩ := by
  decide +kernel

/-- **C16** (`Mul`, `Square`). -/
theorem C16_mul (a b : Fe51) (ha : LimbsLe (2 ^ 54) a) (hb : LimbsLe (2 ^ 54) b) :
    LimbsLe tight (Fe51.mul a b) ∧ feVal (Fe51.mul a b) = feVal a * feVal b := Fe51.mul_spec a b ha hb

theorem C16_square (a : Fe51) (ha : LimbsLe (2 ^ 54) a) :
    LimbsLe tight (Fe51.square a) ∧ feVal (Fe51.square a) = feVal a ^ 2 := by
  rw [sq]; exact Fe51.square_spec a ha

/-- **C16** (`DoubledSquare`): here the limbs must be at most `6 * tight`. -/
theorem C16_doubledSquare (a : Fe51) (ha : LimbsLe (6 * tight) a) :
    LimbsLe tight (Fe51.doubledSquare a) ∧ feVal (Fe51.doubledSquare a) = 2 * feVal a ^ 2 := by
  rw [sq]; exact Fe51.doubledSquare_spec a ha

/-- With limbs of almost 54 bits `DoubledSquare` overflows, although `Mul` and `Square` do not. -/
theorem C16_doubledSquare_overflow :
    LimbsLe (2 ^ 54) bigFe ∧ feNat (Fe51.doubledSquare bigFe) % p ≠ 2 * feNat bigFe ^ 2 % p := by
  unfold LimbsLe; decide +kernel

example : feVal (Fe51.mul bigFe bigFe) = feVal bigFe * feVal bigFe :=
  (C16_mul _ _ (by unfold LimbsLe; decide +kernel) (by unfold LimbsLe; decide +kernel)).2
example : LimbsLe (6 * tight) ⟨2 ^ 53, 2 ^ 53, 2 ^ 53, 2 ^ 53, 2 ^ 53⟩ := by unfold LimbsLe; decide +kernel

/-- **C17** (writing): the bytes are the little-endian form of the canonical representative. -/
theorem C17_bytes (a : Fe51) (ha : LimbsLe (2 ^ 63) a) : leVal (Fe51.bytes a) = (feVal a).val :=
  Fe51.bytes_spec a ha

/-- **C17** (reading). -/
theorem C17_setBytes (b : Bytes 32) :
    LimbsLe tight (Fe51.setBytes b) ∧ feVal (Fe51.setBytes b) = ((leVal b % 2 ^ 255 : ℕ) : Fp) := by
  have h := LawfulField.setBytes_law (F := Fe51) b
  exact ⟨one_bd h.1, h.2⟩

/-- **C17** (canonical, round trip). -/
theorem C17_canonical (a b : Fe51) (ha : LimbsLe (2 ^ 63) a) (hb : LimbsLe (2 ^ 63) b) :
    (Fe51.bytes a = Fe51.bytes b ↔ feVal a = feVal b) ∧ feVal (Fe51.setBytes (Fe51.bytes a)) = feVal a := by
  have h1 := C17_bytes a ha
  have h2 := C17_bytes b hb
  refine ⟨⟨fun h => ?_, fun h => ?_⟩, ?_⟩
  · apply ZMod.val_injective
    rw [← h1, ← h2, h]
  · apply leVal_inj
    rw [h1, h2, h]
  · rw [(C17_setBytes _).2, h1, Nat.mod_eq_of_lt, ZMod.natCast_zmod_val]
    exact lt_trans (ZMod.val_lt _) (by norm_num [p])

/-- **C17** (big integers): `BigInt` and `SetBigInt`. -/
theorem C17_bigInt (a : Fe51) (ha : LimbsLe (2 ^ 63) a) (x : ℤ) :
    feBigInt a = (feVal a).val ∧ feVal (feSetBigInt x : Fe51) = (x : Fp) := by
  refine ⟨C17_bytes a ha, ?_⟩
  unfold feSetBigInt
  have hpos : (0 : ℤ) ≤ x % (2 ^ 255 - 19) := Int.emod_nonneg _ (by norm_num)
  have hlt : x % (2 ^ 255 - 19) < 2 ^ 255 - 19 := Int.emod_lt_of_pos _ (by norm_num)
  have h := (C17_setBytes (leBytes 32 (x % (2 ^ 255 - 19)).toNat)).2
  refine h.trans ?_
  rw [leVal_leBytes]
  have hn : (x % (2 ^ 255 - 19)).toNat < 2 ^ 255 := by
    have : ((x % (2 ^ 255 - 19)).toNat : ℤ) < 2 ^ 255 := by rw [Int.toNat_of_nonneg hpos]; linarith
    exact_mod_cast this
  rw [Nat.mod_eq_of_lt (lt_trans hn (by norm_num)), Nat.mod_eq_of_lt hn]
  have : (((x % (2 ^ 255 - 19)).toNat : ℕ) : Fp) = ((x % (2 ^ 255 - 19) : ℤ) : Fp) := by
    rw [← Int.cast_natCast, Int.toNat_of_nonneg hpos]
  rw [this]
  have hp : (2 ^ 255 - 19 : ℤ) = (p : ℤ) := by norm_num [p]
  rw [hp]
  exact (ZMod.intCast_eq_intCast_iff _ _ p).2 (Int.mod_modEq _ _)

example : leVal (Fe51.bytes bigFe) = (feVal bigFe).val := C17_bytes _ (by unfold LimbsLe; decide +kernel)
/-- A non-canonical input: p + 1 is read as 1. -/
example : feVal (Fe51.setBytes (leBytes 32 (p + 1))) = 1 := by
  rw [(C17_setBytes _).2, leVal_leBytes]
  exact natCast_eq_of_mod (b := 1) (by decide +kernel) |>.trans (by simp)

/-- **C18.** -/
theorem C18_predicates (a b : Fe51) (ha : LimbsLe (6 * tight) a) (hb : LimbsLe (6 * tight) b) :
    (isNonZeroI a = if feVal a ≠ 0 then 1 else 0) ∧ (isOneI a = if feVal a = 1 then 1 else 0) ∧
    (feEqualsI a b = if feVal a = feVal b then 1 else 0) ∧ (feEquals a b = true ↔ feVal a = feVal b) ∧
    (isNegativeI a = if (feVal a).val % 2 = 1 then 1 else 0) ∧
    feVal (feAbs a) = if (feVal a).val % 2 = 1 then -feVal a else feVal a := by
  have ha' : LawfulField.bd 6 a := ha
  have hb' : LawfulField.bd 6 b := hb
  have ha2 : LawfulField.bd 12 a := LawfulField.bd_mono (by norm_num) ha'
  refine ⟨?_, ?_, ?_, ?_, ?_, ?_⟩
  · rw [isNonZeroI_spec ha2]; unfold flag; congr
  · rw [isOneI_spec ha']; unfold flag; congr
  · rw [feEqualsI_spec ha' hb']; unfold flag; congr
  · rw [feEquals_spec ha' hb', decide_eq_true_eq]; rfl
  · rw [isNegativeI_spec ha2]; unfold flag IsNeg; congr
  · rw [feVal_eq, (feAbs_spec ha' le_rfl).2]; rfl

/-- p is recognised as zero and p + 1 as one. -/
example : isNonZeroI (⟨2 ^ 51 - 19, 2 ^ 51 - 1, 2 ^ 51 - 1, 2 ^ 51 - 1, 2 ^ 51 - 1⟩ : Fe51) = 0 ∧
    isOneI (⟨2 ^ 51 - 18, 2 ^ 51 - 1, 2 ^ 51 - 1, 2 ^ 51 - 1, 2 ^ 51 - 1⟩ : Fe51) = 1 := by decide +kernel
example : LimbsLe (6 * tight) (⟨2 ^ 51 - 19, 2 ^ 51 - 1, 2 ^ 51 - 1, 2 ^ 51 - 1, 2 ^ 51 - 1⟩ : Fe51) := by
  unfold LimbsLe; decide +kernel

/-- **C19** (inversion). In Mathlib `0⁻¹ = 0`. -/
theorem C19_inverse (a : Fe51) (ha : LimbsLe (6 * tight) a) :
    LimbsLe tight (feInverse a) ∧ feVal (feInverse a) = (feVal a)⁻¹ ∧
      (feVal a ≠ 0 → feVal (feInverse a) * feVal a = 1) ∧ (feVal a = 0 → feVal (feInverse a) = 0) := by
  have h := feInverse_spec (F := Fe51) (a := a) ha
  have h2 : feVal (feInverse a) = (feVal a)⁻¹ := h.2
  refine ⟨one_bd h.1, h2, fun h0 => ?_, fun h0 => ?_⟩
  · rw [h2, inv_mul_cancel₀ h0]
  · rw [h2, h0, inv_zero]

/-- **C19** (square roots). -/
theorem C19_sqrt (a : Fe51) (ha : LimbsLe (6 * tight) a) :
    (IsSquare (feVal a) → feVal a ≠ 0 → feVal (invSqrt a) ^ 2 * feVal a = 1) ∧
    (IsSquare (feVal a) → feVal (feSqrt a) ^ 2 = feVal a ∧ ¬ IsNeg (feVal (feSqrt a))) := by
  have h := invSqrt_spec (F := Fe51) (a := a) ha
  have h' := feSqrt_spec (F := Fe51) (a := a) ha
  refine ⟨fun h1 h2 => ?_, fun h1 => ⟨?_, h'.2.1⟩⟩
  · rw [← h.2.2 h2 h1]; simp only [feVal_eq]; ring
  · rw [feVal_eq, feVal_eq, sq]; exact h'.2.2 h1

/-- **C19** (`InvSqrtI`): flag 1 for non-zero squares, flag 0 and the root of `1/(i a)` for
non-squares, `(0, 0)` for zero. -/
theorem C19_invSqrtI (a : Fe51) (ha : LimbsLe (6 * tight) a) :
    (feVal a ≠ 0 → IsSquare (feVal a) → (invSqrtI a).2 = 1 ∧ feVal (invSqrtI a).1 ^ 2 * feVal a = 1) ∧
    (¬ IsSquare (feVal a) → (invSqrtI a).2 = 0 ∧ feVal (invSqrtI a).1 ^ 2 * (sqrtM1 * feVal a) = 1) ∧
    (feVal a = 0 → (invSqrtI a).2 = 0 ∧ feVal (invSqrtI a).1 = 0) := by
  have h := (invSqrtI_spec (F := Fe51) (a := a) ha).2
  simp only [← feVal_eq] at h
  have hz : feVal a = 0 → IsSquare (feVal a) := fun h => h ▸ IsSquare.zero
  rcases h with ⟨h1, h2⟩ | ⟨h1, h2, h3⟩ | ⟨h1, h2, h3⟩
  · refine ⟨fun _ _ => ⟨h1, by linear_combination h2⟩, fun hn => absurd ?_ hn, fun h0 => ?_⟩
    · have hr : feVal (invSqrtI a).1 ≠ 0 := by intro h0; rw [h0] at h2; simp at h2
      refine ⟨(feVal (invSqrtI a).1)⁻¹, ?_⟩
      field_simp
      linear_combination h2
    · rw [h0] at h2; simp at h2
  · refine ⟨fun _ hs => absurd hs h2, fun _ => ⟨h1, ?_⟩, fun h0 => absurd (hz h0) h2⟩
    linear_combination sqrtM1 * h3 - sqrtM1_sq
  · exact ⟨fun h => absurd h2 h, fun h => absurd (hz h2) h, fun _ => ⟨h1, h3⟩⟩

/-- A square and a non-square meet the hypotheses. -/
example : feVal ⟨4, 0, 0, 0, 0⟩ = 4 ∧ IsSquare (4 : Fp) ∧ ¬ IsSquare (2 : Fp) :=
  ⟨natCast_eq_of_mod (b := 4) (by decide +kernel) |>.trans (by norm_num), ⟨2, by norm_num⟩, two_nonsquare⟩
example : (invSqrtI (⟨4, 0, 0, 0, 0⟩ : Fe51)).2 = 1 ∧ (invSqrtI (⟨2, 0, 0, 0, 0⟩ : Fe51)).2 = 0 := by decide +kernel

/-- **C20** (primality, non-square). -/
theorem C20_primes : p.Prime ∧ l.Prime ∧ p = 2 ^ 255 - 19 ∧
    l = 2 ^ 252 + 27742317777372353535851937790883648493 ∧ ¬ IsSquare d ∧ d * 121666 = -121665 := by
  refine ⟨Fact.out, Fact.out, by norm_num [p], by norm_num [l], d_nonsquare, ?_⟩
  have h0 : (121666 : Fp) ≠ 0 := by
    have := small_ne_zero 121666 (by norm_num) (by norm_num [p]); exact_mod_cast this
  rw [d, div_mul_cancel₀ _ h0]

/-- **C20** (the constants of field_radix51.go). -/
theorem C20_constants :
    feVal FieldOps.feZero = 0 ∧ feVal FieldOps.feOne = 1 ∧ feVal FieldOps.feMinusOne = -1 ∧
    feVal FieldOps.feI ^ 2 = -1 ∧ feVal FieldOps.feMinusI = -feVal FieldOps.feI ∧
    feVal FieldOps.feD = d ∧ feVal FieldOps.fe2D = 2 * d ∧
    feVal FieldOps.feInvSqrtMinusDMinusOne ^ 2 * (-1 - d) = 1 ∧
    feVal FieldOps.feDoubleInvSqrtMinusDMinusOne = 2 * feVal FieldOps.feInvSqrtMinusDMinusOne ∧
    feVal FieldOps.feDoubleIInvSqrtMinusDMinusOne = 2 * feVal FieldOps.feI * feVal FieldOps.feInvSqrtMinusDMinusOne ∧
    feVal FieldOps.feDMinusOneSquared = (d - 1) ^ 2 ∧ feVal FieldOps.feOneMinusDSquared = 1 - d ^ 2 ∧
    feVal FieldOps.feDp1OverDm1 * (d - 1) = d + 1 ∧
    feVal FieldOps.feSqrtID ^ 2 = feVal FieldOps.feI * d ∧
    feVal FieldOps.feInvSqrt1pD ^ 2 * (1 + d) = 1 := by
  simp only [feVal_eq]
  rw [LawfulField.eval_feZero, LawfulField.eval_feOne, LawfulField.eval_feMinusOne, LawfulField.eval_feI,
    LawfulField.eval_feMinusI, LawfulField.eval_feD, LawfulField.eval_fe2D,
    LawfulField.eval_feInvSqrtMinusDMinusOne, LawfulField.eval_feDoubleInvSqrtMinusDMinusOne,
    LawfulField.eval_feDoubleIInvSqrtMinusDMinusOne, LawfulField.eval_feDMinusOneSquared,
    LawfulField.eval_feOneMinusDSquared, LawfulField.eval_feDp1OverDm1, LawfulField.eval_feSqrtID,
    LawfulField.eval_feInvSqrt1pD]
  refine ⟨rfl, rfl, rfl, ?_, rfl, rfl, rfl, ?_, rfl, rfl, rfl, rfl, rfl, ?_, ?_⟩
  · linear_combination sqrtM1_sq
  · linear_combination eC_sq
  · linear_combination sqrtID_sq
  · linear_combination (-sqrtM1 ^ 2) * eC_sq - sqrtM1_sq

end Ristretto.Props
