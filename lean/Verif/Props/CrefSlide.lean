import Verif.Proofs.CrefSlide
import Verif.Props.CrefScalars

/-!
# C67: sliding windows in the C reference implementation

`IsNum s n` (Spec/CrefScalar.lean): the 32 digits of the `group_scalar` `s` are bytes, and `n` is the number they stand for.
-/

namespace Ristretto.Props
open Model Model.Cref Proofs Proofs.Cref
set_option autoImplicit false

theorem slide_start (l : List UInt8) :
    Slide.Bits ((l.map UInt8.toUInt32).flatMap slideBits) ∧ ((l.map UInt8.toUInt32).flatMap slideBits).length = 8 * l.length ∧
      Slide.val ((l.map UInt8.toUInt32).flatMap slideBits) = leNat l := by
  induction l with
  | nil => exact ⟨by simp [Slide.Bits], rfl, rfl⟩
  | cons b l ih =>
    obtain ⟨h1, h2, h3⟩ := ih
    obtain ⟨g1, g2⟩ := Slide.bits_byte b
    simp only [List.map_cons, List.flatMap_cons]
    refine ⟨?_, ?_, ?_⟩
    · intro x hx
      rcases List.mem_append.1 hx with h | h
      · exact g1 x h
      · exact h1 x h
    · rw [List.length_append, h2, List.length_cons, show (slideBits b.toUInt32).length = 8 from rfl]; ring
    · rw [Slide.val_append, g2, h3, show (slideBits b.toUInt32).length = 8 from rfl]
      simp only [leNat]; push_cast; ring

/-- **C67**: `scalar_slide` writes digits `d 0, ..., d 255` for every scalar and every window size from 2 to 31.
Every digit is zero or odd and is below 2^(w-1) in absolute value; a digit that is not zero is followed by at least
`min w 7 - 1` zeros; and the digits stand for the scalar, except that for some numbers above 2^255 they stand for the
number less 2^256. -/
theorem C67_slide (s : Sc) (n w : ℕ) (hs : IsNum s n) (hw : 2 ≤ w) (_ : w ≤ 31) :
    let d : ℕ → ℤ := fun i => ((slide s w).getD i 0).toInt
    (slide s w).length = 256 ∧ (∀ i, d i = 0 ∨ Odd (d i)) ∧ (∀ i, |d i| < 2 ^ (w - 1) ∧ |d i| < 128) ∧
      (∀ i j, i < j → j < i + min w 7 → d i ≠ 0 → d j = 0) ∧
      (∑ i ∈ Finset.range 256, d i * 2 ^ i = n ∨
        2 ^ 255 < n ∧ ∑ i ∈ Finset.range 256, d i * 2 ^ i = (n : ℤ) - 2 ^ 256) := by
  obtain ⟨b, rfl, rfl⟩ := isNum_bytes hs
  have hst : (ofBytes b).toList = b.toList.map UInt8.toUInt32 := by
    unfold ofBytes; exact Vector.toList_map
  obtain ⟨s1, s2, s3⟩ := slide_start b.toList
  have hsl : slide (ofBytes b) w = slideLoop (2 ^ (w - 1) - 1) 256 ((b.toList.map UInt8.toUInt32).flatMap slideBits) := by
    unfold slide; rw [hst]
  obtain ⟨i1, i2, i3, c, i4, i5⟩ := Slide.loop_spec w hw 256 _ s1 (by rw [s2]; simp)
  rw [← hsl] at i1 i2 i3 i5
  simp only
  have hmem : ∀ i, ((slide (ofBytes b) w).getD i 0 = 0 ∨ ((slide (ofBytes b) w).getD i 0).toInt % 2 = 1) ∧
      |((slide (ofBytes b) w).getD i 0).toInt| ≤ 2 ^ (w - 1) - 1 ∧ -128 < ((slide (ofBytes b) w).getD i 0).toInt := by
    intro i
    rcases Nat.lt_or_ge i (slide (ofBytes b) w).length with h | h
    · rw [List.getD_eq_getElem _ _ h]; exact i2 _ (List.getElem_mem h)
    · rw [List.getD_eq_default _ _ h]
      refine ⟨Or.inl rfl, ?_, by decide⟩
      have : (0 : ℤ) < 2 ^ (w - 1) := by positivity
      change |(0 : ℤ)| ≤ _
      rw [abs_zero]; omega
  refine ⟨i1, ?_, ?_, ?_, ?_⟩
  · intro i
    rcases (hmem i).1 with h | h
    · left; rw [h]; rfl
    · right; exact Int.odd_iff.2 h
  · intro i
    obtain ⟨_, h2, h3⟩ := hmem i
    refine ⟨by omega, ?_⟩
    rw [abs_lt]
    exact ⟨h3, lt_of_le_of_lt (Int8.toInt_le _) (by decide)⟩
  · intro i j hij hj hi
    rw [Slide.sparse_get _ _ i3 i j hij hj (fun h => hi (by rw [h]; rfl))]
    rfl
  · have := Slide.sum_digits (fun i => ((slide (ofBytes b) w).getD i 0).toInt) (slide (ofBytes b) w) fun i _ => rfl
    rw [i1] at this
    rw [this]
    rw [s3] at i4 i5
    rcases i4 with h | ⟨h, h'⟩
    · left; rw [h] at i5; linarith [show ((leVal b : ℕ) : ℤ) = leNat b.toList from rfl]
    · right
      refine ⟨?_, ?_⟩
      · have h2 : ((2 ^ 255 : ℕ) : ℤ) < (leVal b : ℕ) := by
          change _ < ((leNat b.toList : ℕ) : ℤ)
          rw [show (2 : ℤ) ^ 256 = 2 * ((2 ^ 255 : ℕ) : ℤ) by norm_num] at h'
          omega
        exact_mod_cast h2
      · rw [h, one_mul] at i5
        change _ = ((leNat b.toList : ℕ) : ℤ) - _
        rw [← i5]
        generalize (2 : ℤ) ^ 256 = M
        ring

/-- A representation by digits: odd or zero, below 2^(w-1) in absolute value, and `w - 1` zeros after every digit that is
not zero. -/
def IsWindowed (w : ℕ) (d : ℕ → ℤ) : Prop :=
  (∀ i, d i = 0 ∨ Odd (d i)) ∧ (∀ i, |d i| < 2 ^ (w - 1)) ∧ ∀ i j, i < j → j < i + w → d i ≠ 0 → d j = 0

theorem windowed_unique (w : ℕ) (hw : 1 ≤ w) (N : ℕ) (d e : ℕ → ℤ) (hd : IsWindowed w d) (he : IsWindowed w e)
    (h : ∑ i ∈ Finset.range N, d i * 2 ^ i = ∑ i ∈ Finset.range N, e i * 2 ^ i) : ∀ i < N, d i = e i := by
  have shift : ∀ d : ℕ → ℤ, IsWindowed w d → IsWindowed w fun i => d (i + 1) := fun d hd =>
    ⟨fun i => hd.1 _, fun i => hd.2.1 _, fun i j h1 h2 h3 => hd.2.2 (i + 1) (j + 1) (by omega) (by omega) h3⟩
  induction N generalizing d e with
  | zero => simp
  | succ N ih =>
    have split : ∀ d : ℕ → ℤ, ∑ i ∈ Finset.range (N + 1), d i * 2 ^ i
        = d 0 + 2 * ∑ i ∈ Finset.range N, d (i + 1) * 2 ^ i := by
      intro d
      rw [Finset.sum_range_succ', Finset.mul_sum, add_comm]
      congr 1
      · ring
      · exact Finset.sum_congr rfl fun i _ => by ring
    have hdvd : ∀ d : ℕ → ℤ, IsWindowed w d → d 0 ≠ 0 →
        (2 : ℤ) ^ w ∣ (∑ i ∈ Finset.range (N + 1), d i * 2 ^ i) - d 0 := by
      intro d hd h0
      rw [Finset.sum_range_succ']
      simp only [pow_zero, mul_one, add_sub_cancel_right]
      refine Finset.dvd_sum fun i _ => ?_
      rcases Nat.lt_or_ge (i + 1) w with hi | hi
      · rw [hd.2.2 0 (i + 1) (by omega) (by omega) h0]; simp
      · exact Dvd.dvd.mul_left (pow_dvd_pow 2 hi) _
    have h0 : d 0 = e 0 := by
      have hs := h
      rw [split, split] at hs
      rcases hd.1 0 with hd0 | hd0 <;> rcases he.1 0 with he0 | he0
      · rw [hd0, he0]
      · exfalso; obtain ⟨k, hk⟩ := he0; omega
      · exfalso; obtain ⟨k, hk⟩ := hd0; omega
      · have h1 := hdvd d hd (by rintro h; rw [h] at hd0; exact absurd hd0 (by decide))
        have h2 := hdvd e he (by rintro h; rw [h] at he0; exact absurd he0 (by decide))
        rw [h] at h1
        have h3 := dvd_sub h2 h1
        rw [show ∀ x : ℤ, x - e 0 - (x - d 0) = d 0 - e 0 from fun x => by ring] at h3
        have a1 := abs_lt.1 (hd.2.1 0)
        have a2 := abs_lt.1 (he.2.1 0)
        have hp : (2 : ℤ) ^ w = 2 * 2 ^ (w - 1) := by rw [← pow_succ']; congr 1; omega
        have := Int.eq_zero_of_abs_lt_dvd h3 (by rw [abs_lt, hp]; constructor <;> omega)
        omega
    have hrest := ih (fun i => d (i + 1)) (fun i => e (i + 1)) (shift d hd) (shift e he) (by
      rw [split, split, h0] at h
      omega)
    intro i hi
    cases i with
    | zero => exact h0
    | succ i => exact hrest i (by omega)

/-- **C67** (the digits are determined): for windows of 2 to 7 bits and numbers up to 2^255 the digits are the only ones of
this kind that stand for the scalar. -/
theorem C67_unique (s : Sc) (n w : ℕ) (hs : IsNum s n) (hw : 2 ≤ w) (hw7 : w ≤ 7) (hn : n ≤ 2 ^ 255) (d : ℕ → ℤ) :
    (∀ i < 256, d i = ((slide s w).getD i 0).toInt) ∧ (∀ i, 256 ≤ i → d i = 0) ↔
      IsWindowed w d ∧ (∀ i, 256 ≤ i → d i = 0) ∧ ∑ i ∈ Finset.range 256, d i * 2 ^ i = n := by
  obtain ⟨h1, h2, h3, h4, h5⟩ := C67_slide s n w hs hw (by omega)
  have hsum : ∑ i ∈ Finset.range 256, ((slide s w).getD i 0).toInt * 2 ^ i = (n : ℤ) := by
    rcases h5 with h | ⟨h, _⟩
    · exact h
    · omega
  have hW : IsWindowed w fun i => ((slide s w).getD i 0).toInt :=
    ⟨h2, fun i => (h3 i).1, fun i j a b c => h4 i j a (by rw [min_eq_left hw7]; exact b) c⟩
  constructor
  · rintro ⟨g1, g2⟩
    have : d = fun i => ((slide s w).getD i 0).toInt := by
      funext i
      rcases Nat.lt_or_ge i 256 with h | h
      · exact g1 i h
      · rw [g2 i h, List.getD_eq_default _ _ (by omega)]; rfl
    subst this
    exact ⟨hW, g2, hsum⟩
  · rintro ⟨g1, g2, g3⟩
    exact ⟨windowed_unique w (by omega) 256 d _ g1 hW (g3.trans hsum.symm), g2⟩

/-- The scalar 2^253 - 5 meets the hypotheses for a window of 5 bits. -/
example : ∃ s, IsNum s (2 ^ 253 - 5) ∧
    ∑ i ∈ Finset.range 256, ((slide s 5).getD i 0).toInt * 2 ^ i = ((2 ^ 253 - 5 : ℕ) : ℤ) := by
  obtain ⟨s, hs, _⟩ := isNum_all (2 ^ 253 - 5) (by norm_num)
  refine ⟨s, hs, ?_⟩
  obtain ⟨_, _, _, _, h | ⟨h, _⟩⟩ := C67_slide s _ 5 hs (by norm_num) (by norm_num)
  · exact h
  · exact absurd h (by norm_num)

/-- The last case of `C67_slide` occurs: 2^256 - 1 becomes -1. -/
example : (slide maxSc 2).head? = some (-1) ∧ ∀ x ∈ (slide maxSc 2).tail, x = 0 := by decide +kernel

/-- **C67** is false of `scalar_slide` for windows of one bit: the digits of the scalar 1 all become 1. -/
theorem C67_false_for_one : IsNum scSetOne 1 ∧ ∀ i < 256, ((slide scSetOne 1).getD i 0).toInt = 1 := by
  constructor
  · unfold IsNum; decide +kernel
  · decide +kernel

end Ristretto.Props
