import Verif.Model.CrefSlide
import Verif.Spec.CrefScalar
import Verif.Proofs.CrefScalarOps
import Mathlib.Tactic.Linarith
import Mathlib.Tactic.Ring
import Mathlib.Algebra.Ring.Parity

/-!
# Sliding windows
-/

namespace Ristretto.Proofs.Cref.Slide
open Model Model.Cref
set_option autoImplicit false

/-- The number the digits stand for. -/
def val : List Int8 → ℤ
  | [] => 0
  | a :: r => a.toInt + 2 * val r

/-- Every entry is a bit. -/
def Bits (r : List Int8) : Prop := ∀ x ∈ r, x = 0 ∨ x = 1

theorem val_nonneg {r : List Int8} (h : Bits r) : 0 ≤ val r := by
  induction r with
  | nil => simp [val]
  | cons a r ih =>
    have h1 := ih fun x hx => h x (List.mem_cons_of_mem _ hx)
    have h2 : 0 ≤ a.toInt := by rcases h a (by simp) with h | h <;> subst h <;> decide
    simp only [val]; omega

theorem carry_spec (r : List Int8) (h : Bits r) :
    Bits (slideCarry r) ∧ (slideCarry r).length = r.length ∧
      ∃ c : ℤ, (c = 0 ∨ c = 1 ∧ val (slideCarry r) = 0) ∧ val (slideCarry r) + c * 2 ^ r.length = val r + 1 := by
  induction r with
  | nil => exact ⟨h, rfl, 1, Or.inr ⟨rfl, rfl⟩, by simp [slideCarry, val]⟩
  | cons a r ih =>
    have hr : Bits r := fun x hx => h x (List.mem_cons_of_mem _ hx)
    obtain ⟨i1, i2, c, i3, i4⟩ := ih hr
    unfold slideCarry
    rcases h a (by simp) with h0 | h0
    · subst h0
      rw [if_pos rfl]
      refine ⟨?_, rfl, 0, Or.inl rfl, ?_⟩
      · intro x hx
        rcases List.mem_cons.1 hx with h | h
        · exact Or.inr h
        · exact hr x h
      · simp only [val, show (1 : Int8).toInt = 1 from rfl, show (0 : Int8).toInt = 0 from rfl]; ring
    · subst h0
      rw [if_neg (by decide)]
      refine ⟨?_, by simp [i2], c, ?_, ?_⟩
      · intro x hx
        rcases List.mem_cons.1 hx with h | h
        · exact Or.inl h
        · exact i1 x h
      · rcases i3 with h | ⟨h, h'⟩
        · exact Or.inl h
        · exact Or.inr ⟨h, by simp [val, h']⟩
      · simp only [val, show (1 : Int8).toInt = 1 from rfl, show (0 : Int8).toInt = 0 from rfl, List.length_cons, pow_succ]
        linear_combination 2 * i4

/-- After the window nothing changes. -/
theorem inner_done (w : ℕ) (n b : ℕ) (a : Int8) (r : List Int8) (hr : Bits r) (hw : 1 ≤ w) (hb : w ≤ b)
    (ha : |a.toInt| ≤ 2 ^ (w - 1) - 1) : slideInner (2 ^ (w - 1) - 1) n b a r = (a, r) := by
  induction n generalizing b r with
  | zero => cases r <;> rfl
  | succ n ih =>
    cases r with
    | nil => rfl
    | cons x r =>
      have hr' : Bits r := fun x hx => hr x (List.mem_cons_of_mem _ hx)
      have ha' := abs_le.1 ha
      have hofInt : Int8.ofInt a.toInt = a := Int8.ofInt_toInt a
      rcases hr x (by simp) with h0 | h0
      · subst h0
        unfold slideInner
        simp only [show (0 : Int8).toInt = 0 from rfl, zero_mul, add_zero]
        rw [if_pos ha'.2, hofInt, ih (b + 1) r hr' (by omega)]
      · subst h0
        have hp : (2 : ℤ) ^ w ≤ 2 ^ b := pow_le_pow_right₀ (by norm_num) hb
        have hp2 : (2 : ℤ) ^ w = 2 * 2 ^ (w - 1) := by rw [← pow_succ']; congr 1; omega
        unfold slideInner
        simp only [show (1 : Int8).toInt = 1 from rfl, one_mul]
        rw [if_neg (by linarith [ha'.1]), if_neg (by have := ha'.2; intro h; linarith), if_pos (by decide)]

/-- Leading zeros. -/
def Zeros (k : ℕ) (r : List Int8) : Prop := ∀ x ∈ r.take k, x = 0

theorem zeros_cons {k : ℕ} {r : List Int8} (h : Zeros k r) : Zeros (k + 1) (0 :: r) := by
  intro x hx
  rw [List.take_succ_cons] at hx
  rcases List.mem_cons.1 hx with h' | h'
  · exact h'
  · exact h x h'

/-- What the loop over `b` establishes. -/
structure Window (w b : ℕ) (a : Int8) (r : List Int8) (p : Int8 × List Int8) : Prop where
  bits : Bits p.2
  len : p.2.length = r.length
  zeros : Zeros (min w 7 - b) p.2
  small : |p.1.toInt| ≤ 2 ^ (w - 1) - 1
  small7 : -2 ^ (min w 7 - 1) < p.1.toInt
  odd : p.1.toInt % 2 = 1
  sum : ∃ c : ℤ, (c = 0 ∨ c = 1 ∧ val p.2 = 0 ∧ w ≤ b + r.length) ∧
    p.1.toInt + 2 ^ b * val p.2 + c * 2 ^ (b + r.length) = a.toInt + 2 ^ b * val r

theorem ofInt_small {x : ℤ} (h1 : -128 ≤ x) (h2 : x < 128) : (Int8.ofInt x).toInt = x := by
  rw [Int8.toInt_ofInt, Int.bmod_eq_of_le] <;> norm_num <;> omega

theorem inner_spec (w : ℕ) (hw : 2 ≤ w) (n b : ℕ) (a : Int8) (r : List Int8) (hn : n + b = 7) (hb1 : 1 ≤ b) (hb : b + 1 ≤ w)
    (hr : Bits r) (ha0 : 0 < a.toInt) (ha : a.toInt < 2 ^ b) (hodd : a.toInt % 2 = 1) :
    Window w b a r (slideInner (2 ^ (w - 1) - 1) n b a r) := by
  induction n generalizing b a r with
  | zero =>
    have : slideInner (2 ^ (w - 1) - 1) 0 b a r = (a, r) := by cases r <;> rfl
    rw [this]
    have hp : (2 : ℤ) ^ b ≤ 2 ^ (w - 1) := pow_le_pow_right₀ (by norm_num) (by omega)
    refine ⟨hr, rfl, ?_, ?_, ?_, hodd, 0, Or.inl rfl, by simp⟩
    · rw [show min w 7 - b = 0 by omega]; simp [Zeros]
    · rw [abs_of_pos ha0]; change a.toInt ≤ _; omega
    · have : (0 : ℤ) < 2 ^ (min w 7 - 1) := by positivity
      change _ < a.toInt; omega
  | succ n ih =>
    have hp : (2 : ℤ) ^ b ≤ 2 ^ (w - 1) := pow_le_pow_right₀ (by norm_num) (by omega)
    have hpos : (0 : ℤ) < 2 ^ (min w 7 - 1) := by positivity
    cases r with
    | nil =>
      refine ⟨hr, rfl, by simp [Zeros, slideInner], ?_, ?_, hodd, 0, Or.inl rfl, by simp [slideInner]⟩
      · change |a.toInt| ≤ _; rw [abs_of_pos ha0]; omega
      · change _ < a.toInt; omega
    | cons x r =>
      have hr' : Bits r := fun x hx => hr x (List.mem_cons_of_mem _ hx)
      have hb6 : b ≤ 6 := by omega
      have h64 : (2 : ℤ) ^ b ≤ 2 ^ 6 := pow_le_pow_right₀ (by norm_num) hb6
      have he : (2 : ℤ) ^ b % 2 = 0 := by
        obtain ⟨k, rfl⟩ : ∃ k, b = k + 1 := ⟨b - 1, by omega⟩
        rw [pow_succ]; omega
      norm_num at h64
      rcases Nat.lt_or_ge (b + 1) w with hlt | hge
      · -- the bit goes into the digit
        have hp' : (2 : ℤ) * 2 ^ b ≤ 2 ^ (w - 1) := by
          rw [← pow_succ']; exact pow_le_pow_right₀ (by norm_num) (by omega)
        have hx : x.toInt = 0 ∨ x.toInt = 1 := by
          rcases hr x (by simp) with h | h <;> subst h
          · exact Or.inl rfl
          · exact Or.inr rfl
        have hx2 : a.toInt + x.toInt * 2 ^ b < 2 * 2 ^ b ∧ 0 < a.toInt + x.toInt * 2 ^ b ∧
            (a.toInt + x.toInt * 2 ^ b) % 2 = 1 := by rcases hx with h | h <;> rw [h] <;> omega
        have ho := ofInt_small (x := a.toInt + x.toInt * 2 ^ b) (by omega) (by omega)
        have hI := ih (b + 1) (Int8.ofInt (a.toInt + x.toInt * 2 ^ b)) r (by omega) (by omega) (by omega) hr'
          (by rw [ho]; exact hx2.2.1) (by rw [ho, pow_succ']; exact hx2.1) (by rw [ho]; exact hx2.2.2)
        unfold slideInner
        rw [if_pos (by omega)]
        obtain ⟨c, hc, hs⟩ := hI.sum
        refine ⟨?_, congrArg (· + 1) hI.len, ?_, hI.small, hI.small7, hI.odd, c, ?_, ?_⟩
        · intro y hy
          rcases List.mem_cons.1 hy with h | h
          · exact Or.inl h
          · exact hI.bits y h
        · rw [show min w 7 - b = (min w 7 - (b + 1)) + 1 by omega]
          exact zeros_cons hI.zeros
        · rcases hc with h | ⟨h1, h2, h3⟩
          · exact Or.inl h
          · refine Or.inr ⟨h1, ?_, ?_⟩
            · simp only [val, h2]; rfl
            · simp only [List.length_cons]; omega
        · rw [ho] at hs
          simp only [val, List.length_cons, show (0 : Int8).toInt = 0 from rfl]
          rw [show b + (r.length + 1) = b + 1 + r.length by omega]
          rw [pow_succ] at hs
          linear_combination hs
      · -- the last bit of the window
        obtain rfl : w = b + 1 := by omega
        simp only [Nat.add_sub_cancel] at *
        rcases hr x (by simp) with h0 | h0
        · subst h0
          have hd := inner_done (b + 1) n (b + 1) a r hr' (by omega) le_rfl
            (by simp only [Nat.add_sub_cancel]; rw [abs_of_pos ha0]; omega)
          simp only [Nat.add_sub_cancel] at hd
          unfold slideInner
          simp only [show (0 : Int8).toInt = 0 from rfl, zero_mul, add_zero, Int8.ofInt_toInt]
          rw [if_pos (by omega), hd]
          refine ⟨hr, rfl, ?_, ?_, ?_, hodd, 0, Or.inl rfl, by simp⟩
          · rw [show min (b + 1) 7 - b = 0 + 1 by omega]
            exact zeros_cons (by simp [Zeros])
          · simp only [Nat.add_sub_cancel]; rw [abs_of_pos ha0]; omega
          · exact lt_trans (by omega) ha0
        · subst h0
          have ho := ofInt_small (x := a.toInt - 2 ^ b) (by omega) (by omega)
          obtain ⟨c1, c2, c, c3, c4⟩ := carry_spec r hr'
          have hd := inner_done (b + 1) n (b + 1) (Int8.ofInt (a.toInt - 2 ^ b)) (slideCarry r) c1 (by omega) le_rfl
            (by simp only [Nat.add_sub_cancel]; rw [ho, abs_le]; constructor <;> omega)
          simp only [Nat.add_sub_cancel] at hd
          unfold slideInner
          simp only [show (1 : Int8).toInt = 1 from rfl, one_mul]
          rw [if_neg (by omega), if_pos (by omega)]
          have hsc : slideCarry (1 :: r) = 0 :: slideCarry r := by
            conv_lhs => unfold slideCarry
            rw [if_neg (by decide)]
          simp only [hsc, List.tail_cons, List.headD_cons, hd]
          refine ⟨?_, by simp [c2], ?_, ?_, ?_, ?_, c, ?_, ?_⟩
          · intro y hy
            rcases List.mem_cons.1 hy with h | h
            · exact Or.inl h
            · exact c1 y h
          · rw [show min (b + 1) 7 - b = 0 + 1 by omega]
            exact zeros_cons (by simp [Zeros])
          · simp only [Nat.add_sub_cancel]; rw [ho, abs_le]; constructor <;> omega
          · simp only [ho]
            rw [show min (b + 1) 7 - 1 = b by omega]; omega
          · simp only [ho]; omega
          · rcases c3 with h | ⟨h1, h2⟩
            · exact Or.inl h
            · refine Or.inr ⟨h1, ?_, ?_⟩
              · simp only [val, h2]; rfl
              · simp only [List.length_cons]; omega
          · simp only [val, ho, List.length_cons, show (0 : Int8).toInt = 0 from rfl, show (1 : Int8).toInt = 1 from rfl]
            rw [show b + (r.length + 1) = b + 1 + r.length by omega, pow_add, pow_succ]
            linear_combination 2 * 2 ^ b * c4

/-- A digit that is not zero is followed by `k - 1` zeros. -/
def Sparse (k : ℕ) : List Int8 → Prop
  | [] => True
  | a :: r => (a ≠ 0 → Zeros (k - 1) r) ∧ Sparse k r

theorem loop_zeros (m : ℤ) (k n : ℕ) (r : List Int8) (h : Zeros k r) : Zeros k (slideLoop m n r) := by
  induction n generalizing k r with
  | zero => cases r <;> exact h
  | succ n ih =>
    cases r with
    | nil => exact h
    | cons a r =>
      cases k with
      | zero => simp [Zeros]
      | succ k =>
        have ha : a = 0 := h a (by simp)
        subst ha
        unfold slideLoop
        rw [if_neg (by simp)]
        exact zeros_cons (ih k r fun x hx => h x (by rw [List.take_succ_cons]; exact List.mem_cons_of_mem _ hx))

theorem zeros_dvd (k : ℕ) (r : List Int8) (h : Zeros k r) : (2 : ℤ) ^ k ∣ val r := by
  induction k generalizing r with
  | zero => simp
  | succ k ih =>
    cases r with
    | nil => simp [val]
    | cons a r =>
      have ha : a = 0 := h a (by simp)
      subst ha
      simp only [val, show (0 : Int8).toInt = 0 from rfl, zero_add, pow_succ']
      exact mul_dvd_mul_left _ (ih r fun x hx => h x (by rw [List.take_succ_cons]; exact List.mem_cons_of_mem _ hx))

theorem zeros_all (k : ℕ) (r : List Int8) (h : Zeros k r) (hk : r.length ≤ k) : val r = 0 := by
  induction r generalizing k with
  | nil => rfl
  | cons a r ih =>
    obtain ⟨k, rfl⟩ : ∃ k', k = k' + 1 := ⟨k - 1, by simp only [List.length_cons] at hk; omega⟩
    have ha : a = 0 := h a (by simp)
    subst ha
    simp only [val]
    rw [ih k (fun x hx => h x (by rw [List.take_succ_cons]; exact List.mem_cons_of_mem _ hx))
      (by simp only [List.length_cons] at hk; omega)]
    rfl

theorem loop_spec (w : ℕ) (hw : 2 ≤ w) (n : ℕ) (r : List Int8) (hr : Bits r) (hl : r.length = n) :
    let q := slideLoop (2 ^ (w - 1) - 1) n r
    q.length = n ∧ (∀ x ∈ q, (x = 0 ∨ x.toInt % 2 = 1) ∧ |x.toInt| ≤ 2 ^ (w - 1) - 1 ∧ -128 < x.toInt) ∧
      Sparse (min w 7) q ∧
      ∃ c : ℤ, (c = 0 ∨ c = 1 ∧ 2 ^ n < 2 * val r) ∧ val q + c * 2 ^ n = val r := by
  induction n generalizing r with
  | zero =>
    cases r with
    | nil => exact ⟨rfl, by simp [slideLoop], trivial, 0, Or.inl rfl, by simp [slideLoop]⟩
    | cons a r => simp at hl
  | succ n ih =>
    cases r with
    | nil => simp at hl
    | cons a r =>
      have hr' : Bits r := fun x hx => hr x (List.mem_cons_of_mem _ hx)
      have hl' : r.length = n := by simpa using hl
      have hm : (0 : ℤ) < 2 ^ (w - 1) := by positivity
      rcases hr a (by simp) with h0 | h0
      · subst h0
        obtain ⟨i1, i2, i3, c, i4, i5⟩ := ih r hr' hl'
        unfold slideLoop
        rw [if_neg (by simp)]
        simp only
        refine ⟨by simp [i1], ?_, ⟨fun h => absurd rfl h, i3⟩, c, ?_, ?_⟩
        · intro x hx
          rcases List.mem_cons.1 hx with h | h
          · subst h
            refine ⟨Or.inl rfl, ?_, by decide⟩
            change |(0 : ℤ)| ≤ _
            rw [abs_zero]; omega
          · exact i2 x h
        · rcases i4 with h | ⟨h, h'⟩
          · exact Or.inl h
          · refine Or.inr ⟨h, ?_⟩
            simp only [val, show (0 : Int8).toInt = 0 from rfl, pow_succ]; linarith
        · simp only [val, show (0 : Int8).toInt = 0 from rfl, pow_succ]
          linear_combination 2 * i5
      · subst h0
        have hW := inner_spec w hw 6 1 1 r rfl le_rfl hw hr' (by decide) (by decide) (by decide)
        unfold slideLoop
        rw [if_pos (by decide)]
        simp only
        generalize slideInner (2 ^ (w - 1) - 1) 6 1 1 r = p at hW
        obtain ⟨i1, i2, i3, c, i4, i5⟩ := ih p.2 hW.bits (by rw [hW.len, hl'])
        obtain ⟨d, j4, j5⟩ := hW.sum
        have hp7 : (2 : ℤ) ^ (min w 7 - 1) ≤ 2 ^ 6 := pow_le_pow_right₀ (by norm_num) (by omega)
        norm_num at hp7
        have h7 := hW.small7
        rw [hl'] at j4 j5
        simp only [pow_one, show (1 : Int8).toInt = 1 from rfl] at j5
        refine ⟨by simp [i1], ?_, ⟨fun _ => loop_zeros _ _ _ _ hW.zeros, i3⟩, c + d, ?_, ?_⟩
        · intro x hx
          rcases List.mem_cons.1 hx with h | h
          · subst h
            exact ⟨Or.inr hW.odd, hW.small, by omega⟩
          · exact i2 x h
        · have hn0 : (0 : ℤ) < 2 ^ n := by positivity
          rcases j4 with hd | ⟨hd, hv, hwn⟩
          · rcases i4 with hc | ⟨hc, hc'⟩
            · exact Or.inl (by omega)
            · refine Or.inr ⟨by omega, ?_⟩
              subst hd
              -- the rest starts with zeros
              rcases Nat.lt_or_ge n (min w 7) with hlt | hge
              · exfalso
                rw [zeros_all _ _ hW.zeros (by rw [hW.len, hl']; omega)] at hc'
                omega
              · obtain ⟨t, ht⟩ := zeros_dvd _ _ hW.zeros
                have e1 : (2 : ℤ) ^ n = 2 ^ (min w 7 - 1) * (2 * 2 ^ (n - min w 7)) := by
                  rw [← pow_succ', ← pow_add]; congr 1; omega
                have hM : (0 : ℤ) < 2 ^ (min w 7 - 1) := by positivity
                have h2 : 2 ^ (n - min w 7) < t := by
                  rw [ht, e1] at hc'
                  have : (2 : ℤ) ^ (min w 7 - 1) * (2 * 2 ^ (n - min w 7)) < 2 ^ (min w 7 - 1) * (2 * t) := by linarith
                  have := lt_of_mul_lt_mul_left this hM.le
                  linarith
                have h3 : (2 : ℤ) ^ (min w 7 - 1) * (2 ^ (n - min w 7) + 1) ≤ 2 ^ (min w 7 - 1) * t :=
                  mul_le_mul_of_nonneg_left (by omega) hM.le
                simp only [val, show (1 : Int8).toInt = 1 from rfl, pow_succ]
                rw [ht] at j5
                rw [e1]
                nlinarith
          · refine Or.inr ?_
            have hc : c = 0 := by
              rcases i4 with hc | ⟨hc, hc'⟩
              · exact hc
              · rw [hv] at hc'; omega
            refine ⟨by omega, ?_⟩
            subst hc hd
            rw [hv] at j5
            have e2 : (2 : ℤ) ^ (w - 1) ≤ 2 ^ n := pow_le_pow_right₀ (by norm_num) (by omega)
            have := (abs_le.1 hW.small).1
            simp only [val, show (1 : Int8).toInt = 1 from rfl, pow_succ]
            rw [pow_add] at j5
            linarith
        · simp only [val, show (1 : Int8).toInt = 1 from rfl]
          rw [pow_add] at j5
          rw [pow_succ]
          linear_combination j5 + 2 * i5

/-! ## The starting digits -/

theorem bits_byte : ∀ b : UInt8, Bits (slideBits b.toUInt32) ∧ val (slideBits b.toUInt32) = b.toNat := by
  have : ∀ b : UInt8, (slideBits b.toUInt32).all (fun x => decide (x = 0 ∨ x = 1)) = true ∧
      val (slideBits b.toUInt32) = b.toNat := uint8_forall (by decide +kernel)
  intro b
  refine ⟨fun x hx => ?_, (this b).2⟩
  have := List.all_eq_true.1 (this b).1 x hx
  simpa using this

theorem val_append (r q : List Int8) : val (r ++ q) = val r + 2 ^ r.length * val q := by
  induction r with
  | nil => simp [val]
  | cons a r ih => simp only [List.cons_append, val, ih, List.length_cons, pow_succ]; ring

theorem sum_digits (f : ℕ → ℤ) (r : List Int8) (hf : ∀ i, i < r.length → f i = (r.getD i 0).toInt) :
    ∑ i ∈ Finset.range r.length, f i * 2 ^ i = val r := by
  induction r generalizing f with
  | nil => simp [val]
  | cons a r ih =>
    rw [List.length_cons, Finset.sum_range_succ']
    have h0 := hf 0 (by simp)
    have := ih (fun i => f (i + 1)) fun i hi => by
      rw [hf (i + 1) (by simpa using hi)]; simp
    simp only [val, ← this, Finset.mul_sum]
    rw [h0]
    simp only [List.getD_cons_zero, pow_zero, mul_one]
    rw [add_comm]
    congr 1
    apply Finset.sum_congr rfl
    intro i _
    ring

theorem sparse_get (k : ℕ) (r : List Int8) (h : Sparse k r) (i j : ℕ) (hij : i < j) (hj : j < i + k)
    (hi : r.getD i 0 ≠ 0) : r.getD j 0 = 0 := by
  induction r generalizing i j with
  | nil => simp
  | cons a r ih =>
    obtain ⟨j, rfl⟩ : ∃ j', j = j' + 1 := ⟨j - 1, by omega⟩
    rw [List.getD_cons_succ]
    cases i with
    | zero =>
      have hz := h.1 (by simpa using hi)
      rcases Nat.lt_or_ge j r.length with hlt | hge
      · apply hz
        rw [List.getD_eq_getElem _ _ hlt, List.mem_take_iff_getElem]
        exact ⟨j, by omega, rfl⟩
      · exact List.getD_eq_default _ _ hge
    | succ i =>
      rw [List.getD_cons_succ] at hi
      exact ih h.2 i j (by omega) (by omega) hi

end Ristretto.Proofs.Cref.Slide
