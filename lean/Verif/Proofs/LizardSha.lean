import Verif.Proofs.Lizard

/-!
# Lizard with SHA-256 avoids the neutral class

No 16-byte string is mapped to the neutral element by `SetLizard`: there are seven nonnegative
Elligator preimages of the neutral class, and none of them has the form `SetLizard` gives them.
-/

namespace Ristretto.Proofs
open Model FieldOps LawfulField
set_option autoImplicit false

/-- The nonnegative preimages of the neutral class under Elligator. -/
def neutralNats : List ℕ := [0,
  2578418914173623657462452400132853037496623284081085243786733881681055062952,
  347587707554176910664335222571809819192038173877021618066561357284830225728,
  1014073744886513915643452089785527733845427619523169982108214860138893143484,
  34825752059744375583577518582602006141885380469198416819130159195244776809258,
  57621500328071765443412364328444458253814430222463884145290017356888500046854,
  43141456302548376282283923673343894058873340594493144585293337925591202057890]

theorem nat_nonneg {n : ℕ} (h : n < p) (he : n % 2 = 0) : ¬ IsNeg (n : Fp) := by
  unfold IsNeg
  rw [ZMod.val_natCast, Nat.mod_eq_of_lt h, he]
  norm_num

theorem isNeg_one : IsNeg (1 : Fp) := by
  unfold IsNeg
  have : ((1 : ℕ) : Fp).val = 1 := by rw [ZMod.val_natCast, Nat.mod_eq_of_lt (by norm_num [p])]
  rw [Nat.cast_one] at this
  rw [this]

theorem not_isNeg_neg_one : ¬ IsNeg (-1 : Fp) := by
  rw [isNeg_neg (by norm_num : (1 : Fp) ≠ 0)]
  exact not_not.2 isNeg_one

theorem sq_cancel {x c A B : Fp} (hA : A ≠ 0) (h : sqrtM1 * (x * x) * A = B) (h' : sqrtM1 * (c * c) * A = B) :
    x * x = c * c := by
  apply mul_left_cancel₀ sqrtM1_ne_zero
  exact mul_right_cancel₀ hA (h.trans h'.symm)

/-- `i`, as a number. -/
def iN : ℕ := 19681161376707505956807079304988542015446066515923890162744021073123829784752
/-- `eC`, as a number. -/
def eN : ℕ := 3426737609748780790789678635598812321241395039892825098523479107644843802371

theorem iN_eq : sqrtM1 = (iN : Fp) := rfl
theorem eN_eq : eC = (eN : Fp) := rfl

theorem cancel_dm1 {x y : Fp} (h : x * (d - 1) = y * (d - 1)) : x = y :=
  mul_right_cancel₀ d_sub_one_ne_zero h

theorem neutral_nat {x : Fp} (hn : ¬ IsNeg x) (h : ellMap x = 0) : x.val ∈ neutralNats := by
  have key : ∀ c : ℕ, c < p → c % 2 = 0 → c ∈ neutralNats → x * x = (c : Fp) * (c : Fp) → x.val ∈ neutralNats := by
    intro c h1 h2 h3 h4
    have := eq_of_sq_eq hn (nat_nonneg h1 h2) h4
    rw [this, ZMod.val_natCast, Nat.mod_eq_of_lt h1]
    exact h3
  rw [← cls_zero, ellMap_eq_iff] at h
  obtain ⟨P, ⟨s, t, hj, ho⟩, hE⟩ := h
  rw [sub_zero] at hE
  have hon := onJac_of_elligator hj
  have hd := d_eq
  rcases neutral_pairs hon ho hE with ⟨rfl, -⟩ | ⟨rfl, rfl⟩ | ⟨rfl, rfl⟩ | ⟨rfl, rfl⟩ | ⟨rfl, rfl⟩
  · obtain ⟨-, h0 | h0⟩ := elligatorJac_zero_iff.1 hj
    · subst h0; rw [ZMod.val_zero]; decide
    · rcases (ellD_zero_iff _).1 h0 with h1 | h1
      · refine key 2578418914173623657462452400132853037496623284081085243786733881681055062952
          (by norm_num [p]) (by norm_num) (by decide) ?_
        rw [h1, ← sqrtID_sq]; rfl
      · refine key 347587707554176910664335222571809819192038173877021618066561357284830225728
          (by norm_num [p]) (by norm_num) (by decide) ?_
        have h2 : ((347587707554176910664335222571809819192038173877021618066561357284830225728 *
          347587707554176910664335222571809819192038173877021618066561357284830225728 * dNat : ℕ) : Fp) = (iN : ℕ) :=
          natCast_eq_of_mod (by decide +kernel)
        apply mul_right_cancel₀ d_ne_zero
        rw [h1, iN_eq, ← h2, hd]
        push_cast; ring
  · -- s = 1, t = 2 i e
    have hs : (1 : Fp) ≠ 0 := one_ne_zero
    obtain ⟨hm, hp⟩ := s4_sub_a2_ne hon hs
    rw [elligatorJac_neg_iff hon hs isNeg_one] at hj
    refine key 1014073744886513915643452089785527733845427619523169982108214860138893143484
      (by norm_num [p]) (by norm_num) (by decide) (sq_cancel hp hj ?_)
    have ha := ellA_mul (2 * sqrtM1 * eC)
    generalize hc : (1014073744886513915643452089785527733845427619523169982108214860138893143484 : ℕ) = c
    have h2 : ((c * c * iN * (dNat + (2 * iN * eN + 1) * (dNat + 1)) + 1 + (2 * iN * eN + 1) * (dNat + 1) : ℕ) : Fp) =
        ((dNat + c * c * iN : ℕ) : Fp) := natCast_eq_of_mod (by subst hc; decide +kernel)
    push_cast at h2
    rw [← hd, ← iN_eq, ← eN_eq] at h2
    apply cancel_dm1
    linear_combination h2 + (sqrtM1 * (c * c : Fp) + 1) * ha
  · -- s = -1, t = -2 i e
    have hs : (-1 : Fp) ≠ 0 := neg_ne_zero.2 one_ne_zero
    obtain ⟨hm, hp⟩ := s4_sub_a2_ne hon hs
    rw [elligatorJac_pos_iff hon hs not_isNeg_neg_one] at hj
    refine key 43141456302548376282283923673343894058873340594493144585293337925591202057890
      (by norm_num [p]) (by norm_num) (by decide) (sq_cancel hm hj ?_)
    have ha := ellA_mul (-(2 * sqrtM1 * eC))
    generalize hc : (43141456302548376282283923673343894058873340594493144585293337925591202057890 : ℕ) = c
    have h2 : ((c * c * iN * (2 * iN * eN * (dNat + 1)) + 2 * iN * eN * (dNat + 1) : ℕ) : Fp) =
        ((2 * dNat + 2 * (c * c * iN) : ℕ) : Fp) := natCast_eq_of_mod (by subst hc; decide +kernel)
    push_cast at h2
    rw [← hd, ← iN_eq, ← eN_eq] at h2
    apply cancel_dm1
    linear_combination h2 - (sqrtM1 * (c * c : Fp) + 1) * ha
  · -- s = -1, t = 2 i e
    have hs : (-1 : Fp) ≠ 0 := neg_ne_zero.2 one_ne_zero
    obtain ⟨hm, hp⟩ := s4_sub_a2_ne hon hs
    rw [elligatorJac_pos_iff hon hs not_isNeg_neg_one] at hj
    refine key 57621500328071765443412364328444458253814430222463884145290017356888500046854
      (by norm_num [p]) (by norm_num) (by decide) (sq_cancel hm hj ?_)
    have ha := ellA_mul (2 * sqrtM1 * eC)
    generalize hc : (57621500328071765443412364328444458253814430222463884145290017356888500046854 : ℕ) = c
    have h2 : ((c * c * iN * dNat + 1 : ℕ) : Fp) =
        ((c * c * iN * (1 + (2 * iN * eN + 1) * (dNat + 1)) + dNat + (2 * iN * eN + 1) * (dNat + 1) : ℕ) : Fp) :=
      natCast_eq_of_mod (by subst hc; decide +kernel)
    push_cast at h2
    rw [← hd, ← iN_eq, ← eN_eq] at h2
    apply cancel_dm1
    linear_combination h2 - (sqrtM1 * (c * c : Fp) + 1) * ha
  · -- s = 1, t = -2 i e
    have hs : (1 : Fp) ≠ 0 := one_ne_zero
    obtain ⟨hm, hp⟩ := s4_sub_a2_ne hon hs
    rw [elligatorJac_neg_iff hon hs isNeg_one] at hj
    refine key 34825752059744375583577518582602006141885380469198416819130159195244776809258
      (by norm_num [p]) (by norm_num) (by decide) (sq_cancel hp hj ?_)
    have ha := ellA_mul (-(2 * sqrtM1 * eC))
    generalize hc : (34825752059744375583577518582602006141885380469198416819130159195244776809258 : ℕ) = c
    have h2 : ((c * c * iN * (2 * dNat) + 2 : ℕ) : Fp) =
        ((2 * iN * eN * (dNat + 1) + c * c * iN * (2 * iN * eN * (dNat + 1)) : ℕ) : Fp) :=
      natCast_eq_of_mod (by subst hc; decide +kernel)
    push_cast at h2
    rw [← hd, ← iN_eq, ← eN_eq] at h2
    apply cancel_dm1
    linear_combination h2 + (sqrtM1 * (c * c : Fp) + 1) * ha

/-- A hash function for which no Lizard input hits the neutral class. -/
def AvoidsNeutral (H : List UInt8 → Bytes 32) : Prop := ∀ data, ellMap (lizFe H data) ≠ 0

theorem avoids_of_check {H : List UInt8 → Bytes 32}
    (h : ∀ n ∈ neutralNats, Point.lizardBuf H (slice (leBytes 32 n) 8 16) ≠ leBytes 32 n) : AvoidsNeutral H := by
  intro data h0
  have hm := neutral_nat (lizFe_nonneg H data) h0
  apply h _ hm
  have hv : Point.lizardBuf H data = leBytes 32 (lizFe H data).val := by
    apply leVal_inj
    rw [leVal_leBytes, lizFe_val, Nat.mod_eq_of_lt]
    exact leVal_lt (n := 32) _
  rw [← hv, slice_lizardBuf]

/-- SHA-256 is such a function. -/
theorem sha256_avoids : AvoidsNeutral Sha256.sha256 := avoids_of_check (by decide +kernel)

end Ristretto.Proofs
