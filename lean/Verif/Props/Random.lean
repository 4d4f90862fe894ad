import Verif.Props.Elligator
import Verif.Props.Scalars
import Verif.Props.Group
import Verif.Proofs.LeBytes
import Mathlib.Data.Int.CardIntervalMod
import Mathlib.Data.Set.Card
import Mathlib.SetTheory.Cardinal.Finite

/-!
# C58, C59: how the random scalars and points are distributed

`Rand` is a function of the bytes that `crypto/rand` delivers.  The theorems count, for each result, the buffers
that give it; they say how the result is distributed if the bytes are uniform.
-/

namespace Ristretto.Props
open Model Proofs
set_option autoImplicit false

/-! ## Buffers and numbers -/

/-- Buffers of `n` bytes are the numbers below `256^n`. -/
def bufEquiv (n : ℕ) : Bytes n ≃ Fin (256 ^ n) where
  toFun b := ⟨leVal b, leVal_lt b⟩
  invFun x := leBytes n x
  left_inv b := leVal_inj (by rw [leVal_leBytes, Nat.mod_eq_of_lt (leVal_lt b)])
  right_inv x := by
    apply Fin.ext
    change leVal (leBytes n x) = x
    rw [leVal_leBytes, Nat.mod_eq_of_lt x.2]

instance (n : ℕ) : Finite (Bytes n) := Finite.of_equiv _ (bufEquiv n).symm

theorem buf_total (n : ℕ) : Nat.card (Bytes n) = 256 ^ n := by
  rw [Nat.card_congr (bufEquiv n), Nat.card_eq_fintype_card, Fintype.card_fin]

/-- The number of buffers with a property of their value. -/
theorem buf_card (n : ℕ) (P : ℕ → Prop) [DecidablePred P] :
    Nat.card {b : Bytes n // P (leVal b)} = (256 ^ n).count P := by
  let _ := Nat.CountSet.fintype P (256 ^ n)
  rw [Nat.count_eq_card_fintype, ← Nat.card_eq_fintype_card]
  refine Nat.card_congr ⟨fun b => ⟨leVal b.1, leVal_lt b.1, b.2⟩, fun x => ⟨leBytes n x.1, ?_⟩, fun b => ?_, fun x => ?_⟩
  · rw [leVal_leBytes, Nat.mod_eq_of_lt x.2.1]; exact x.2.2
  · apply Subtype.ext
    apply leVal_inj
    change leVal (leBytes n (leVal b.1)) = _
    rw [leVal_leBytes, Nat.mod_eq_of_lt (leVal_lt b.1)]
  · apply Subtype.ext
    change leVal (leBytes n x.1) = _
    rw [leVal_leBytes, Nat.mod_eq_of_lt x.2.1]

/-- **C58**: of the `2^512` buffers, each reduced scalar is the result of `2^512 / l` or one more. -/
theorem C58_scalar (r : ℕ) (hr : r < l) :
    Nat.card {b : Bytes 64 // scVal (Scalar.rand b) = r} = 2 ^ 512 / l ∨
    Nat.card {b : Bytes 64 // scVal (Scalar.rand b) = r} = 2 ^ 512 / l + 1 := by
  have h : ∀ b : Bytes 64, scVal (Scalar.rand b) = r ↔ leVal b ≡ r [MOD l] := fun b => by
    unfold Scalar.rand
    rw [setReduced_val, Nat.ModEq, Nat.mod_eq_of_lt hr]
  rw [Nat.card_congr (Equiv.subtypeEquivRight h), buf_card 64 (fun x => x ≡ r [MOD l]), Nat.count_modEq_card _ (by norm_num [l])]
  rw [show (256 : ℕ) ^ 64 = 2 ^ 512 by decide +kernel]
  generalize 2 ^ 512 = N
  split
  · exact .inr rfl
  · exact .inl (Nat.add_zero _)

/-- All scalars are reduced, so these are all results. -/
theorem C58_range (b : Bytes 64) : scVal (Scalar.rand b) < l := by
  unfold Scalar.rand
  rw [setReduced_val]
  exact Nat.mod_lt _ (by norm_num [l])

/-- The two numbers of `C58_scalar` differ by less than one part in `2^259`. -/
example : 2 ^ 259 < 2 ^ 512 / l ∧ 0 < l := by decide +kernel

/-! ## Points -/

theorem represents_unique {q : ExtPt Fe51} {g h : RGroup} (hg : Represents q g) (hh : Represents q h) : g = h :=
  (equals_iff q q g h hg hh).1 ((equals_iff q q g g hg hg).2 rfl)

/-- The elements that Elligator maps to `g`, up to sign. -/
abbrev NonNegPre (g : RGroup) := {x : Fp // ¬ IsNeg x ∧ ellMap x = g}

theorem card_le_of_list {α : Type*} {P : α → Prop} (L : List α) (h : ∀ x, P x → x ∈ L) :
    Finite {x // P x} ∧ Nat.card {x // P x} ≤ L.length := by
  classical
  have hs : {x | P x} ⊆ ↑L.toFinset := fun x hx => by simpa using h x hx
  have hf : {x | P x}.Finite := L.toFinset.finite_toSet.subset hs
  refine ⟨hf, ?_⟩
  have h1 := Set.ncard_le_ncard hs L.toFinset.finite_toSet
  rw [Set.ncard_coe_finset] at h1
  exact h1.trans L.toFinset_card_le

/-- The field elements flagged for the neutral element. -/
def neutralPre : List ℕ :=
  [2578418914173623657462452400132853037496623284081085243786733881681055062952, 0,
   1014073744886513915643452089785527733845427619523169982108214860138893143484,
   43141456302548376282283923673343894058873340594493144585293337925591202057890,
   57621500328071765443412364328444458253814430222463884145290017356888500046854,
   34825752059744375583577518582602006141885380469198416819130159195244776809258]

set_option maxRecDepth 100000 in
theorem neutralPre_spec : ∀ e ∈ ristrettoElligator2Inverse (ExtPt.zero : ExtPt Fe51), feNat e.1 % p ∈ neutralPre := by
  decide +kernel

theorem nonNegPre_card (g : RGroup) : Finite (NonNegPre g) ∧ Nat.card (NonNegPre g) ≤ 8 := by
  by_cases hg : g = 0
  · subst hg
    have h0 := C36_neutral_partial (ExtPt.zero : ExtPt Fe51) (represents_iff.2 holds_zero)
    have h2 := card_le_of_list (P := fun x => ¬ IsNeg x ∧ ellMap x = 0)
      (missed :: (neutralPre.map fun x => ((x : ℕ) : Fp))) ?_
    · exact ⟨h2.1, h2.2.trans (by simp [neutralPre])⟩
    · intro x hx
      by_cases hm : x = missed
      · rw [hm]; exact List.mem_cons_self
      · obtain ⟨e, he, -, rfl⟩ := (h0.1 x).2 ⟨hx.1, hx.2, hm⟩
        refine List.mem_cons_of_mem _ (List.mem_map.2 ⟨feNat e.1 % p, ?_, ?_⟩)
        · exact neutralPre_spec e he
        · rw [ZMod.natCast_mod]; rfl
  · obtain ⟨q, hq⟩ : ∃ q : ExtPt Fe51, Represents q g :=
      ⟨_, represents_iff.2 (setBytes_some (F := Fe51) (decode_eq_some.2 (rfl : encode g = encode g))).2⟩
    have h := C36_inverse_partial q g hq hg
    have h2 := card_le_of_list (P := fun x => ¬ IsNeg x ∧ ellMap x = g)
      ((ristrettoElligator2Inverse q).map fun e => feVal e.1) ?_
    · exact ⟨h2.1, h2.2.trans (by rw [List.length_map, h.2.2])⟩
    · intro x hx
      obtain ⟨e, he, -, hx⟩ := (h.1 x).2 hx
      exact List.mem_map.2 ⟨e, he, hx⟩

theorem neg_pre {x : Fp} {g : RGroup} (h : IsNeg x) (hx : ellMap x = g) : ¬ IsNeg (-x) ∧ ellMap (-x) = g := by
  have h0 : x ≠ 0 := by rintro rfl; simp [IsNeg] at h
  exact ⟨by rw [isNeg_neg h0]; exact not_not.2 h, by rw [C34_neg, hx]⟩

/-- At most sixteen field elements are mapped to `g`. -/
theorem pre_card (g : RGroup) : Finite {x : Fp // ellMap x = g} ∧ Nat.card {x : Fp // ellMap x = g} ≤ 16 := by
  obtain ⟨hf, h8⟩ := nonNegPre_card g
  have : Finite {x : Fp // ellMap x = g} := Subtype.finite
  refine ⟨this, ?_⟩
  have h := Nat.card_le_card_of_injective (α := {x : Fp // ellMap x = g}) (β := NonNegPre g × Bool)
    (fun x => if h : IsNeg x.1 then (⟨-x.1, neg_pre h x.2⟩, true) else (⟨x.1, h, x.2⟩, false)) ?_
  · rw [Nat.card_prod, Nat.card_eq_fintype_card (α := Bool), Fintype.card_bool] at h
    omega
  · intro x y hxy
    obtain ⟨x, hx⟩ := x
    obtain ⟨y, hy⟩ := y
    by_cases h1 : IsNeg x <;> by_cases h2 : IsNeg y <;> simp [h1, h2] at hxy ⊢ <;> exact hxy

theorem buf_arith {x y : ℕ} (hx : x < 256 ^ 32) (hy : y < 256 ^ 32) (h1 : x % 2 ^ 255 % p = y % 2 ^ 255 % p)
    (h2 : 2 ^ 255 ≤ x ↔ 2 ^ 255 ≤ y) (h3 : p ≤ x % 2 ^ 255 ↔ p ≤ y % 2 ^ 255) : x = y := by
  have hp : p = 2 ^ 255 - 19 := by norm_num [p]
  rw [hp] at h1 h3
  clear hp
  simp only [Nat.reducePow, Nat.reduceSub] at *
  omega

/-- **C59**: no element is the result of `Rand` for more than 64 of the `2^256` buffers. -/
theorem C59_point (g : RGroup) : Nat.card {b : Bytes 32 // Represents (Point.rand b : ExtPt Fe51) g} ≤ 64 := by
  obtain ⟨hf, h16⟩ := pre_card g
  have h := Nat.card_le_card_of_injective (α := {b : Bytes 32 // Represents (Point.rand b : ExtPt Fe51) g})
    (β := {x : Fp // ellMap x = g} × Bool × Bool)
    (fun b => (⟨((leVal b.1 % 2 ^ 255 : ℕ) : Fp), represents_unique (C34_setElligator b.1) b.2⟩,
      decide (2 ^ 255 ≤ leVal b.1), decide (p ≤ leVal b.1 % 2 ^ 255))) ?_
  · rw [Nat.card_prod, Nat.card_prod, Nat.card_eq_fintype_card (α := Bool), Fintype.card_bool] at h
    omega
  · intro a b hab
    obtain ⟨a, ha⟩ := a
    obtain ⟨b, hb⟩ := b
    simp only [Prod.mk.injEq, Subtype.mk.injEq, decide_eq_decide] at hab
    obtain ⟨h1, h2, h3⟩ := hab
    apply Subtype.ext
    apply leVal_inj
    have la := leVal_lt a
    have lb := leVal_lt b
    rw [ZMod.natCast_eq_natCast_iff'] at h1
    change leVal a = leVal b
    generalize leVal a = x at *
    generalize leVal b = y at *
    exact buf_arith la lb h1 h2 h3

/-- **C59**: more than one element in five is the result of `Rand` for some buffer. -/
theorem C59_range : l < 5 * Nat.card {g : RGroup // ∃ b : Bytes 32, Represents (Point.rand b : ExtPt Fe51) g} := by
  have hfin : Finite RGroup := Nat.finite_of_card_ne_zero (by rw [card_RGroup]; norm_num [l])
  set S := {g : RGroup // ∃ b : Bytes 32, Represents (Point.rand b : ExtPt Fe51) g} with hS
  have e : Bytes 32 ≃ Σ g : S, {b : Bytes 32 // Represents (Point.rand b : ExtPt Fe51) g.1} :=
    { toFun := fun b => ⟨⟨_, b, C34_setElligator b⟩, b, C34_setElligator b⟩
      invFun := fun x => x.2.1
      left_inv := fun b => rfl
      right_inv := by
        rintro ⟨⟨g, hg⟩, b, hb⟩
        obtain rfl := represents_unique (C34_setElligator b) hb
        rfl }
  have h1 := Nat.card_congr e
  let _ := Fintype.ofFinite S
  rw [buf_total, Nat.card_sigma] at h1
  have h2 : ∑ g : S, Nat.card {b : Bytes 32 // Represents (Point.rand b : ExtPt Fe51) g.1} ≤ ∑ _g : S, 64 :=
    Finset.sum_le_sum fun g _ => C59_point g.1
  rw [← h1, Finset.sum_const, Finset.card_univ, ← Nat.card_eq_fintype_card, smul_eq_mul] at h2
  have hl := l_eq
  simp only [Nat.reducePow] at *
  omega

/-- A buffer and the element it gives: the hypotheses of the counts are met. -/
example : ∃ g, g ≠ 0 ∧ Represents (Point.rand (leBytes 32 2) : ExtPt Fe51) g := by
  refine ⟨_, fun h => ?_, C34_setElligator _⟩
  have h1 := C34_setElligator (leBytes 32 2)
  rw [h] at h1
  have h2 := (equals_iff _ _ _ _ h1 (represents_iff.2 holds_zero)).2 rfl
  have h3 : Point.equals (Point.setElligator (leBytes 32 2) : ExtPt Fe51) ExtPt.zero = false := by decide +kernel
  rw [h3] at h2
  simp at h2

end Ristretto.Props
