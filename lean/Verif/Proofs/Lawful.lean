import Verif.Model.Field
import Verif.Spec.Field
import Verif.Proofs.Field51Reduce

/-!
# Lawful field backends

`LawfulField F` says that a backend computes in GF(2^255-19): `eval` is the field element a
representation stands for and `bd n` a bound on the size of its limbs, in units.
-/

namespace Ristretto.Proofs
open Model FieldOps
set_option autoImplicit false

/-- A square root of `i*d`. -/
def sqrtID : Fp := ((2578418914173623657462452400132853037496623284081085243786733881681055062952 : ℕ) : Fp)
/-- x-coordinate of `epBase`. -/
def baseX : Fp := ((7413488746097234319268533557746747958297143720389000677696299943083562100178 : ℕ) : Fp)
/-- y-coordinate of `epBase`. -/
def baseY : Fp := ((9771384041963202563870679428059935816164187996444183106833894008023910952347 : ℕ) : Fp)

theorem sqrtID_sq : sqrtID * sqrtID = sqrtM1 * d := by
  have h : ((2578418914173623657462452400132853037496623284081085243786733881681055062952 *
    2578418914173623657462452400132853037496623284081085243786733881681055062952 : ℕ) : Fp) =
    ((19681161376707505956807079304988542015446066515923890162744021073123829784752 * dNat : ℕ) : Fp) :=
    natCast_eq_of_mod (by norm_num [p, dNat])
  rw [d_eq, sqrtID, sqrtM1]
  push_cast at h ⊢
  linear_combination h

/-- A field backend that computes in GF(2^255-19). -/
class LawfulField (F : Type) extends FieldOps F where
  eval : F → Fp
  bd : ℕ → F → Prop
  bd_mono : ∀ {m n : ℕ} {a : F}, m ≤ n → bd m a → bd n a
  eval_feZero : eval feZero = 0
  bd_feZero : bd 1 feZero
  eval_feOne : eval feOne = 1
  bd_feOne : bd 1 feOne
  eval_feMinusOne : eval feMinusOne = -1
  bd_feMinusOne : bd 1 feMinusOne
  eval_feI : eval feI = sqrtM1
  bd_feI : bd 1 feI
  eval_feMinusI : eval feMinusI = -sqrtM1
  bd_feMinusI : bd 1 feMinusI
  eval_feD : eval feD = d
  bd_feD : bd 1 feD
  eval_fe2D : eval fe2D = 2 * d
  bd_fe2D : bd 1 fe2D
  eval_feInvSqrtMinusDMinusOne : eval feInvSqrtMinusDMinusOne = eC
  bd_feInvSqrtMinusDMinusOne : bd 1 feInvSqrtMinusDMinusOne
  eval_feDoubleInvSqrtMinusDMinusOne : eval feDoubleInvSqrtMinusDMinusOne = 2 * eC
  bd_feDoubleInvSqrtMinusDMinusOne : bd 1 feDoubleInvSqrtMinusDMinusOne
  eval_feDoubleIInvSqrtMinusDMinusOne : eval feDoubleIInvSqrtMinusDMinusOne = 2 * sqrtM1 * eC
  bd_feDoubleIInvSqrtMinusDMinusOne : bd 1 feDoubleIInvSqrtMinusDMinusOne
  eval_feDMinusOneSquared : eval feDMinusOneSquared = (d - 1) ^ 2
  bd_feDMinusOneSquared : bd 1 feDMinusOneSquared
  eval_feOneMinusDSquared : eval feOneMinusDSquared = 1 - d ^ 2
  bd_feOneMinusDSquared : bd 1 feOneMinusDSquared
  eval_feDp1OverDm1 : eval feDp1OverDm1 * (d - 1) = d + 1
  bd_feDp1OverDm1 : bd 1 feDp1OverDm1
  eval_feSqrtID : eval feSqrtID = sqrtID
  bd_feSqrtID : bd 2 feSqrtID
  eval_feInvSqrt1pD : eval feInvSqrt1pD = -sqrtM1 * eC
  bd_feInvSqrt1pD : bd 1 feInvSqrt1pD
  eval_epBaseX : eval epBaseX = baseX
  bd_epBaseX : bd 2 epBaseX
  eval_epBaseY : eval epBaseY = baseY
  bd_epBaseY : bd 2 epBaseY
  eval_epBaseT : eval epBaseT = baseX * baseY
  bd_epBaseT : bd 2 epBaseT
  add_law : ∀ {m n : ℕ} {a b : F}, bd m a → bd n b → m + n ≤ 12 →
    bd (m + n) (add a b) ∧ eval (add a b) = eval a + eval b
  sub_law : ∀ {m : ℕ} {a b : F}, bd m a → bd 6 b → m ≤ 6 →
    bd (m + 2) (sub a b) ∧ eval (sub a b) = eval a - eval b
  neg_law : ∀ {a : F}, bd 6 a → bd 2 (neg a) ∧ eval (neg a) = - eval a
  normalize_law : ∀ {a : F}, bd 12 a → bd 1 (normalize a) ∧ eval (normalize a) = eval a
  mul_law : ∀ {a b : F}, bd 6 a → bd 6 b → bd 1 (mul a b) ∧ eval (mul a b) = eval a * eval b
  square_law : ∀ {a : F}, bd 6 a → bd 1 (square a) ∧ eval (square a) = eval a * eval a
  doubledSquare_law : ∀ {a : F}, bd 6 a →
    bd 2 (doubledSquare a) ∧ eval (doubledSquare a) = 2 * (eval a * eval a)
  condSet_zero : ∀ a b : F, condSet a b 0 = a
  condSet_one : ∀ a b : F, condSet a b 1 = b
  bytes_law : ∀ {a : F}, bd 12 a → leVal (bytes a) = (eval a).val
  touch_law : ∀ {n : ℕ} {a : F}, bd n a → bd n (touch a) ∧ eval (touch a) = eval a
  setBytes_law : ∀ b : Bytes 32, bd 1 (setBytes b) ∧ eval (setBytes b) = ((leVal b % 2 ^ 255 : ℕ) : Fp)

namespace Fe51
open Model.Fe51

theorem bd_mul_mono {m n : ℕ} {a : Fe51} (h : m ≤ n) (ha : Bd (m * U) a) : Bd (n * U) a :=
  ha.mono (Nat.mul_le_mul_right _ h)

theorem evalN (a : Fe51) (n : ℕ) (h : nat a % p = n % p) : eval a = (n : Fp) := by
  unfold eval; exact natCast_eq_of_mod h

/-- Evaluate a constant: `e * eval a = c` for numerals, in the kernel. -/
theorem const_eq (a : Fe51) (n : ℕ) (h : nat a % p = n % p) {x : Fp} (hx : (n : Fp) = x) :
    eval a = x := (evalN a n h).trans hx

instance : LawfulField Fe51 where
  toFieldOps := inferInstance
  eval := eval
  bd n a := Bd (n * U) a
  bd_mono := bd_mul_mono
  eval_feZero := const_eq _ 0 (by decide +kernel) (by simp)
  bd_feZero := by decide +kernel
  eval_feOne := const_eq _ 1 (by decide +kernel) (by simp)
  bd_feOne := by decide +kernel
  eval_feMinusOne := const_eq _ (p - 1) (by decide +kernel)
    (by rw [Nat.cast_sub (by norm_num [p])]; simp)
  bd_feMinusOne := by decide +kernel
  eval_feI := evalN _ _ (by decide +kernel)
  bd_feI := by decide +kernel
  eval_feMinusI := const_eq _ ((p - 1) * 19681161376707505956807079304988542015446066515923890162744021073123829784752) (by decide +kernel)
    (by rw [Nat.cast_mul, Nat.cast_sub (by norm_num [p])]; simp [sqrtM1])
  bd_feMinusI := by decide +kernel
  eval_feD := by rw [d_eq]; exact evalN _ _ (by decide +kernel)
  bd_feD := by decide +kernel
  eval_fe2D := const_eq _ (2 * dNat) (by decide +kernel) (by rw [d_eq]; push_cast; ring)
  bd_fe2D := by decide +kernel
  eval_feInvSqrtMinusDMinusOne := evalN _ _ (by decide +kernel)
  bd_feInvSqrtMinusDMinusOne := by decide +kernel
  eval_feDoubleInvSqrtMinusDMinusOne := const_eq _ (2 * 3426737609748780790789678635598812321241395039892825098523479107644843802371) (by decide +kernel) (by rw [eC]; push_cast; ring)
  bd_feDoubleInvSqrtMinusDMinusOne := by decide +kernel
  eval_feDoubleIInvSqrtMinusDMinusOne := const_eq _ (2 * 19681161376707505956807079304988542015446066515923890162744021073123829784752 * 3426737609748780790789678635598812321241395039892825098523479107644843802371) (by decide +kernel) (by rw [eC, sqrtM1]; push_cast; ring)
  bd_feDoubleIInvSqrtMinusDMinusOne := by decide +kernel
  eval_feDMinusOneSquared := const_eq _ ((dNat - 1) ^ 2) (by decide +kernel)
    (by rw [d_eq, Nat.cast_pow, Nat.cast_sub (by norm_num [dNat])]; simp)
  bd_feDMinusOneSquared := by decide +kernel
  eval_feOneMinusDSquared := const_eq _ (1 + (p - 1) * dNat ^ 2) (by decide +kernel)
    (by rw [d_eq, Nat.cast_add, Nat.cast_mul, Nat.cast_sub (by norm_num [p])]; simp; ring)
  bd_feOneMinusDSquared := by decide +kernel
  eval_feDp1OverDm1 := by
    have h1 : eval (feDp1OverDm1 : Fe51) = ((nat (feDp1OverDm1 : Fe51) : ℕ) : Fp) := rfl
    have h2 : ((nat (feDp1OverDm1 : Fe51) * (dNat - 1) : ℕ) : Fp) = ((dNat + 1 : ℕ) : Fp) :=
      natCast_eq_of_mod (by decide +kernel)
    rw [Nat.cast_mul, Nat.cast_sub (by norm_num [dNat]), Nat.cast_add, Nat.cast_one, ← d_eq, ← h1] at h2
    exact h2
  bd_feDp1OverDm1 := by decide +kernel
  eval_feSqrtID := evalN _ _ (by decide +kernel)
  bd_feSqrtID := by decide +kernel
  eval_feInvSqrt1pD := const_eq _ ((p - 1) * 19681161376707505956807079304988542015446066515923890162744021073123829784752 * 3426737609748780790789678635598812321241395039892825098523479107644843802371) (by decide +kernel)
    (by rw [Nat.cast_mul, Nat.cast_mul, Nat.cast_sub (by norm_num [p])]; simp [sqrtM1, eC])
  bd_feInvSqrt1pD := by decide +kernel
  eval_epBaseX := evalN _ _ (by decide +kernel)
  bd_epBaseX := by decide +kernel
  eval_epBaseY := evalN _ _ (by decide +kernel)
  bd_epBaseY := by decide +kernel
  eval_epBaseT := const_eq _ (7413488746097234319268533557746747958297143720389000677696299943083562100178 * 9771384041963202563870679428059935816164187996444183106833894008023910952347) (by decide +kernel) (by rw [Nat.cast_mul]; rfl)
  bd_epBaseT := by decide +kernel
  add_law := by
    intro m n a b ha hb hmn
    have hU : U = 2 ^ 51 + 2 ^ 18 := rfl
    have h : m * U + n * U ≤ 12 * U := by rw [← Nat.add_mul]; exact Nat.mul_le_mul_right _ hmn
    have := add_spec a b _ _ ha hb (by omega)
    rw [← Nat.add_mul] at this
    exact this
  sub_law := by
    intro m a b ha hb hm
    have hU : U = 2 ^ 51 + 2 ^ 18 := rfl
    have h : m * U ≤ 6 * U := Nat.mul_le_mul_right _ hm
    have := sub_spec a b _ ha (by omega) (hb.mono (by omega))
    refine ⟨this.1.mono ?_, this.2⟩
    rw [Nat.add_mul]; omega
  neg_law := by
    intro a ha
    have hU : U = 2 ^ 51 + 2 ^ 18 := rfl
    have := neg_spec a (ha.mono (by omega))
    exact ⟨this.1.mono (by omega), this.2⟩
  normalize_law := by
    intro a ha
    have hU : U = 2 ^ 51 + 2 ^ 18 := rfl
    obtain ⟨h, h0, h1, h2, h3, h4⟩ := setReduced_spec a (ha.mono (by omega))
    refine ⟨⟨?_, ?_, ?_, ?_, ?_⟩, ?_⟩
    · exact (show (setReduced a).l0.toNat ≤ _ by omega)
    · exact (show (setReduced a).l1.toNat ≤ _ by omega)
    · exact (show (setReduced a).l2.toNat ≤ _ by omega)
    · exact (show (setReduced a).l3.toNat ≤ _ by omega)
    · exact (show (setReduced a).l4.toNat ≤ _ by omega)
    · show eval (setReduced a) = eval a
      rw [eval, h]; simp
  mul_law := by
    intro a b ha hb
    have hU : U = 2 ^ 51 + 2 ^ 18 := rfl
    have := mul_spec a b (ha.mono (by omega)) (hb.mono (by omega))
    exact ⟨this.1.mono (by omega), this.2⟩
  square_law := by
    intro a ha
    have hU : U = 2 ^ 51 + 2 ^ 18 := rfl
    have := square_spec a (ha.mono (by omega))
    exact ⟨this.1.mono (by omega), this.2⟩
  doubledSquare_law := by
    intro a ha
    have := doubledSquare_spec a ha
    exact ⟨this.1.mono (by omega), this.2⟩
  condSet_zero := Fe51.condSet_zero
  condSet_one := Fe51.condSet_one
  bytes_law := by
    intro a ha
    have hU : U = 2 ^ 51 + 2 ^ 18 := rfl
    exact bytes_spec a (ha.mono (by omega))
  touch_law := fun h => ⟨h, rfl⟩
  setBytes_law := by
    intro b
    have hU : U = 2 ^ 51 + 2 ^ 18 := rfl
    obtain ⟨h, h0, h1, h2, h3, h4⟩ := setBytes_nat b
    refine ⟨⟨?_, ?_, ?_, ?_, ?_⟩, ?_⟩
    · exact (show (Model.Fe51.setBytes b).l0.toNat ≤ _ by omega)
    · exact (show (Model.Fe51.setBytes b).l1.toNat ≤ _ by omega)
    · exact (show (Model.Fe51.setBytes b).l2.toNat ≤ _ by omega)
    · exact (show (Model.Fe51.setBytes b).l3.toNat ≤ _ by omega)
    · exact (show (Model.Fe51.setBytes b).l4.toNat ≤ _ by omega)
    · show eval (Model.Fe51.setBytes b) = _
      rw [eval, h]

end Fe51
end Ristretto.Proofs
