import Verif.Proofs.Sim25

/-!
# The default field implementation follows the ideal field, whatever the points are
-/

namespace Ristretto.Proofs.Fe51
open Model Model.Fe51 FieldOps
open Sim (F2)
set_option autoImplicit false

/-- Limbs up to `n` times 2^52, for `n` at most ten, that stand for `x`. -/
def RV (n : ℕ) (a : Fe51) (x : Fp) : Prop := 1 ≤ n ∧ Bd (min n 10 * 2 ^ 52) a ∧ eval a = x

namespace RV
variable {m n : ℕ} {a b : Fe51} {x y : Fp}

theorem mono (h : RV m a x) (hmn : m ≤ n) : RV n a x :=
  ⟨h.1.trans hmn, h.2.1.mono (Nat.mul_le_mul_right _ (by omega)), h.2.2⟩
theorem le (h : RV m a x) (B : ℕ) (hB : min m 10 * 2 ^ 52 ≤ B) : Bd B a := h.2.1.mono hB
theorem b63 (h : RV m a x) : Bd (2 ^ 63) a := h.le _ (by omega)
theorem of1 (h : Bd (2 ^ 52) a) (he : eval a = x) : RV 1 a x := ⟨le_refl _, h.mono (by norm_num), he⟩
theorem ofU (h : Bd U a) (he : eval a = x) : RV 1 a x := of1 (h.mono (by decide)) he

theorem bytes (h : RV m a x) : FieldOps.bytes a = FieldOps.bytes x := by
  apply leVal_inj
  rw [LawfulField.bytes_law (F := Fp) (a := x) trivial]
  exact (bytes_spec a h.b63).trans (by rw [h.2.2]; rfl)
theorem isNeg (h : RV m a x) : F2 (isNegativeI a) (isNegativeI x) := by
  refine ⟨?_, ?_⟩
  · unfold isNegativeI; rw [h.bytes]
  · rw [isNegativeI_spec (F := Fp) (x := x) trivial]; exact Fe25.flag_flag _
theorem isNonZero (h : RV m a x) : F2 (isNonZeroI a) (isNonZeroI x) := by
  refine ⟨?_, ?_⟩
  · unfold isNonZeroI; rw [h.bytes]
  · rw [isNonZeroI_spec (F := Fp) (x := x) trivial]; exact Fe25.flag_flag _
theorem add (h : RV m a x) (h' : RV n b y) (hmn : m + n ≤ 10) : RV (m + n) (FieldOps.add a b) (FieldOps.add x y) := by
  obtain ⟨h1, h2⟩ := add_spec a b (m * 2 ^ 52) (n * 2 ^ 52) (h.le _ (by omega)) (h'.le _ (by omega)) (by omega)
  refine ⟨by have := h.1; omega, h1.mono (by omega), ?_⟩
  exact h2.trans (by rw [h.2.2, h'.2.2]; rfl)
theorem sub (h : RV m a x) (h' : RV n b y) (hmn : m + n ≤ 10) : RV (m + n) (FieldOps.sub a b) (FieldOps.sub x y) := by
  obtain ⟨h1, h2⟩ := sub_spec a b (m * 2 ^ 52) (h.le _ (by omega)) (by omega) h'.b63
  have := h.1
  have := h'.1
  refine ⟨by omega, h1.mono (by omega), ?_⟩
  exact h2.trans (by rw [h.2.2, h'.2.2]; rfl)
theorem neg (h : RV m a x) : RV m (FieldOps.neg a) (FieldOps.neg x) := by
  obtain ⟨h1, h2⟩ := neg_spec a h.b63
  have := h.1
  exact ⟨this, h1.mono (by omega), h2.trans (by rw [h.2.2]; rfl)⟩
theorem norm (h : RV m a x) : RV 1 (FieldOps.normalize a) (FieldOps.normalize x) := by
  obtain ⟨h0, h1, h2, h3, h4, h5⟩ := setReduced_spec a h.b63
  refine of1 ⟨?_, ?_, ?_, ?_, ?_⟩ ?_
  · exact (show (setReduced a).l0.toNat ≤ _ by omega)
  · exact (show (setReduced a).l1.toNat ≤ _ by omega)
  · exact (show (setReduced a).l2.toNat ≤ _ by omega)
  · exact (show (setReduced a).l3.toNat ≤ _ by omega)
  · exact (show (setReduced a).l4.toNat ≤ _ by omega)
  · show eval (setReduced a) = x
    rw [eval, h0, ← h.2.2]; simp
end RV

local macro "dk" : tactic => `(tactic| decide +kernel)

instance simField : Sim.SimField Fe51 Fp where
  R := RV
  S b y := Bd (2 ^ 54) b ∧ eval b = y
  mono h hmn := h.mono hmn
  toS h := ⟨h.le _ (by norm_num), h.2.2⟩
  add h h' hmn := h.add h' hmn
  sub h h' hmn := h.sub h' hmn
  neg h _ := h.neg
  mulS {a b x y} h h' := by
    obtain ⟨h1, h2⟩ := mul_spec a b (h.le _ (by norm_num)) h'.1
    exact .ofU h1 (h2.trans (by rw [h.2.2, h'.2]; rfl))
  sq {a x} h := by
    obtain ⟨h1, h2⟩ := square_spec a (h.le _ (by norm_num))
    exact .ofU h1 (h2.trans (by rw [h.2.2]; rfl))
  dsq {a x} h := by
    obtain ⟨h1, h2⟩ := doubledSquare_spec a (h.le _ (by decide))
    exact .ofU h1 (h2.trans (by rw [h.2.2]; rfl))
  norm h := h.norm
  bytes h := h.bytes
  touch h := h
  isNeg h := h.isNeg
  isNonZero h := h.isNonZero
  cond0 {n a b x y} h _ := by
    rw [show FieldOps.condSet a b 0 = a from Fe51.condSet_zero a b]; exact h
  cond1 {n a b x y} _ h' := by
    rw [show FieldOps.condSet a b 1 = b from Fe51.condSet_one a b]; exact h'
  cond0_eq a b _ _ := ⟨Fe51.condSet_zero a b, rfl⟩
  cond1_eq a b _ _ := ⟨Fe51.condSet_one a b, rfl⟩
  negS := by
    intro a b x y h h' _ _ _
    obtain ⟨h1, h2⟩ := neg_spec a h.b63
    have hb : Bd (2 * 2 ^ 52) b := h'.le _ (by norm_num)
    obtain ⟨k1, e1⟩ := add_spec (FieldOps.neg a) b _ _ h1 hb (by norm_num)
    obtain ⟨k2, e2⟩ := add_spec b (FieldOps.neg a) _ _ hb h1 (by norm_num)
    obtain ⟨k3, e3⟩ := sub_spec b (FieldOps.neg a) _ hb (by norm_num) (h1.mono (by norm_num))
    have h2 : eval (FieldOps.neg a) = -x := h2.trans (by rw [h.2.2])
    refine ⟨⟨k1.mono (by norm_num), e1.trans ?_⟩, ⟨k2.mono (by norm_num), e2.trans ?_⟩, ⟨k3.mono (by norm_num), e3.trans ?_⟩⟩ <;>
    · rw [h2, h'.2.2]; rfl
  setBytes b := by
    obtain ⟨h1, h2⟩ := LawfulField.setBytes_law (F := Fe51) b
    exact .ofU (Bd.mono h1 (by omega)) h2
  rZero := .of1 (by dk) (LawfulField.eval_feZero (F := Fe51))
  rOne := .of1 (by dk) (LawfulField.eval_feOne (F := Fe51))
  rMinusOne := .of1 (by dk) (LawfulField.eval_feMinusOne (F := Fe51))
  rI := .of1 (by dk) (LawfulField.eval_feI (F := Fe51))
  rD := .of1 (by dk) (LawfulField.eval_feD (F := Fe51))
  r2D := .of1 (by dk) (LawfulField.eval_fe2D (F := Fe51))
  rInvSqrtMinusDMinusOne := .of1 (by dk) (LawfulField.eval_feInvSqrtMinusDMinusOne (F := Fe51))
  rDoubleInvSqrtMinusDMinusOne := .of1 (by dk) (LawfulField.eval_feDoubleInvSqrtMinusDMinusOne (F := Fe51))
  rDoubleIInvSqrtMinusDMinusOne := .of1 (by dk) (LawfulField.eval_feDoubleIInvSqrtMinusDMinusOne (F := Fe51))
  rDMinusOneSquared := .of1 (by dk) (LawfulField.eval_feDMinusOneSquared (F := Fe51))
  rOneMinusDSquared := .of1 (by dk) (LawfulField.eval_feOneMinusDSquared (F := Fe51))
  rDp1OverDm1 := .of1 (by dk) (by
    show _ = (d + 1) / (d - 1)
    rw [eq_div_iff d_sub_one_ne_zero]
    exact LawfulField.eval_feDp1OverDm1 (F := Fe51))
  rSqrtID := .of1 (by dk) (LawfulField.eval_feSqrtID (F := Fe51))
  rInvSqrt1pD := .of1 (by dk) (LawfulField.eval_feInvSqrt1pD (F := Fe51))
  rBaseX := .mono (.of1 (by dk) (LawfulField.eval_epBaseX (F := Fe51))) (by norm_num)
  rBaseY := .mono (.of1 (by dk) (LawfulField.eval_epBaseY (F := Fe51))) (by norm_num)
  rBaseT := .mono (.of1 (by dk) (LawfulField.eval_epBaseT (F := Fe51))) (by norm_num)
  baseS := by
    have X : RV 1 (epBaseX : Fe51) (epBaseX : Fp) := .of1 (by dk) (LawfulField.eval_epBaseX (F := Fe51))
    have Y : RV 1 (epBaseY : Fe51) (epBaseY : Fp) := .of1 (by dk) (LawfulField.eval_epBaseY (F := Fe51))
    exact ⟨⟨(X.add Y (by norm_num)).le _ (by norm_num), (X.add Y (by norm_num)).2.2⟩,
      ⟨(Y.add X (by norm_num)).le _ (by norm_num), (Y.add X (by norm_num)).2.2⟩,
      ⟨(Y.sub X (by norm_num)).le _ (by norm_num), (Y.sub X (by norm_num)).2.2⟩⟩
  notBoth := Fe25.not_both

end Ristretto.Proofs.Fe51
