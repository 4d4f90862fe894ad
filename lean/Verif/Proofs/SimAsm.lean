import Verif.Proofs.Sim51
import Verif.Proofs.AsmField

/-!
# The field implementation for amd64 follows the ideal field, whatever the points are
-/

namespace Ristretto.Proofs.Asm
open Model Model.Fe51 Model.Asm FieldOps
open Sim (F2)
set_option autoImplicit false

/-- Limbs up to `n` times `2 * U` (4503599627894784 is 2^52 + 2^19), for `n` at most ten, that stand for `x`. -/
def RA (n : ℕ) (a : FeAsm) (x : Fp) : Prop := 1 ≤ n ∧ Fe51.Bd (min n 10 * 4503599627894784) a ∧ Fe51.eval a = x

namespace RA
variable {m n : ℕ} {a b : FeAsm} {x y : Fp}

theorem mono (h : RA m a x) (hmn : m ≤ n) : RA n a x :=
  ⟨h.1.trans hmn, h.2.1.mono (Nat.mul_le_mul_right _ (by omega)), h.2.2⟩
theorem le (h : RA m a x) (B : ℕ) (hB : min m 10 * 4503599627894784 ≤ B) : Fe51.Bd B a := h.2.1.mono hB
theorem b63 (h : RA m a x) : Fe51.Bd (2 ^ 63) a := h.le _ (by omega)
theorem of1 (h : Fe51.Bd 4503599627894784 a) (he : Fe51.eval a = x) : RA 1 a x := ⟨le_refl _, h.mono (by norm_num), he⟩
theorem ofU (h : Fe51.Bd Fe51.U a) (he : Fe51.eval a = x) : RA 1 a x := of1 (h.mono (by decide)) he

theorem bytes (h : RA m a x) : FieldOps.bytes a = FieldOps.bytes x := by
  apply leVal_inj
  rw [LawfulField.bytes_law (F := Fp) (a := x) trivial]
  exact (Fe51.bytes_spec a h.b63).trans (by rw [h.2.2]; rfl)
theorem isNeg (h : RA m a x) : F2 (isNegativeI a) (isNegativeI x) := by
  refine ⟨?_, ?_⟩
  · unfold isNegativeI; rw [h.bytes]
  · rw [isNegativeI_spec (F := Fp) (x := x) trivial]; exact Fe25.flag_flag _
theorem isNonZero (h : RA m a x) : F2 (isNonZeroI a) (isNonZeroI x) := by
  refine ⟨?_, ?_⟩
  · unfold isNonZeroI; rw [h.bytes]
  · rw [isNonZeroI_spec (F := Fp) (x := x) trivial]; exact Fe25.flag_flag _
theorem add (h : RA m a x) (h' : RA n b y) (hmn : m + n ≤ 10) : RA (m + n) (FieldOps.add a b) (FieldOps.add x y) := by
  obtain ⟨h1, h2⟩ := Fe51.add_spec a b (m * 4503599627894784) (n * 4503599627894784) (h.le _ (by omega)) (h'.le _ (by omega)) (by omega)
  refine ⟨by have := h.1; omega, h1.mono (by omega), ?_⟩
  exact h2.trans (by rw [h.2.2, h'.2.2]; rfl)
theorem sub (h : RA m a x) (h' : RA n b y) (hmn : m + n ≤ 10) : RA (m + n) (FieldOps.sub a b) (FieldOps.sub x y) := by
  obtain ⟨h1, h2⟩ := Fe51.sub_spec a b (m * 4503599627894784) (h.le _ (by omega)) (by omega) h'.b63
  have := h.1
  have := h'.1
  refine ⟨by omega, h1.mono (by omega), ?_⟩
  exact h2.trans (by rw [h.2.2, h'.2.2]; rfl)
theorem neg (h : RA m a x) : RA m (FieldOps.neg a) (FieldOps.neg x) := by
  obtain ⟨h1, h2⟩ := Fe51.neg_spec a h.b63
  have := h.1
  exact ⟨this, h1.mono (by omega), h2.trans (by rw [h.2.2]; rfl)⟩
theorem norm (h : RA m a x) : RA 1 (FieldOps.normalize a) (FieldOps.normalize x) := by
  obtain ⟨h0, h1, h2, h3, h4, h5⟩ := Fe51.setReduced_spec a h.b63
  refine of1 ⟨?_, ?_, ?_, ?_, ?_⟩ ?_
  · exact (show (setReduced a).l0.toNat ≤ _ by omega)
  · exact (show (setReduced a).l1.toNat ≤ _ by omega)
  · exact (show (setReduced a).l2.toNat ≤ _ by omega)
  · exact (show (setReduced a).l3.toNat ≤ _ by omega)
  · exact (show (setReduced a).l4.toNat ≤ _ by omega)
  · show Fe51.eval (setReduced a) = x
    rw [Fe51.eval, h0, ← h.2.2]; simp
end RA

local macro "dk" : tactic => `(tactic| decide +kernel)

instance simField : Sim.SimField FeAsm Fp where
  R := RA
  S b y := Fe51.Bd (8 * Fe51.U) b ∧ Fe51.eval b = y
  mono h hmn := h.mono hmn
  toS h := ⟨h.le _ (by decide), h.2.2⟩
  add h h' hmn := h.add h' hmn
  sub h h' hmn := h.sub h' hmn
  neg h _ := h.neg
  mulS {a b x y} h h' := by
    obtain ⟨h1, h2⟩ := asmMul_specW a b (h.le _ (by decide)) h'.1
    have e : FieldOps.mul a b = asmMul a b := mulF_eq a b
    rw [← e] at h1 h2
    exact .ofU h1 (h2.trans (by rw [h.2.2, h'.2]; rfl))
  sq {a x} h := by
    obtain ⟨h1, h2⟩ := asmSquare_specW a (h.le _ (by decide))
    have e : FieldOps.square a = asmSquare a := squareF_eq a
    rw [← e] at h1 h2
    exact .ofU h1 (h2.trans (by rw [h.2.2]; rfl))
  dsq {a x} h := by
    obtain ⟨h1, h2⟩ := asm_doubledSquare_spec (a := a) (h.le _ (by decide))
    exact .of1 (h1.mono (by decide)) (h2.trans (by rw [h.2.2]; rfl))
  norm h := h.norm
  bytes h := h.bytes
  touch h := h
  isNeg h := h.isNeg
  isNonZero h := h.isNonZero
  cond0 {n a b x y} h _ := by
    rw [show FieldOps.condSet a b 0 = a from Fe51.condSet_zero a b]; exact h
  cond1 {n a b x y} _ h' := by
    rw [show FieldOps.condSet a b 1 = b from Fe51.condSet_one a b]; exact h'
  cond0_eq a b _ _ := ⟨Fe51.condSet_zero a b, rfl⟩
  cond1_eq a b _ _ := ⟨Fe51.condSet_one a b, rfl⟩
  negS := by
    intro a b x y h h' _ _ _
    obtain ⟨h1, h2⟩ := Fe51.neg_spec a h.b63
    have hb : Fe51.Bd (2 * 4503599627894784) b := h'.le _ (by norm_num)
    obtain ⟨k1, e1⟩ := Fe51.add_spec (FieldOps.neg a) b _ _ h1 hb (by norm_num)
    obtain ⟨k2, e2⟩ := Fe51.add_spec b (FieldOps.neg a) _ _ hb h1 (by norm_num)
    obtain ⟨k3, e3⟩ := Fe51.sub_spec b (FieldOps.neg a) _ hb (by norm_num) (h1.mono (by norm_num))
    have h2 : Fe51.eval (FieldOps.neg a) = -x := h2.trans (by rw [h.2.2])
    refine ⟨⟨k1.mono (by decide), e1.trans ?_⟩, ⟨k2.mono (by decide), e2.trans ?_⟩, ⟨k3.mono (by decide), e3.trans ?_⟩⟩ <;>
    · rw [h2, h'.2.2]; rfl
  setBytes b := by
    obtain ⟨h1, h2⟩ := LawfulField.setBytes_law (F := FeAsm) b
    exact .ofU (Fe51.Bd.mono h1 (by omega)) h2
  rZero := .of1 (by dk) (LawfulField.eval_feZero (F := FeAsm))
  rOne := .of1 (by dk) (LawfulField.eval_feOne (F := FeAsm))
  rMinusOne := .of1 (by dk) (LawfulField.eval_feMinusOne (F := FeAsm))
  rI := .of1 (by dk) (LawfulField.eval_feI (F := FeAsm))
  rD := .of1 (by dk) (LawfulField.eval_feD (F := FeAsm))
  r2D := .of1 (by dk) (LawfulField.eval_fe2D (F := FeAsm))
  rInvSqrtMinusDMinusOne := .of1 (by dk) (LawfulField.eval_feInvSqrtMinusDMinusOne (F := FeAsm))
  rDoubleInvSqrtMinusDMinusOne := .of1 (by dk) (LawfulField.eval_feDoubleInvSqrtMinusDMinusOne (F := FeAsm))
  rDoubleIInvSqrtMinusDMinusOne := .of1 (by dk) (LawfulField.eval_feDoubleIInvSqrtMinusDMinusOne (F := FeAsm))
  rDMinusOneSquared := .of1 (by dk) (LawfulField.eval_feDMinusOneSquared (F := FeAsm))
  rOneMinusDSquared := .of1 (by dk) (LawfulField.eval_feOneMinusDSquared (F := FeAsm))
  rDp1OverDm1 := .of1 (by dk) (by
    show _ = (d + 1) / (d - 1)
    rw [eq_div_iff d_sub_one_ne_zero]
    exact LawfulField.eval_feDp1OverDm1 (F := FeAsm))
  rSqrtID := .of1 (by dk) (LawfulField.eval_feSqrtID (F := FeAsm))
  rInvSqrt1pD := .of1 (by dk) (LawfulField.eval_feInvSqrt1pD (F := FeAsm))
  rBaseX := .mono (.of1 (by dk) (LawfulField.eval_epBaseX (F := FeAsm))) (by norm_num)
  rBaseY := .mono (.of1 (by dk) (LawfulField.eval_epBaseY (F := FeAsm))) (by norm_num)
  rBaseT := .mono (.of1 (by dk) (LawfulField.eval_epBaseT (F := FeAsm))) (by norm_num)
  baseS := by
    have X : RA 1 (epBaseX : FeAsm) (epBaseX : Fp) := .of1 (by dk) (LawfulField.eval_epBaseX (F := FeAsm))
    have Y : RA 1 (epBaseY : FeAsm) (epBaseY : Fp) := .of1 (by dk) (LawfulField.eval_epBaseY (F := FeAsm))
    exact ⟨⟨(X.add Y (by norm_num)).le _ (by decide), (X.add Y (by norm_num)).2.2⟩,
      ⟨(Y.add X (by norm_num)).le _ (by decide), (Y.add X (by norm_num)).2.2⟩,
      ⟨(Y.sub X (by norm_num)).le _ (by decide), (Y.sub X (by norm_num)).2.2⟩⟩
  notBoth := Fe25.not_both

end Ristretto.Proofs.Asm
