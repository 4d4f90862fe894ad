import Verif.Proofs.Oblivious

/-!
# The value of the generic backend on words nobody knows
-/

namespace Ristretto.Proofs.Obl
set_option autoImplicit false
open Ristretto.Model Ristretto.Model.Obl Ristretto.Proofs

variable (ρ : (t : Ty) → Name → t.Val)

theorem e_addI (a b : I64) : ev ρ (a + b) = (ev ρ a + ev ρ b : Int64) := (rfl)
theorem e_mulI (a b : I64) : ev ρ (a * b) = (ev ρ a * ev ρ b : Int64) := (rfl)

theorem ft_add (a b : FeT) : evFe ρ (FeT.add a b) = Fe25.add (evFe ρ a) (evFe ρ b) := (rfl)
theorem ft_sub (a b : FeT) : evFe ρ (FeT.sub a b) = Fe25.sub (evFe ρ a) (evFe ρ b) := (rfl)
theorem ft_neg (a : FeT) : evFe ρ (FeT.neg a) = Fe25.neg (evFe ρ a) := (rfl)
theorem ft_setReduced (h0 h1 h2 h3 h4 h5 h6 h7 h8 h9 : I64) : evFe ρ (FeT.setReduced h0 h1 h2 h3 h4 h5 h6 h7 h8 h9) =
    Fe25.setReduced (ev ρ h0) (ev ρ h1) (ev ρ h2) (ev ρ h3) (ev ρ h4) (ev ρ h5) (ev ρ h6) (ev ρ h7) (ev ρ h8) (ev ρ h9) := (rfl)
theorem ft_normalize (a : FeT) : evFe ρ (FeT.normalize a) = Fe25.normalize (evFe ρ a) := by
  simp only [FeT.normalize, Fe25.normalize, ft_setReduced]
  rfl
theorem ft_condSet (a b : FeT) (c : I32) : evFe ρ (FeT.condSet a b c) = Fe25.condSet (evFe ρ a) (evFe ρ b) (ev ρ c) := (rfl)
theorem ft_reduce (a : FeT) : evFe ρ (FeT.reduce a) = Fe25.reduce (evFe ρ a) := (rfl)
theorem ft_pack (a : FeT) : evB ρ (FeT.pack a) = Fe25.pack (evFe ρ a) := by
  simp only [FeT.pack, Fe25.pack, evB, Vector.map_mk, List.map_toArray, List.map_cons, List.map_nil]
  rfl
theorem ft_bytes (a : FeT) : evB ρ (FeT.bytes a) = Fe25.bytes (evFe ρ a) := by
  simp only [FeT.bytes, Fe25.bytes, ft_pack, ft_reduce]
theorem ft_setBytes (v : SBytes 32) : evFe ρ (FeT.setBytes v) = Fe25.setBytes (evB ρ v) := by
  simp only [FeT.setBytes, Fe25.setBytes, b_get, ft_setReduced]
  rfl
theorem ft_mul (a b : FeT) : evFe ρ (FeT.mul a b) = Fe25.mul (evFe ρ a) (evFe ρ b) := by
  simp only [FeT.mul, Fe25.mul, ft_setReduced, e_addI, e_mulI]
  rfl
/-- The values of ten words. -/
def evW (w : FeT.Wide) : Fe25.Wide :=
  ⟨ev ρ w.h0, ev ρ w.h1, ev ρ w.h2, ev ρ w.h3, ev ρ w.h4, ev ρ w.h5, ev ρ w.h6, ev ρ w.h7, ev ρ w.h8, ev ρ w.h9⟩
theorem ft_squareWide (a : FeT) : evW ρ (FeT.squareWide a) = Fe25.squareWide (evFe ρ a) := by
  simp only [FeT.squareWide, Fe25.squareWide, evW, e_addI, e_mulI]
  rfl
theorem ft_square (a : FeT) : evFe ρ (FeT.square a) = Fe25.square (evFe ρ a) := by
  simp only [FeT.square, Fe25.square, ft_setReduced, ← ft_squareWide]
  rfl
theorem ft_doubledSquare (a : FeT) : evFe ρ (FeT.doubledSquare a) = Fe25.doubledSquare (evFe ρ a) := by
  simp only [FeT.doubledSquare, Fe25.doubledSquare, ft_setReduced, ← ft_squareWide]
  rfl

instance : LawfulSym FeT Fe25 where
  add := ft_add
  sub := ft_sub
  neg := ft_neg
  normalize := ft_normalize
  mul := ft_mul
  square := ft_square
  doubledSquare := ft_doubledSquare
  touch := ft_reduce
  condSet := fun _ _ _ _ => rfl
  bytes := ft_bytes
  setBytes := ft_setBytes
  vars := fun ρ f a h => by
    have h0 := h .i32 0
    have h1 := h .i32 1
    have h2 := h .i32 2
    have h3 := h .i32 3
    have h4 := h .i32 4
    have h5 := h .i32 5
    have h6 := h .i32 6
    have h7 := h .i32 7
    have h8 := h .i32 8
    have h9 := h .i32 9
    simp only [evFe, Sym.val, SymOps.vars, ev, h0, h1, h2, h3, h4, h5, h6, h7, h8, h9]
    rfl
  feZero := fun _ => rfl
  feOne := fun _ => rfl
  feMinusOne := fun _ => rfl
  feI := fun _ => rfl
  feD := fun _ => rfl
  fe2D := fun _ => rfl
  feInvSqrtMinusDMinusOne := fun _ => rfl
  feDoubleInvSqrtMinusDMinusOne := fun _ => rfl
  feDoubleIInvSqrtMinusDMinusOne := fun _ => rfl
  feDMinusOneSquared := fun _ => rfl
  feOneMinusDSquared := fun _ => rfl
  feDp1OverDm1 := fun _ => rfl
  feSqrtID := fun _ => rfl
  feInvSqrt1pD := fun _ => rfl
  epBaseX := fun _ => rfl
  epBaseY := fun _ => rfl
  epBaseT := fun _ => rfl

end Ristretto.Proofs.Obl
