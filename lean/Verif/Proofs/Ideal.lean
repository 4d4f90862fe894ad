import Verif.Proofs.Lawful
import Verif.Proofs.LeBytes
import Verif.Proofs.EllMath

/-!
# The ideal field backend

The field `Fp` itself as a field backend: exact arithmetic, no limbs.  It is not the model of any Go code; it is the
reference that a backend which is not lawful for every input is compared with.
-/

namespace Ristretto.Proofs
open Model FieldOps
set_option autoImplicit false

instance : FieldOps Fp where
  feZero := 0
  feOne := 1
  feMinusOne := -1
  feI := sqrtM1
  feMinusI := -sqrtM1
  feD := d
  fe2D := 2 * d
  feInvSqrtMinusDMinusOne := eC
  feDoubleInvSqrtMinusDMinusOne := 2 * eC
  feDoubleIInvSqrtMinusDMinusOne := 2 * sqrtM1 * eC
  feDMinusOneSquared := (d - 1) ^ 2
  feOneMinusDSquared := 1 - d ^ 2
  feDp1OverDm1 := (d + 1) / (d - 1)
  feSqrtID := sqrtID
  feInvSqrt1pD := -sqrtM1 * eC
  epBaseX := baseX
  epBaseY := baseY
  epBaseT := baseX * baseY
  add a b := a + b
  sub a b := a - b
  neg a := -a
  normalize a := a
  mul a b := a * b
  square a := a * a
  doubledSquare a := 2 * (a * a)
  condSet a b c := if c = 0 then a else b
  bytes a := leBytes 32 a.val
  touch a := a
  setBytes b := ((leVal b % 2 ^ 255 : ℕ) : Fp)

instance : LawfulField Fp where
  toFieldOps := inferInstance
  eval := id
  bd _ _ := True
  bd_mono _ _ := trivial
  eval_feZero := rfl
  bd_feZero := trivial
  eval_feOne := rfl
  bd_feOne := trivial
  eval_feMinusOne := rfl
  bd_feMinusOne := trivial
  eval_feI := rfl
  bd_feI := trivial
  eval_feMinusI := rfl
  bd_feMinusI := trivial
  eval_feD := rfl
  bd_feD := trivial
  eval_fe2D := rfl
  bd_fe2D := trivial
  eval_feInvSqrtMinusDMinusOne := rfl
  bd_feInvSqrtMinusDMinusOne := trivial
  eval_feDoubleInvSqrtMinusDMinusOne := rfl
  bd_feDoubleInvSqrtMinusDMinusOne := trivial
  eval_feDoubleIInvSqrtMinusDMinusOne := rfl
  bd_feDoubleIInvSqrtMinusDMinusOne := trivial
  eval_feDMinusOneSquared := rfl
  bd_feDMinusOneSquared := trivial
  eval_feOneMinusDSquared := rfl
  bd_feOneMinusDSquared := trivial
  eval_feDp1OverDm1 := div_mul_cancel₀ _ d_sub_one_ne_zero
  bd_feDp1OverDm1 := trivial
  eval_feSqrtID := rfl
  bd_feSqrtID := trivial
  eval_feInvSqrt1pD := rfl
  bd_feInvSqrt1pD := trivial
  eval_epBaseX := rfl
  bd_epBaseX := trivial
  eval_epBaseY := rfl
  bd_epBaseY := trivial
  eval_epBaseT := rfl
  bd_epBaseT := trivial
  add_law _ _ _ := ⟨trivial, rfl⟩
  sub_law _ _ _ := ⟨trivial, rfl⟩
  neg_law _ := ⟨trivial, rfl⟩
  normalize_law _ := ⟨trivial, rfl⟩
  mul_law _ _ := ⟨trivial, rfl⟩
  square_law _ := ⟨trivial, rfl⟩
  doubledSquare_law _ := ⟨trivial, rfl⟩
  condSet_zero _ _ := rfl
  condSet_one _ _ := rfl
  bytes_law {a} _ := by
    show leVal (leBytes 32 a.val) = a.val
    rw [leVal_leBytes, Nat.mod_eq_of_lt]
    exact lt_trans (ZMod.val_lt a) (by norm_num [p])
  touch_law _ := ⟨trivial, rfl⟩
  setBytes_law _ := ⟨trivial, rfl⟩

end Ristretto.Proofs
