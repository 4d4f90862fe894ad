import Verif.Proofs.Field25CheckedSim
import Verif.Props.Generic
import Verif.Props.Words

/-!
# C86: no overflow in the field arithmetic of the generic build

`Verif.Model.Field25Checked` writes the functions of field_generic.go once more on numbers that remember whether something
was lost on the way to them: a sum, difference, product or negation that does not fit into an `int32` or `int64`, a `<<`
that is not the multiplication by the power of two, a conversion to `int32` that changes the number.  `Fe25W junk` is the
field of runs with these checks: an element is lost as soon as one of its limbs lost something, every function of a lost
element is lost, and whatever is read from a lost element is the arbitrary `junk`.  (An element that `ConditionalSet` does
not choose has no influence, even if it is lost.)
-/

namespace Ristretto.Props
open Model Model.Words Words Proofs
set_option autoImplicit false

/-! ## What the checks mean -/

/-- **C86** (meaning of the checks, `int32`).  When nothing was lost, the result is the exact one, and nothing was lost
before. -/
theorem C86_meaning32 (x y : J32) :
    ((x + y).ok = true → (x + y).val.toInt = x.val.toInt + y.val.toInt ∧ x.ok = true ∧ y.ok = true) ∧
    ((x - y).ok = true → (x - y).val.toInt = x.val.toInt - y.val.toInt ∧ x.ok = true ∧ y.ok = true) ∧
    ((x * y).ok = true → (x * y).val.toInt = x.val.toInt * y.val.toInt ∧ x.ok = true ∧ y.ok = true) ∧
    ((-x).ok = true → (-x).val.toInt = -x.val.toInt ∧ x.ok = true) ∧
    ((x <<< (26 : J32)).ok = true → (x <<< (26 : J32)).val.toInt = x.val.toInt * 2 ^ 26 ∧ x.ok = true) ∧
    ((x >>> y).ok = true → x.ok = true ∧ y.ok = true) ∧
    x.to64.val.toInt = x.val.toInt ∧ (x.to64.ok = true → x.ok = true) := by
  have key : ∀ {v : Int32} {z : ℤ} {b : Bool}, (J32.exact v z b).ok = true → b = true ∧ v.toInt = z := by
    intro v z b h
    have h : (b && decide (v.toInt = z)) = true := h
    rw [Bool.and_eq_true, decide_eq_true_eq] at h
    exact h
  refine ⟨fun h => ?_, fun h => ?_, fun h => ?_, fun h => ?_, fun h => ?_, fun h => ?_, Int32.toInt_toInt64 _, fun h => h⟩
  · obtain ⟨h1, h2⟩ := key h; rw [Bool.and_eq_true] at h1; exact ⟨h2, h1⟩
  · obtain ⟨h1, h2⟩ := key h; rw [Bool.and_eq_true] at h1; exact ⟨h2, h1⟩
  · obtain ⟨h1, h2⟩ := key h; rw [Bool.and_eq_true] at h1; exact ⟨h2, h1⟩
  · obtain ⟨h1, h2⟩ := key h; exact ⟨h2, h1⟩
  · obtain ⟨h1, h2⟩ := key h; rw [Bool.and_eq_true] at h1; exact ⟨h2, h1.1⟩
  · have h : (x.ok && y.ok) = true := h
    rwa [Bool.and_eq_true] at h

/-- **C86** (meaning of the checks, `int64`). -/
theorem C86_meaning64 (x y : J64) :
    ((x + y).ok = true → (x + y).val.toInt = x.val.toInt + y.val.toInt ∧ x.ok = true ∧ y.ok = true) ∧
    ((x - y).ok = true → (x - y).val.toInt = x.val.toInt - y.val.toInt ∧ x.ok = true ∧ y.ok = true) ∧
    ((x * y).ok = true → (x * y).val.toInt = x.val.toInt * y.val.toInt ∧ x.ok = true ∧ y.ok = true) ∧
    ((x <<< (26 : J64)).ok = true → (x <<< (26 : J64)).val.toInt = x.val.toInt * 2 ^ 26 ∧ x.ok = true) ∧
    ((x >>> y).ok = true → x.ok = true ∧ y.ok = true) ∧
    (x.to32.ok = true → x.to32.val.toInt = x.val.toInt ∧ x.ok = true) := by
  have key : ∀ {v : Int64} {z : ℤ} {b : Bool}, (J64.exact v z b).ok = true → b = true ∧ v.toInt = z := by
    intro v z b h
    have h : (b && decide (v.toInt = z)) = true := h
    rw [Bool.and_eq_true, decide_eq_true_eq] at h
    exact h
  refine ⟨fun h => ?_, fun h => ?_, fun h => ?_, fun h => ?_, fun h => ?_, fun h => ?_⟩
  · obtain ⟨h1, h2⟩ := key h; rw [Bool.and_eq_true] at h1; exact ⟨h2, h1⟩
  · obtain ⟨h1, h2⟩ := key h; rw [Bool.and_eq_true] at h1; exact ⟨h2, h1⟩
  · obtain ⟨h1, h2⟩ := key h; rw [Bool.and_eq_true] at h1; exact ⟨h2, h1⟩
  · obtain ⟨h1, h2⟩ := key h; rw [Bool.and_eq_true] at h1; exact ⟨h2, h1.1⟩
  · have h : (x.ok && y.ok) = true := h
    rwa [Bool.and_eq_true] at h
  · have h : (x.ok && decide (x.val.toInt32.toInt = x.val.toInt)) = true := h
    rw [Bool.and_eq_true, decide_eq_true_eq] at h
    exact ⟨h.2, h.1⟩

/-! ## Functions -/

/-- **C86** (functions).  Within the stated limb bounds nothing is lost in any of the functions, and the checked functions
compute what the model of the code does.  The first factor of a product may have limbs of 27 bits, the second one only limbs
whose product with 19 is an `int32`. -/
theorem C86_functions (a b : Fe25) :
    (∀ B C B' C', Limbs25 B C a → Limbs25 B' C' b → B + B' < 2 ^ 31 → C + C' < 2 ^ 31 →
      (JFe.add (.of a) (.of b)).get = some (Fe25.add a b) ∧ (JFe.sub (.of a) (.of b)).get = some (Fe25.sub a b)) ∧
    (Limbs25 (2 ^ 31 - 1) (2 ^ 31 - 1) a → (JFe.neg (.of a)).get = some (Fe25.neg a)) ∧
    (JFe.normalize (.of a)).get = some (Fe25.normalize a) ∧
    (Limbs25 (2 ^ 26 + 2 ^ 25) (2 ^ 26 + 2 ^ 25) a → (JFe.reduce (.of a)).get = some (Fe25.reduce a)) ∧
    (Limbs25 (2 ^ 27) (2 ^ 27) a → Limbs25 ((2 ^ 31 - 1) / 19) ((2 ^ 31 - 1) / 19) b →
      (JFe.mul (.of a) (.of b)).get = some (Fe25.mul a b)) ∧
    (Limbs25 (2 ^ 27) (2 ^ 27) a → (JFe.square (.of a)).get = some (Fe25.square a)) ∧
    (Limbs25 ((2 ^ 31 - 1) / 19) ((2 ^ 31 - 1) / 19) a →
      (JFe.doubledSquare (.of a)).get = some (Fe25.doubledSquare a)) :=
  ⟨fun _ _ _ _ ha hb h h' => ⟨J25.get_of (J25.add_ok ha hb h h') rfl, J25.get_of (J25.sub_ok ha hb h h') rfl⟩,
    fun ha => J25.get_of (J25.neg_ok ha (by norm_num) (by norm_num)) rfl,
    J25.get_of (J25.normalize_ok a) rfl,
    fun ha => J25.get_of (J25.reduce_ok ha) rfl,
    fun ha hb => J25.get_of (J25.mul_ok ha hb) rfl,
    fun ha => J25.get_of (J25.square_ok ha) rfl,
    fun ha => J25.get_of (J25.doubledSquare_ok ha) rfl⟩

/-- **C86** (functions).  Every buffer is read without loss. -/
theorem C86_setBytes (b : Bytes 32) : (JFe.setBytes b).get = some (Fe25.setBytes b) :=
  J25.get_of (J25.setBytes_ok b) rfl

/-- Operands that meet the bounds. -/
example : Limbs25 (2 ^ 27) (2 ^ 27) ⟨2 ^ 27, -2 ^ 27, 5, 2 ^ 26, 0, 1, -3, 2 ^ 27, 2 ^ 27, 2 ^ 27⟩ ∧
    Limbs25 ((2 ^ 31 - 1) / 19) ((2 ^ 31 - 1) / 19) ⟨113025455, -113025455, 0, 2 ^ 26, 1, 2, 3, 4, 5, 113025455⟩ := by
  decide +kernel

/-- The checks are not vacuous: the bounds of `Add`, `Neg` and of the second factor of `Mul` are sharp, and with limbs far
beyond the other bounds something is lost too. -/
theorem C86_detects :
    let m : Fe25 := ⟨2147483647, 2147483647, 2147483647, 2147483647, 2147483647, 2147483647, 2147483647, 2147483647,
      2147483647, 2147483647⟩
    let one : Fe25 := ⟨1, 0, 0, 0, 0, 0, 0, 0, 0, 0⟩
    (JFe.add (.of m) (.of one)).get = none ∧ (JFe.sub (.of (Fe25.neg m)) (.of m)).get = none ∧
    (JFe.neg (.of ⟨-2147483648, 0, 0, 0, 0, 0, 0, 0, 0, 0⟩)).get = none ∧ (JFe.reduce (.of m)).get = none ∧
    (JFe.mul (.of one) (.of ⟨0, 113025456, 0, 0, 0, 0, 0, 0, 0, 0⟩)).get = none ∧
    (JFe.square (.of m)).get = none ∧ (JFe.doubledSquare (.of m)).get = none := by
  decide +kernel

/-! ## Programs -/

/-- The environment of the package in a run of the generic build with checks. -/
def checkedGenericEnv (junk : Bytes 32) (sha512 : List UInt8 → Bytes 64) : Env (Fe25W junk) :=
  ⟨Sha256.sha256, sha512, Fe25W.fineTab baseTable25⟩

/-- **C86** (package ristretto).  In every program over the API that never uses a freshly decoded point as the second
operand of `Add` or `Sub`, as the argument of a scalar multiplication or to fill a table (`Safe`, Spec/Raw.lean), whatever
words it puts into scalars, nothing is lost in the generic build on the way to any point or table, and whatever an overflow
would lead to, the caller sees the same as in the generic build without checks and in the default build. -/
theorem C86_programs (junk : Bytes 32) (sha512 : List UInt8 → Bytes 64) (prog : List WCmd)
    (h : Safe (calls prog) = true) :
    (∀ m outs, wrun (checkedGenericEnv junk sha512) Mem.init prog = some (m, outs) →
      ∀ k, Fe25W.ptFine (m.pts k) = true ∧ Fe25W.tabFine (m.tabs k) = true) ∧
    (wrun (checkedGenericEnv junk sha512) Mem.init prog).map Prod.snd =
      (wrun (genericEnv sha512) Mem.init prog).map Prod.snd ∧
    (wrun (checkedGenericEnv junk sha512) Mem.init prog).map Prod.snd =
      (wrun (goEnv sha512) Mem.init prog).map Prod.snd := by
  have he : Sim.SimEnv (checkedGenericEnv junk sha512) (⟨Sha256.sha256, sha512, Fe25.idealT baseTable⟩ : Env Fp) :=
    ⟨rfl, rfl, J25.fineTab_rel Fe25.baseTable25_rel⟩
  have he' : Sim.SimEnv (genericEnv sha512) (⟨Sha256.sha256, sha512, Fe25.idealT baseTable⟩ : Env Fp) :=
    ⟨rfl, rfl, Fe25.baseTable25_rel⟩
  have e : (wrun (checkedGenericEnv junk sha512) Mem.init prog).map Prod.snd =
      (wrun (genericEnv sha512) Mem.init prog).map Prod.snd := by
    rw [Proofs.Words.wrun_backends he prog (Sim.simMem_init _) h, Proofs.Words.wrun_backends he' prog (Sim.simMem_init _) h]
  refine ⟨fun m outs hr k => ?_, e, e.trans (C71_generic sha512 prog h)⟩
  obtain ⟨raw, m', hm⟩ := J25.wrun_simMem he prog (Sim.simMem_init _) h hr
  exact ⟨J25.ptFine_of (hm.loose k), J25.tabFine_of (hm.tabs k)⟩

/-- A lost element is seen: it is not fine, and its bytes are junk. -/
example (junk : Bytes 32) :
    let m : Fe25W junk := Fe25W.fine ⟨2147483647, 0, 0, 0, 0, 0, 0, 0, 0, 0⟩
    (FieldOps.add m FieldOps.feOne).isFine = false ∧ FieldOps.bytes (FieldOps.add m FieldOps.feOne) = junk :=
  ⟨rfl, rfl⟩

/-- A safe program that does not panic. -/
example (junk : Bytes 32) (sha512 : List UInt8 → Bytes 64) (b : Bytes 32) :
    let prog : List WCmd := [.put 0 bigWords, .call (.pSetBytes 0 b), .call (.pBase 1), .call (.pAdd 2 0 1),
      .call (.pDouble 3 0), .call (.pScalarMult 4 3 0), .call (.pBytes 4)]
    Safe (calls prog) = true ∧ (wrun (checkedGenericEnv junk sha512) Mem.init prog).isSome = true := ⟨rfl, rfl⟩

set_option maxRecDepth 1000000 in
/-- **C86** (the restriction is needed).  The point decoded from an encoding of 7 times the base point, as the second operand
of `Add`, makes the generic build overflow: the difference of its coordinates `Y` and `X`
is too large to be multiplied by 19 in an `int32` (curve.go:97-99).  (`C45_false` shows the wrong sum.) -/
theorem C86_decoded :
    dec7.2 = true ∧
    (JFe.mul (.of (FieldOps.sub FieldOps.epBaseY FieldOps.epBaseX)) (.of (FieldOps.sub dec7.1.Y dec7.1.X))).get = none := by
  decide +kernel

end Ristretto.Props
