import Verif.Proofs.Field51CheckedSim
import Verif.Proofs.Sim51W
import Verif.Props.Field
import Verif.Props.Words

/-!
# C84: no wraparound in the field arithmetic of the default build

`Verif.Model.Field51Checked` writes the functions of field_radix51.go and field_mul64.go once more on words that remember
whether something was lost on the way to them: a sum, difference or product that does not fit into a `uint64`, a bit
shifted out by `<<`, a carry dropped by `ch, _ = bits.Add64(…)`.  `Fe51W junk` is the field of runs with these checks: an
element is lost as soon as one of its limbs lost something, every function of a lost element is lost, and whatever is read
from a lost element is the arbitrary `junk`.  (An element that `ConditionalSet` does not choose has no influence, even if
it is lost.)
-/

namespace Ristretto.Props
open Model Model.Words Words Proofs
set_option autoImplicit false

/-! ## What the checks mean -/

/-- The number a pair `(hi, lo)` of words stands for. -/
def pairNat (c : W × W) : ℕ := c.1.val.toNat * 2 ^ 64 + c.2.val.toNat

/-- **C84** (meaning of the checks).  When nothing was lost, the result is the exact one. -/
theorem C84_meaning (x y : W) :
    ((x + y).ok = true → (x + y).val.toNat = x.val.toNat + y.val.toNat) ∧
    ((x - y).ok = true → (x - y).val.toNat + y.val.toNat = x.val.toNat) ∧
    ((x * y).ok = true → (x * y).val.toNat = x.val.toNat * y.val.toNat) ∧
    ((x <<< (13 : W)).ok = true → (x <<< (13 : W)).val.toNat = x.val.toNat * 2 ^ 13) := by
  refine ⟨fun h => ?_, fun h => ?_, fun h => ?_, fun h => ?_⟩
  · have h : (x.ok && y.ok && decide (x.val.toNat + y.val.toNat < 2 ^ 64)) = true := h
    rw [Bool.and_eq_true, decide_eq_true_eq] at h
    exact toNat_add_of_lt _ _ h.2
  · have h : (x.ok && y.ok && decide (y.val.toNat ≤ x.val.toNat)) = true := h
    rw [Bool.and_eq_true, decide_eq_true_eq] at h
    have e := Fe51.sub_of_lt _ _ h.2
    show (x.val - y.val).toNat + _ = _
    rw [e]; omega
  · have h : (x.ok && y.ok && decide (x.val.toNat * y.val.toNat < 2 ^ 64)) = true := h
    rw [Bool.and_eq_true, decide_eq_true_eq] at h
    exact toNat_mul_of_lt _ _ h.2
  · have h : (x.ok && true && decide (x.val.toNat * 2 ^ (13 : UInt64).toNat < 2 ^ 64)) = true := h
    rw [Bool.and_eq_true, decide_eq_true_eq] at h
    show (x.val <<< 13).toNat = _
    rw [UInt64.toNat_shiftLeft]
    have e2 : (13 : UInt64).toNat % 64 = 13 := rfl
    rw [e2, Nat.shiftLeft_eq]
    exact Nat.mod_eq_of_lt h.2

/-- **C84** (meaning of the checks).  The 128-bit accumulations are exact when nothing was lost. -/
theorem C84_accumulate (c : W × W) (x y : W) (h : (W.mulAcc c x y).1.ok = true) :
    pairNat (W.mulAcc c x y) = pairNat c + x.val.toNat * y.val.toNat := by
  have h : (c.1.ok && (x.ok && y.ok) && (c.2.ok && (x.ok && y.ok) && true) && decide ((bitsAdd64 c.1.val
      (bitsMul64 x.val y.val).1 (bitsAdd64 c.2.val (bitsMul64 x.val y.val).2 0).2).2 = 0)) = true := h
  rw [Bool.and_eq_true, decide_eq_true_eq] at h
  obtain ⟨-, h⟩ := h
  have hm := bitsMul64_val x.val y.val
  show v128 (mulAcc (c.1.val, c.2.val) x.val y.val) = v128 (c.1.val, c.2.val) + _
  apply mulAcc_val
  rw [← hm]
  generalize bitsMul64 x.val y.val = hl at *
  obtain ⟨b1, b2⟩ := hl
  obtain ⟨⟨a1, k1⟩, ⟨a2, k2⟩⟩ := c
  have h' := congrArg UInt64.toNat h
  have := a1.toNat_lt
  have := a2.toNat_lt
  have := b1.toNat_lt
  have := b2.toNat_lt
  simp only [bitsAdd64, UInt64.toNat_ofNat', UInt64.toNat_zero, v128] at *
  omega

/-! ## Functions -/

/-- **C84** (functions).  Within the limb bounds of C15 and C16 nothing is lost in any of the functions, and the checked
functions compute what the model of the code does. -/
theorem C84_functions (a b : Fe51) :
    (∀ B C, LimbsLe B a → LimbsLe C b → B + C < 2 ^ 64 →
      (WFe.add (.of a) (.of b)).ok = true ∧ (WFe.add (.of a) (.of b)).val = Fe51.add a b) ∧
    (LimbsLe (2 ^ 63) a → LimbsLe (2 ^ 63) b →
      (WFe.sub (.of a) (.of b)).ok = true ∧ (WFe.sub (.of a) (.of b)).val = Fe51.sub a b) ∧
    (LimbsLe (2 ^ 63) a → (WFe.neg (.of a)).ok = true ∧ (WFe.neg (.of a)).val = Fe51.neg a) ∧
    (LimbsLe (2 ^ 63) a →
      (WFe.setReduced (.of a)).ok = true ∧ (WFe.setReduced (.of a)).val = Fe51.setReduced a) ∧
    (LimbsLe (2 ^ 54) a → LimbsLe (2 ^ 54) b →
      (WFe.mul (.of a) (.of b)).ok = true ∧ (WFe.mul (.of a) (.of b)).val = Fe51.mul a b) ∧
    (LimbsLe (2 ^ 54) a → (WFe.square (.of a)).ok = true ∧ (WFe.square (.of a)).val = Fe51.square a) ∧
    (LimbsLe (6 * tight) a →
      (WFe.doubledSquare (.of a)).ok = true ∧ (WFe.doubledSquare (.of a)).val = Fe51.doubledSquare a) :=
  ⟨fun _ _ ha hb h => ⟨(W51.add_in5 (W51.in5_of ha) (W51.in5_of hb) h).ok, rfl⟩,
    fun ha hb => ⟨(W51.sub_in5 (W51.in5_of ha) le_rfl (W51.in5_of hb)).ok, rfl⟩,
    fun ha => ⟨(W51.neg_in5 (W51.in5_of ha)).ok, rfl⟩,
    fun ha => ⟨(W51.setReduced_in5 (W51.in5_of ha)).ok, rfl⟩,
    fun ha hb => ⟨W51.mul_ok (W51.in5_of ha) (W51.in5_of hb), rfl⟩,
    fun ha => ⟨W51.square_ok (W51.in5_of ha), rfl⟩,
    fun ha => ⟨W51.doubledSquare_ok (W51.in5_of ha), rfl⟩⟩

/-- Operands that meet the bounds, with limbs of 54 bits. -/
example : LimbsLe (2 ^ 54) ⟨2 ^ 54, 2 ^ 54 - 1, 2 ^ 53 + 7, 2 ^ 54, 2 ^ 54⟩ ∧
    LimbsLe (6 * tight) ⟨6 * 2 ^ 51, 2 ^ 53, 2 ^ 52, 1, 6 * 2 ^ 51 + 1⟩ := by
  unfold LimbsLe; decide +kernel

/-- The checks are not vacuous: beyond the bounds every function loses something. -/
theorem C84_detects :
    let m : Fe51 := ⟨2 ^ 64 - 1, 2 ^ 64 - 1, 2 ^ 64 - 1, 2 ^ 64 - 1, 2 ^ 64 - 1⟩
    let one : Fe51 := ⟨1, 0, 0, 0, 0⟩
    (WFe.add (.of m) (.of one)).ok = false ∧ (WFe.sub (.of m) (.of one)).ok = false ∧ (WFe.neg (.of m)).ok = false ∧
    (WFe.setReduced (.of m)).ok = false ∧ (WFe.mul (.of one) (.of m)).ok = false ∧ (WFe.square (.of m)).ok = false ∧
    (WFe.doubledSquare (.of bigFe)).ok = false := by
  decide +kernel

/-! ## Programs -/

/-- The environment of the package in a run with checks. -/
def checkedEnv (junk : Bytes 32) (sha512 : List UInt8 → Bytes 64) : Env (Fe51W junk) :=
  ⟨Sha256.sha256, sha512, Fe51W.fineTab baseTable⟩

/-- **C84** (package ristretto).  In every program over the API that starts from zero values, whatever words it puts into
scalars, nothing is lost on the way to any point or table, and whatever a wraparound would lead to, the caller sees the
same. -/
theorem C84_programs (junk : Bytes 32) (sha512 : List UInt8 → Bytes 64) (prog : List WCmd) :
    (∀ m outs, wrun (checkedEnv junk sha512) Mem.init prog = some (m, outs) →
      ∀ k, Fe51W.ptFine (m.pts k) = true ∧ Fe51W.tabFine (m.tabs k) = true) ∧
    (wrun (checkedEnv junk sha512) Mem.init prog).map Prod.snd = (wrun (goEnv sha512) Mem.init prog).map Prod.snd := by
  have hs := Proofs.Words.wrun_sim (checkedEnv junk sha512) sha256_avoids
    (W51.holdsT_fine (junk := junk) holds_baseTable) prog _ _ Proofs.Words.nrel_init
  constructor
  · intro m outs h k
    rw [h] at hs
    cases h2 : nrun (checkedEnv junk sha512).sha256 (checkedEnv junk sha512).sha512 NState.init prog with
    | none => rw [h2] at hs; exact hs.elim
    | some y =>
      rw [h2] at hs
      exact ⟨W51.ptFine_of (hs.1.pts k), W51.tabFine_of (hs.1.tabs k)⟩
  · rw [C71_refinement]
    exact Proofs.Words.nsim_out hs

/-- **C84** (package edwards25519).  The same for programs over the exported methods of package edwards25519: nothing is
lost on the way to any field element, or to a point that is known to be on the curve. -/
theorem C84_edwards (junk : Bytes 32) (prog : List Model.Ed.Cmd) (m : Model.Ed.Mem (Fe51W junk)) (outs : List Model.Ed.Out)
    (h : Model.Ed.run Model.Ed.Mem.init prog = some (m, outs)) :
    ∃ a, Ed.ARun Ed.AState.init prog a outs ∧ (∀ k, (m.fes k).isFine = true) ∧
      ∀ k P, a.exts k = some P → Fe51W.ptFine (m.exts k) = true := by
  obtain ⟨a, h1, h2⟩ := Proofs.Ed.run_step prog Proofs.Ed.denotes_init h
  exact ⟨a, h1, fun k => W51.isFine_of (h2.fe k).1, fun k P hP => W51.ptFine_small (h2.ext k P hP).small⟩

/-- **C84** (package edwards25519, all variables).  Also for variables that hold no points of the curve, such as the points
that a failed `SetRistretto` leaves, or sums of them: the run with checks returns what the run without checks returns, and
nothing is lost on the way to any variable. -/
theorem C84_everywhere (junk : Bytes 32) (prog : List Model.Ed.Cmd) :
    (Model.Ed.run (Model.Ed.Mem.init : Model.Ed.Mem (Fe51W junk)) prog).map Prod.snd =
      (Model.Ed.run (Model.Ed.Mem.init : Model.Ed.Mem Fe51) prog).map Prod.snd ∧
    ∀ m outs, Model.Ed.run (Model.Ed.Mem.init : Model.Ed.Mem (Fe51W junk)) prog = some (m, outs) → ∀ k,
      (m.fes k).isFine = true ∧ Fe51W.ptFine (m.exts k) = true ∧
      ((m.cpls k).X.isFine = true ∧ (m.cpls k).Y.isFine = true ∧ (m.cpls k).Z.isFine = true ∧ (m.cpls k).T.isFine = true) ∧
      ((m.prjs k).X.isFine = true ∧ (m.prjs k).Y.isFine = true ∧ (m.prjs k).Z.isFine = true) ∧
      Fe51W.nielsFine (m.niels k) = true ∧ Fe51W.tabFine (m.tabs k) = true ∧
      ((m.jacs k).S.isFine = true ∧ (m.jacs k).T.isFine = true) := by
  have h := W51.run51W (junk := junk) prog
  have h' := Proofs.Ed.run51 prog
  constructor
  · cases h0 : Model.Ed.run (Model.Ed.Mem.init : Model.Ed.Mem Fp) prog <;>
      cases h1 : Model.Ed.run (Model.Ed.Mem.init : Model.Ed.Mem (Fe51W junk)) prog <;>
      cases h2 : Model.Ed.run (Model.Ed.Mem.init : Model.Ed.Mem Fe51) prog <;> rw [h0, h1] at h <;> rw [h0, h2] at h'
    · rfl
    · exact h'.elim
    · exact h.elim
    · exact h.elim
    · exact h.elim
    · exact h.elim
    · exact h'.elim
    · exact congrArg some (h.1.trans h'.1.symm)
  · intro m outs h1 k
    rw [h1] at h
    cases h0 : Model.Ed.run (Model.Ed.Mem.init : Model.Ed.Mem Fp) prog with
    | none => rw [h0] at h; exact h.elim
    | some r =>
      rw [h0] at h
      have a := h.2
      exact ⟨W51.isFine_RW (a.fe k), W51.ptFine_RW (a.ext k),
        ⟨W51.isFine_RW (a.cpl k).X, W51.isFine_RW (a.cpl k).Y, W51.isFine_RW (a.cpl k).Z, W51.isFine_RW (a.cpl k).T⟩,
        ⟨W51.isFine_RW (a.prj k).X, W51.isFine_RW (a.prj k).Y, W51.isFine_RW (a.prj k).Z⟩,
        W51.nielsFine_RW (a.nls k), W51.tabFine_RW (a.tab k), ⟨W51.isFine_RW (a.jac k).S, W51.isFine_RW (a.jac k).T⟩⟩

/-- A program over points that are not on the curve: what a failed decoding leaves, added to the base point, doubled and
encoded. -/
example (junk : Bytes 32) : ((Model.Ed.run (Model.Ed.Mem.init : Model.Ed.Mem (Fe51W junk))
    [.eSetRistretto 0 (Vector.replicate 32 255), .eBase 1, .eAdd 2 0 1, .eDouble 2 2, .eRistretto 2])).isSome = true := rfl

/-- A lost element is seen: it is not fine, and its bytes are junk. -/
example (junk : Bytes 32) :
    let m : Fe51W junk := Fe51W.fine ⟨18446744073709551615, 0, 0, 0, 0⟩
    (FieldOps.add m FieldOps.feOne).isFine = false ∧ FieldOps.bytes (FieldOps.add m FieldOps.feOne) = junk :=
  ⟨rfl, rfl⟩

/-- A program that does not panic, with a derived point, a multiplication and an encoding. -/
example (junk : Bytes 32) (sha512 : List UInt8 → Bytes 64) :
    (wrun (checkedEnv junk sha512) Mem.init [.put 0 (bigWords), .call (.pBase 0), .call (.pAdd 1 0 0),
      .call (.pBytes 1)]).isSome = true := rfl

end Ristretto.Props
