import Verif.Proofs.EdGenericChecked
import Verif.Proofs.AsmField
import Verif.Props.Ed

/-!
# C87: programs over field elements in the generic build

In the generic build `BytesInto` reduces its receiver in place, so that `Bytes`, `BigInt`, `IsNegativeI`, `IsNonZeroI` and
`Abs` change the limbs of a variable of the caller.  `Model.Ed.grun` runs a program with this effect.
-/

namespace Ristretto.Props
open Model Proofs Ed
set_option autoImplicit false

/-- **C87.** In the generic build every program of calls on `FieldElement`s runs to the end.  What it returns is what
arithmetic in GF(2^255-19) gives, call after call, and so are the final values of its variables. -/
theorem C87_program (prog : List Model.Ed.Cmd) (hp : ∀ c ∈ prog, Ed.OnField c) :
    ∃ m outs a, Model.Ed.grun (Model.Ed.Mem.init : Model.Ed.Mem Fe25) prog = some (m, outs) ∧
      Ed.ARun Ed.AState.init prog a outs ∧ ∀ i, feVal25 (m.fes i) = a.fes i := by
  obtain ⟨m, m', outs, a, h1, h2, h3, h4, h5⟩ := Proofs.Ed.generic_fields prog hp
  exact ⟨m, outs, a, h1, h3, fun i => (h4 i).2⟩

/-- **C87** (agreement).  The generic build returns exactly what the default build returns, also where the specification
leaves a choice (roots of numbers that are no squares, and which of the two roots), and its variables stand for the same
numbers. -/
theorem C87_agree (prog : List Model.Ed.Cmd) (hp : ∀ c ∈ prog, Ed.OnField c) :
    ∃ m m' outs, Model.Ed.grun (Model.Ed.Mem.init : Model.Ed.Mem Fe25) prog = some (m, outs) ∧
      Model.Ed.run (Model.Ed.Mem.init : Model.Ed.Mem Fe51) prog = some (m', outs) ∧
      ∀ i, feVal25 (m.fes i) = feVal (m'.fes i) := by
  obtain ⟨m, m', outs, a, h1, h2, h3, h4, h5⟩ := Proofs.Ed.generic_fields prog hp
  exact ⟨m, m', outs, h1, h2, fun i => (h4 i).2.trans (h5 i).2.symm⟩

/-- **C87** (agreement with the build for amd64). -/
theorem C87_agreeAsm (prog : List Model.Ed.Cmd) (hp : ∀ c ∈ prog, Ed.OnField c) :
    ∃ m m' outs, Model.Ed.grun (Model.Ed.Mem.init : Model.Ed.Mem Fe25) prog = some (m, outs) ∧
      Model.Ed.run (Model.Ed.Mem.init : Model.Ed.Mem Model.Asm.FeAsm) prog = some (m', outs) := by
  obtain ⟨r, s, h1, h2, h3, h4⟩ := Proofs.Ed.grun_sim Proofs.Ed.fsim25 prog hp Proofs.Ed.msim25
  obtain ⟨r', s', k1, k2, k3, k4⟩ := Proofs.Ed.grun_sim (F := Model.Asm.FeAsm) Proofs.Ed.fsimLaw prog hp
    (m := Model.Ed.Mem.init) (m' := Model.Ed.Mem.init) fun _ => Proofs.Ed.fsimLaw.zero
  obtain rfl : s = s' := Option.some.inj (h2.symm.trans k2)
  rw [Proofs.Ed.grun_eq (fun _ => rfl)] at k1
  exact ⟨r.1, r'.1, r.2, h1, by rw [k1, h3, ← k3]⟩

/-- **C87** (no overflow).  The same programs on numbers that remember a loss (C86): nothing is ever lost, whatever would
have been read from a lost element. -/
theorem C87_exact (junk : Bytes 32) (prog : List Model.Ed.Cmd) (hp : ∀ c ∈ prog, Ed.OnField c) :
    ∃ m outs a, Model.Ed.grun (Model.Ed.Mem.init : Model.Ed.Mem (Fe25W junk)) prog = some (m, outs) ∧
      Ed.ARun Ed.AState.init prog a outs ∧ ∀ i, (m.fes i).isFine = true := by
  obtain ⟨r, s, h1, h2, h3, h4⟩ := Proofs.Ed.grun_sim (F := Fe25W junk) J25.fsimW prog hp
    (m := Model.Ed.Mem.init) (m' := Model.Ed.Mem.init) fun _ => J25.fsimW.zero
  rw [Proofs.Ed.grun_eq (fun _ => rfl)] at h2
  obtain ⟨a, j1, -⟩ := Proofs.Ed.run_step (F := Fp) prog Proofs.Ed.denotes_init (m' := s.1) (os := s.2) h2
  refine ⟨r.1, r.2, a, h1, h3 ▸ j1, fun i => ?_⟩
  obtain ⟨a', e, -⟩ := h4 i
  rw [e]
  rfl

/-- A program: -1, its bytes twice, a comparison of two elements that were rewritten in place, and an inverse. -/
example : ∀ c ∈ ([.fOne 0, .fNeg 0 0, .fBytes 0, .fSetBigInt 1 (-1), .fIsNegativeI 1, .fEqualsI 0 1, .fAbs 2 0, .fInverse 3 2,
    .fSqrt 4 1, .fBigInt 4] : List Model.Ed.Cmd), Ed.OnField c := by
  simp [Ed.OnField]

/-- **C87** (the effect is real).  `Bytes` changes the limbs of its receiver: after `SetOne`, `Neg` they are
`-1, 0, ..., 0`, and after `Bytes` all ten of them are different. -/
theorem C87_rewrites :
    ∃ m m' outs outs', Model.Ed.grun (Model.Ed.Mem.init : Model.Ed.Mem Fe25) [.fOne 0, .fNeg 0 0] = some (m, outs) ∧
      Model.Ed.grun (Model.Ed.Mem.init : Model.Ed.Mem Fe25) [.fOne 0, .fNeg 0 0, .fBytes 0] = some (m', outs') ∧
      m.fes 0 = ⟨-1, 0, 0, 0, 0, 0, 0, 0, 0, 0⟩ ∧
      m'.fes 0 = ⟨67108844, 33554431, 67108863, 33554431, 67108863, 33554431, 67108863, 33554431, 67108863, 33554431⟩ := by
  refine ⟨_, _, _, _, rfl, rfl, ?_, ?_⟩ <;> decide +kernel

end Ristretto.Props
