import Verif.Proofs.AsmLeak

/-!
# C66: the amd64 assembly reveals nothing but its arguments
-/

namespace Ristretto.Props
open Model Proofs Model.Alias Model.Asm
set_option autoImplicit false

/-- The accesses of `feMul`, as pairs (is it a write, which argument, which limb). -/
def mulAccesses : List (Bool × ℕ × ℕ) := (Proofs.Asm.ktrace (fun _ => none) feMulProg).getD []

/-- The accesses of `feSquare`. -/
def squareAccesses : List (Bool × ℕ × ℕ) := (Proofs.Asm.ktrace (fun _ => none) feSquareProg).getD []

/-- **C66**: the memory accesses of the multiplication are determined by the three addresses; they do not depend on the
operands, on the rest of memory, or on what the registers held before. -/
theorem C66_mul : ∃ f : Addr → Addr → Addr → List Access, ∀ (reg : Reg → Val) (out a b : Addr) (m : FMem),
    feMulTrace reg out a b m = f out a b := by
  refine ⟨fun out a b => Proofs.Asm.fill (fun off => if off = 0 then out else if off = 8 then a else b) mulAccesses,
    fun reg out a b m => Proofs.Asm.feMulTrace_eq reg out a b m ?_⟩
  decide +kernel

/-- **C66**: the same for the square. -/
theorem C66_square : ∃ f : Addr → Addr → List Access, ∀ (reg : Reg → Val) (out a : Addr) (m : FMem),
    feSquareTrace reg out a m = f out a := by
  refine ⟨fun out a => Proofs.Asm.fill (fun off => if off = 0 then out else a) squareAccesses,
    fun reg out a m => Proofs.Asm.feSquareTrace_eq reg out a m ?_⟩
  decide +kernel

/-- **C66** (reads before writes): both functions first read only the operands, and then write the five limbs of the
result once each, in order. -/
theorem C66_shape (reg : Reg → Val) (out a b : Addr) (m : FMem) :
    (∃ rs, feMulTrace reg out a b m = rs ++ (List.range 5).map (fun i => ⟨true, out, i⟩) ∧
      ∀ x ∈ rs, x.write = false ∧ (x.addr = a ∨ x.addr = b) ∧ x.limb < 5) ∧
    ∃ rs, feSquareTrace reg out a m = rs ++ (List.range 5).map (fun i => ⟨true, out, i⟩) ∧
      ∀ x ∈ rs, x.write = false ∧ x.addr = a ∧ x.limb < 5 := by
  constructor
  · have h : ∃ l, Proofs.Asm.ktrace (fun _ => none) feMulProg = some (l ++ (List.range 5).map fun i => (true, 0, i)) ∧
        ∀ x ∈ l, x.1 = false ∧ x.2.1 ≠ 0 ∧ x.2.2 < 5 := ⟨mulAccesses.take 50, by decide +kernel, by decide +kernel⟩
    obtain ⟨l, h1, h2⟩ := h
    refine ⟨Proofs.Asm.fill (fun off => if off = 0 then out else if off = 8 then a else b) l, ?_, ?_⟩
    · rw [Proofs.Asm.feMulTrace_eq reg out a b m h1]; simp [Proofs.Asm.fill]
    · intro x hx
      simp only [Proofs.Asm.fill, List.mem_map] at hx
      obtain ⟨y, hy, rfl⟩ := hx
      obtain ⟨a1, a2, a3⟩ := h2 y hy
      refine ⟨a1, ?_, a3⟩
      simp only [if_neg a2]
      by_cases h8 : y.2.1 = 8
      · left; rw [if_pos h8]
      · right; rw [if_neg h8]
  · have h : ∃ l, Proofs.Asm.ktrace (fun _ => none) feSquareProg = some (l ++ (List.range 5).map fun i => (true, 0, i)) ∧
        ∀ x ∈ l, x.1 = false ∧ x.2.1 ≠ 0 ∧ x.2.2 < 5 := ⟨squareAccesses.take 30, by decide +kernel, by decide +kernel⟩
    obtain ⟨l, h1, h2⟩ := h
    refine ⟨Proofs.Asm.fill (fun off => if off = 0 then out else a) l, ?_, ?_⟩
    · rw [Proofs.Asm.feSquareTrace_eq reg out a m h1]; simp [Proofs.Asm.fill]
    · intro x hx
      simp only [Proofs.Asm.fill, List.mem_map] at hx
      obtain ⟨y, hy, rfl⟩ := hx
      obtain ⟨a1, a2, a3⟩ := h2 y hy
      exact ⟨a1, by simp only [if_neg a2], a3⟩

/-- The traces are not trivial: 50 reads for a product, 30 for a square. -/
example : mulAccesses.length = 55 ∧ squareAccesses.length = 35 := by decide +kernel

end Ristretto.Props
