import Verif.Proofs.AsmCall
import Verif.Props.Field

/-!
# C83: the frame pointer of the caller

BP holds the frame pointer of the calling Go function.  `reg` is what the registers held at the call.
-/

namespace Ristretto.Props
open Model Proofs Model.Alias Model.Asm
set_option autoImplicit false

/-- **C83**, for the square: BP is as before, whatever it was.  For the product this is false (`C83_mul_false`). -/
theorem C83_square_partial (reg : Reg → Val) (out a : Addr) (m : FMem) :
    ∃ s, feSquareCpu reg out a m = some s ∧ s.reg .bp = reg .bp := Asm.feSquareCpu_bp reg out a m

/-- What the product leaves in BP: a number, the carry out of the lowest limb of the product. -/
theorem C83_mul (reg : Reg → Val) (out a b : Addr) (m : FMem) (ha : LimbsLe (2 ^ 54) (m a)) (hb : LimbsLe (2 ^ 54) (m b)) :
    ∃ s x, feMulCpu reg out a b m = some s ∧ s.reg .bp = .num x ∧
      x.toNat = ((m a).l0.toNat * (m b).l0.toNat + 19 * ((m a).l1.toNat * (m b).l4.toNat + (m a).l2.toNat * (m b).l3.toNat +
        (m a).l3.toNat * (m b).l2.toNat + (m a).l4.toNat * (m b).l1.toNat)) / 2 ^ 51 := by
  obtain ⟨s, h1, h2⟩ := Asm.feMulCpu_bp reg out a b m
  exact ⟨s, _, h1, h2, Asm.coef0_hi _ _ ha hb⟩

/-- **C83** is false of the product: a pointer in BP never survives it, for no operands at all. -/
theorem C83_mul_false (reg : Reg → Val) (out a b : Addr) (m : FMem) (p : Addr) (hp : reg .bp = .ptr p) :
    ∃ s, feMulCpu reg out a b m = some s ∧ s.reg .bp ≠ reg .bp := by
  obtain ⟨s, h1, h2⟩ := Asm.feMulCpu_bp reg out a b m
  exact ⟨s, h1, by rw [h2, hp]; exact fun h => by cases h⟩

/-- The functions return the memory of C44. -/
theorem C83_same (reg : Reg → Val) (out a b : Addr) (m : FMem) :
    (feMulCpu reg out a b m).map (·.mem) = feMulI reg out a b m ∧ (feSquareCpu reg out a m).map (·.mem) = feSquareI reg out a m :=
  ⟨rfl, rfl⟩

/-- The hypotheses are met. -/
example : LimbsLe (2 ^ 54) (⟨2 ^ 51 - 1, 3, 5, 7, 2 ^ 54⟩ : Fe51) := by unfold LimbsLe; decide
example : ∃ reg : Reg → Val, reg .bp = .ptr ⟨.var 7, 0⟩ := ⟨fun _ => .ptr ⟨.var 7, 0⟩, rfl⟩

/-- `2^30 · 2^30` leaves `2^9` in BP. -/
example : ((feMulCpu (fun _ => .ptr ⟨.var 7, 0⟩) ⟨.var 0, 0⟩ ⟨.var 1, 0⟩ ⟨.var 1, 0⟩ (fun _ => ⟨2 ^ 30, 0, 0, 0, 0⟩)).bind (·.num .bp)) = some 512 := by
  decide +kernel
example : ((feSquareCpu (fun _ => .ptr ⟨.var 7, 0⟩) ⟨.var 0, 0⟩ ⟨.var 1, 0⟩ (fun _ => ⟨2 ^ 30, 0, 0, 0, 0⟩)).bind (·.ptr .bp)) = some ⟨.var 7, 0⟩ := by
  decide +kernel

end Ristretto.Props
