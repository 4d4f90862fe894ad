import Verif.Model.AliasGeneric

/-!
# Field operations of the generic build on shared memory
-/

set_option autoImplicit false

namespace Ristretto.Proofs.Alias25
open Ristretto.Model Ristretto.Model.Alias25

/-- `*a = v`. -/
def assign25 (m : Mem25) (a : Nat) (v : Fe25) : Mem25 := fun x => if x = a then v else m x

theorem rd_wr_ne (m : Mem25) (a b i j : Nat) (hi : i < 10) (hj : j < 10) (hij : j ≠ i) (v : Int32) :
    rd25 (wr25 m a i v) b j = rd25 m b j := by
  unfold rd25 wr25
  split
  · rcases i with _ | _ | _ | _ | _ | _ | _ | _ | _ | _ | i <;> rcases j with _ | _ | _ | _ | _ | _ | _ | _ | _ | _ | j <;>
      first | rfl | omega
  · rfl

theorem storeI25_eq (fe : Nat) (v : Fe25) (m : Mem25) : storeI25 fe v m = assign25 m fe v := by
  funext x
  simp only [storeI25, wr25, assign25]
  by_cases h : x = fe
  · simp only [h, if_true, setLimb25]
  · simp only [h, if_false]

theorem negI25_eq (fe a : Nat) (m : Mem25) : negI25 fe a m = assign25 m fe (Fe25.neg (m a)) := by
  unfold negI25
  simp (discharger := decide) only [rd_wr_ne]
  rw [← storeI25_eq]; rfl
theorem addI25_eq (fe a b : Nat) (m : Mem25) : addI25 fe a b m = assign25 m fe (Fe25.add (m a) (m b)) := by
  unfold addI25
  simp (discharger := decide) only [rd_wr_ne]
  rw [← storeI25_eq]; rfl
theorem subI25_eq (fe a b : Nat) (m : Mem25) : subI25 fe a b m = assign25 m fe (Fe25.sub (m a) (m b)) := by
  unfold subI25
  simp (discharger := decide) only [rd_wr_ne]
  rw [← storeI25_eq]; rfl
theorem condSetI25_eq (fe a : Nat) (b : Int32) (m : Mem25) :
    condSetI25 fe a b m = assign25 m fe (Fe25.condSet (m fe) (m a) b) := by
  unfold condSetI25
  simp (discharger := decide) only [rd_wr_ne]
  rw [← storeI25_eq]; rfl
theorem normalizeI25_eq (fe : Nat) (m : Mem25) : normalizeI25 fe m = assign25 m fe (Fe25.normalize (m fe)) := storeI25_eq _ _ _
theorem mulI25_eq (fe a b : Nat) (m : Mem25) : mulI25 fe a b m = assign25 m fe (Fe25.mul (m a) (m b)) := storeI25_eq _ _ _
theorem squareI25_eq (fe a : Nat) (m : Mem25) : squareI25 fe a m = assign25 m fe (Fe25.square (m a)) := storeI25_eq _ _ _
theorem doubledSquareI25_eq (fe a : Nat) (m : Mem25) : doubledSquareI25 fe a m = assign25 m fe (Fe25.doubledSquare (m a)) :=
  storeI25_eq _ _ _
theorem feAddI25_eq (fe a b : Nat) (m : Mem25) : feAddI25 fe a b m = assign25 m fe (Fe25.normalize (Fe25.add (m a) (m b))) := by
  unfold feAddI25
  rw [normalizeI25_eq, addI25_eq]
  funext x
  simp only [assign25]; split <;> simp
theorem feSubI25_eq (fe a b : Nat) (m : Mem25) : feSubI25 fe a b m = assign25 m fe (Fe25.normalize (Fe25.sub (m a) (m b))) := by
  unfold feSubI25
  rw [normalizeI25_eq, subI25_eq]
  funext x
  simp only [assign25]; split <;> simp

end Ristretto.Proofs.Alias25
