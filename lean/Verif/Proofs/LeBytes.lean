import Verif.Model.Field
import Verif.Proofs.Bytes

/-!
# Numbers as little-endian bytes
-/

namespace Ristretto.Proofs
open Model
set_option autoImplicit false

theorem leNat_ofFn : ∀ (n x : ℕ),
    leNat (List.ofFn fun i : Fin n => UInt8.ofNat (x / 256 ^ (i : ℕ))) = x % 256 ^ n := by
  intro n
  induction n with
  | zero => intro x; simp [leNat, Nat.mod_one]
  | succ n ih =>
    intro x
    rw [List.ofFn_succ, leNat]
    have : (fun i : Fin n => UInt8.ofNat (x / 256 ^ ((i.succ : Fin (n + 1)) : ℕ))) =
        fun i : Fin n => UInt8.ofNat (x / 256 / 256 ^ (i : ℕ)) := by
      funext i
      rw [Fin.val_succ, pow_succ, Nat.mul_comm, Nat.div_div_eq_div_mul]
    rw [this, ih (x / 256)]
    simp only [Fin.val_zero, pow_zero, Nat.div_one, UInt8.toNat_ofNat']
    rw [pow_succ 256 n, Nat.mul_comm (256 ^ n) 256, Nat.mod_mul]

/-- `leBytes n x` is `x` in `n` little-endian bytes. -/
theorem leVal_leBytes (n x : ℕ) : leVal (leBytes n x) = x % 256 ^ n := by
  unfold leVal leBytes
  rw [Vector.toList_ofFn]
  exact leNat_ofFn n x

end Ristretto.Proofs
