import Verif.Spec.Text

/-!
# Decimal text
-/

namespace Ristretto
set_option autoImplicit false

/-- `txt` is the number `n` in decimal: ASCII digits, the most significant one first, without superfluous zeros. -/
def IsDecimalOf (txt : List UInt8) (n : Nat) : Prop :=
  ∃ ds : List Nat, (∀ v ∈ ds, v < 10) ∧ txt = ds.map (fun v => UInt8.ofNat (48 + v)) ∧ bigEndian 10 ds = n ∧
    ds ≠ [] ∧ (ds.head? = some 0 → ds = [0])

/-- `txt` is the hexadecimal form of the bytes without capital letters. -/
def IsLowerHexOf (txt bs : List UInt8) : Prop := IsHexOf txt bs ∧ ∀ c ∈ txt, ¬ (65 ≤ c ∧ c ≤ 90)

end Ristretto
