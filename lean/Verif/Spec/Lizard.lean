import Verif.Spec.Abstract

/-!
# Lizard

Sixteen bytes are put into bits 64…191 of a number whose other bits are taken from their hash, with
bit 0 and bits 254, 255 cleared; Elligator maps that number to the group.
-/

namespace Ristretto
set_option autoImplicit false

/-- The number `SetLizard` builds from `data`, where `H` is the hash function. -/
def lizardNat (H : List UInt8 → Bytes 32) (data : Bytes 16) : ℕ :=
  let h := leVal (H data.toList)
  (h % 2 ^ 64 / 2 * 2) + 2 ^ 64 * leVal data + 2 ^ 192 * (h / 2 ^ 192 % 2 ^ 62)

/-- The group element `data` is encoded into. -/
noncomputable def lizardMap (H : List UInt8 → Bytes 32) (data : Bytes 16) : RGroup :=
  ellMap (lizardNat H data : Fp)

end Ristretto
