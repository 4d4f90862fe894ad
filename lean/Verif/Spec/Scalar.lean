import Verif.Spec.Prime

/-!
# What the words of a scalar stand for

scalar.go:15-20: "The scalar s is represented as an array s[0], ... s[7] with 0 <= s[i] < 2^32
and s = s[0] + s[1] * 2^32 + s[2] * 2^64 + ... + s[7] * 2^224."
-/

namespace Ristretto

/-- The number eight 32-bit words stand for. -/
def scVal (s : Vector UInt32 8) : ℕ :=
  s[0].toNat + s[1].toNat * 2 ^ 32 + s[2].toNat * 2 ^ 64 + s[3].toNat * 2 ^ 96 +
  s[4].toNat * 2 ^ 128 + s[5].toNat * 2 ^ 160 + s[6].toNat * 2 ^ 192 + s[7].toNat * 2 ^ 224

/-- The representation of a scalar is reduced. -/
def Reduced (s : Vector UInt32 8) : Prop := scVal s < l

end Ristretto
