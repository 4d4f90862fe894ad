import Verif.Proofs.ScalarOps
import Verif.Proofs.LeBytes
import Verif.Model.Api

/-!
# C01–C12: scalars

`scVal s` (Spec/Scalar.lean) is the number the eight words of a scalar stand for; `l` is the group
order.
-/

namespace Ristretto.Props
open Model Proofs
set_option autoImplicit false

/-- A scalar used in the examples: l - 1. -/
def lMinusOne : Scalar := #v[0x5cf5d3ec, 0x5812631a, 0xa2f79cd6, 0x14def9de, 0, 0, 0, 0x10000000]
/-- An unreduced scalar used in the examples: 2^256 - 1. -/
def allOnes : Scalar := Vector.replicate 8 0xffffffff

theorem lMinusOne_val : scVal lMinusOne = l - 1 := by decide +kernel
theorem lMinusOne_lt : scVal lMinusOne < l := by decide +kernel
theorem allOnes_val : scVal allOnes = 2 ^ 256 - 1 := by decide +kernel

/-- **C01** (addition). -/
theorem C01_add (a b : Scalar) (ha : scVal a < l) (hb : scVal b < l) :
    scVal (Scalar.add a b) = (scVal a + scVal b) % l ∧ scVal (Scalar.add a b) < l := by
  have h := add_red (a := a) (b := b) (by omega)
  exact ⟨h, h ▸ Nat.mod_lt _ (by norm_num [l])⟩

/-- **C01** (addition), beyond the property: operands need not be reduced as long as their sum is below `2l`. -/
theorem C01_add_unreduced (a b : Scalar) (h : scVal a + scVal b < 2 * l) :
    scVal (Scalar.add a b) = (scVal a + scVal b) % l := add_red h

/-- **C01** (subtraction). -/
theorem C01_sub (a b : Scalar) (ha : scVal a < l) (hb : scVal b < l) :
    (scVal (Scalar.sub a b) : ℤ) = ((scVal a : ℤ) - scVal b) % l ∧ scVal (Scalar.sub a b) < l := by
  have h := sub_red_mod ha hb
  refine ⟨h, ?_⟩
  have := Int.emod_lt_of_pos ((scVal a : ℤ) - scVal b) (show (0 : ℤ) < (l : ℤ) by norm_num [l])
  rw [← h] at this
  exact_mod_cast this

example : scVal (Scalar.add lMinusOne lMinusOne) = l - 2 :=
  (C01_add lMinusOne lMinusOne lMinusOne_lt lMinusOne_lt).1.trans (by rw [lMinusOne_val]; decide +kernel)
example : scVal (Scalar.sub scZero lMinusOne) = 1 := by
  have h := (C01_sub scZero lMinusOne (by decide +kernel) lMinusOne_lt).1
  rw [lMinusOne_val] at h
  have h2 : ((scVal scZero : ℤ) - ((l - 1 : ℕ) : ℤ)) % l = 1 := by decide +kernel
  rw [h2] at h
  exact_mod_cast h

/-- On unreduced operands `Add` need not return the sum modulo `l`: the hypothesis of `C01_add` is
needed. -/
theorem C01_add_unreduced_wrong :
    scVal (Scalar.add allOnes allOnes) % l ≠ (scVal allOnes + scVal allOnes) % l := by decide +kernel

/-- **C02.** -/
theorem C02_neg (a : Scalar) (ha : scVal a < l) :
    (scVal (Scalar.neg a) : ℤ) = (-(scVal a : ℤ)) % l ∧ scVal (Scalar.neg a) < l ∧
      (scVal a = 0 → scVal (Scalar.neg a) = 0) := by
  have h : (scVal (Scalar.neg a) : ℤ) = (-(scVal a : ℤ)) % l := by
    rcases neg_red (a := a) (by omega) with h | h
    · exact h
    · omega
  have hlt : scVal (Scalar.neg a) < l := by
    have := Int.emod_lt_of_pos (-(scVal a : ℤ)) (show (0 : ℤ) < (l : ℤ) by norm_num [l])
    rw [← h] at this
    exact_mod_cast this
  refine ⟨h, hlt, fun h0 => ?_⟩
  rw [h0] at h
  simpa using h

example : scVal (Scalar.neg lMinusOne) = 1 := by
  have h := (C02_neg lMinusOne lMinusOne_lt).1
  rw [lMinusOne_val] at h
  have h2 : (-((l - 1 : ℕ) : ℤ)) % l = 1 := by decide +kernel
  rw [h2] at h
  exact_mod_cast h

/-- **C03.** No hypothesis: the operands are arbitrary arrays. -/
theorem C03_mul (a b : Scalar) :
    scVal (Scalar.mul a b) = scVal a * scVal b % l ∧ scVal (Scalar.mul a b) < l :=
  ⟨mul_spec a b, mul_spec a b ▸ Nat.mod_lt _ (by norm_num [l])⟩

/-- **C03** (squaring). -/
theorem C03_square (a : Scalar) :
    scVal (Scalar.square a) = scVal a ^ 2 % l ∧ scVal (Scalar.square a) < l := by
  rw [sq]
  exact ⟨square_spec a, square_spec a ▸ Nat.mod_lt _ (by norm_num [l])⟩

example : scVal (Scalar.mul allOnes allOnes) = (2 ^ 256 - 1) * (2 ^ 256 - 1) % l :=
  (C03_mul allOnes allOnes).1.trans (by rw [allOnes_val])
/-- A value computed by running the model in the kernel. -/
example : scVal (Scalar.mul allOnes allOnes) = (2 ^ 256 - 1) * (2 ^ 256 - 1) % l := by decide +kernel

/-- **C04** (`MulAdd`). -/
theorem C04_mulAdd (a b c : Scalar) :
    scVal (Scalar.mulAdd a b c) = (scVal a * scVal b + scVal c) % l ∧ scVal (Scalar.mulAdd a b c) < l :=
  ⟨mulAdd_spec a b c, mulAdd_spec a b c ▸ Nat.mod_lt _ (by norm_num [l])⟩

/-- **C04** (`MulSub`). -/
theorem C04_mulSub (a b c : Scalar) :
    (scVal (Scalar.mulSub a b c) : ℤ) = ((scVal a : ℤ) * scVal b - scVal c) % l ∧
      scVal (Scalar.mulSub a b c) < l := by
  have h := mulSub_spec a b c
  refine ⟨h, ?_⟩
  have := Int.emod_lt_of_pos ((scVal a : ℤ) * scVal b - scVal c) (show (0 : ℤ) < (l : ℤ) by norm_num [l])
  rw [← h] at this
  exact_mod_cast this

/-- A negative intermediate value. -/
example : (scVal (Scalar.mulSub scZero scZero allOnes) : ℤ) = (-(2 ^ 256 - 1)) % l :=
  (C04_mulSub scZero scZero allOnes).1.trans (by rw [allOnes_val]; decide +kernel)

/-- **C05.** -/
theorem C05_inverse (t : Scalar) :
    scVal (Scalar.inverse t) < l ∧
    (scVal t % l ≠ 0 → scVal (Scalar.inverse t) * scVal t % l = 1) ∧
    (scVal t % l = 0 → scVal (Scalar.inverse t) = 0) :=
  ⟨inverse_red t, inverse_mul t, inverse_zero t⟩

example : scVal (Scalar.inverse allOnes) * (2 ^ 256 - 1) % l = 1 := by
  have h := (C05_inverse allOnes).2.1 (by rw [allOnes_val]; decide +kernel)
  rwa [allOnes_val] at h

/-- **C06.** -/
theorem C06_setBytes (x : Bytes 32) :
    scVal (Scalar.setBytes x) = leVal x % 2 ^ 253 % l ∧ scVal (Scalar.setBytes x) < l :=
  ⟨setBytes_val x, setBytes_val x ▸ Nat.mod_lt _ (by norm_num [l])⟩

example : scVal (Scalar.setBytes (Vector.replicate 32 0xff)) = (2 ^ 253 - 1) % l :=
  (C06_setBytes _).1.trans (by decide +kernel)

/-- **C07.** -/
theorem C07_setBytesStrict (s : Scalar) (x : Bytes 32) :
    ((Scalar.setBytesStrict s x).2 = true ↔ leVal x < l) ∧
    (leVal x < l → scVal (Scalar.setBytesStrict s x).1 = leVal x) ∧
    (¬ leVal x < l → (Scalar.setBytesStrict s x).1 = s) := by
  obtain ⟨h1, h2⟩ := setBytesStrict_spec s x
  refine ⟨⟨fun h => ?_, fun h => (h1 h).1⟩, fun h => (h1 h).2, fun h => by rw [h2 h]⟩
  by_contra hn
  rw [h2 hn] at h
  simp at h

/-- Accepted and rejected inputs: l - 1 and l. -/
example : leVal (Scalar.bytes lMinusOne) < l ∧ ¬ leVal (Scalar.bytes scL) < l := by decide +kernel

/-- **C08.** -/
theorem C08_setReduced (t : Bytes 64) :
    scVal (Scalar.setReduced t) = leVal t % l ∧ scVal (Scalar.setReduced t) < l :=
  ⟨setReduced_val t, setReduced_val t ▸ Nat.mod_lt _ (by norm_num [l])⟩

example : scVal (Scalar.setReduced (Vector.replicate 64 0xff)) = leVal (Vector.replicate 64 (0xff : UInt8)) % l :=
  (C08_setReduced _).1

/-- **C09** (`Bytes` is the little-endian encoding and is injective). -/
theorem C09_bytes (s t : Scalar) :
    leVal (Scalar.bytes s) = scVal s ∧ (Scalar.bytes s = Scalar.bytes t ↔ s = t) := by
  refine ⟨bytes_val s, fun h => scVal_inj ?_, fun h => h ▸ rfl⟩
  rw [← bytes_val, ← bytes_val, h]

/-- **C09** (reading back what was written). -/
theorem C09_roundtrip (s r : Scalar) (hs : scVal s < l) :
    Scalar.setBytes (Scalar.bytes s) = s ∧ Scalar.setBytesStrict r (Scalar.bytes s) = (s, true) ∧
    Scalar.unmarshalBinary r (Scalar.marshalBinary s) = (s, true) := by
  have h1 : Scalar.setBytes (Scalar.bytes s) = s := by
    apply scVal_inj
    have hl : l < 2 ^ 253 := by norm_num [l]
    rw [setBytes_val, bytes_val, Nat.mod_eq_of_lt (lt_trans hs hl), Nat.mod_eq_of_lt hs]
  refine ⟨h1, ?_, ?_⟩
  · have h := (setBytesStrict_spec r (Scalar.bytes s)).1 (by rw [bytes_val]; exact hs)
    refine Prod.ext ?_ h.1
    apply scVal_inj
    rw [h.2, bytes_val]
  · unfold Scalar.unmarshalBinary Scalar.marshalBinary
    rw [dif_pos (by simp)]
    refine Prod.ext ?_ rfl
    exact (congrArg Scalar.setBytes (by apply Vector.toArray_inj.1; simp [Vector.toList])).trans h1

/-- **C09** (errors of `UnmarshalBinary`): an error exactly when the length is not 32, and then the
receiver is unchanged; otherwise the same as `SetBytes`. -/
theorem C09_unmarshal (s : Scalar) (data : List UInt8) :
    ((Scalar.unmarshalBinary s data).2 = true ↔ data.length = 32) ∧
    (data.length ≠ 32 → (Scalar.unmarshalBinary s data).1 = s) ∧
    (data.length = 32 → scVal (Scalar.unmarshalBinary s data).1 = leNat data % 2 ^ 253 % l) := by
  unfold Scalar.unmarshalBinary
  refine ⟨?_, fun h => by rw [dif_neg h], fun h => ?_⟩
  · split <;> simp_all
  · rw [dif_pos h, setBytes_val]
    rfl

example : Scalar.setBytes (Scalar.bytes lMinusOne) = lMinusOne := (C09_roundtrip _ scZero lMinusOne_lt).1
/-- Without `scVal s < l` the round trip fails. -/
example : Scalar.setBytes (Scalar.bytes allOnes) ≠ allOnes := by decide +kernel

/-- **C10.** -/
theorem C10_bigInt (s : Scalar) (x : ℤ) (n : UInt64) :
    Scalar.bigInt s = scVal s ∧ (scVal (Scalar.setBigInt x) : ℤ) = x % l ∧
    scVal (Scalar.setUint64 n) = n.toNat :=
  ⟨bigInt_val s, setBigInt_val x, setUint64_val n⟩

/-- A negative integer. -/
example : scVal (Scalar.setBigInt (-1)) = l - 1 := by
  have h := (C10_bigInt scZero (-1) 0).2.1
  have h2 : (-1 : ℤ) % l = ((l - 1 : ℕ) : ℤ) := by decide +kernel
  rw [h2] at h
  exact_mod_cast h

/-- **C11** (zero test, any array). -/
theorem C11_isNonZero (s : Scalar) :
    (scVal s ≠ 0 → Scalar.isNonZeroI s = 1) ∧ (scVal s = 0 → Scalar.isNonZeroI s = 0) := by
  have h := isNonZeroI_sc s
  constructor
  · intro h'; rw [h]; simp [flag, h']
  · intro h'; rw [h]; simp [flag, h']

/-- **C11** (equality). Only the argument has to be reduced. -/
theorem C11_equals (a b : Scalar) (hb : scVal b < l) :
    (scVal a = scVal b → Scalar.equalsI a b = 1) ∧ (scVal a ≠ scVal b → Scalar.equalsI a b = 0) ∧
    (Scalar.equals a b = true ↔ scVal a = scVal b) := by
  have h := equalsI_sc (a := a) hb
  have h' := equals_sc (a := a) hb
  refine ⟨fun e => ?_, fun e => ?_, ?_⟩
  · rw [h]; simp [flag, e]
  · rw [h]; simp [flag, e]
  · rw [h']; simp

/-- The equality test is not symmetric on unreduced scalars: the hypothesis of `C11_equals` is needed. -/
theorem C11_equals_asymmetric :
    Scalar.equals scZero scL = true ∧ Scalar.equals scL scZero = false ∧ scVal scZero ≠ scVal scL := by
  decide +kernel

example : Scalar.equalsI lMinusOne scOne = 0 :=
  (C11_equals lMinusOne scOne (by decide +kernel)).2.1 (by decide +kernel)
example : Scalar.isNonZeroI lMinusOne = 1 := (C11_isNonZero lMinusOne).1 (by decide +kernel)

/-- **C12.** -/
theorem C12_conditionalSet (s t : Scalar) : Scalar.condSet s t 1 = t ∧ Scalar.condSet s t 0 = s :=
  ⟨(condSet_sc s t).2, (condSet_sc s t).1⟩

example : Scalar.condSet allOnes lMinusOne 1 = lMinusOne := (C12_conditionalSet _ _).1

end Ristretto.Props
