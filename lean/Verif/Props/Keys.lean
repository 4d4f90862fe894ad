import Verif.Props.Derive
import Verif.Proofs.LizardNat

/-!
# C77: keys and masks are uniform

The 64 bytes that `Scalar.Rand` reads, and the digest that `Scalar.Derive` computes, range over all values.
-/

namespace Ristretto.Props
open Model Proofs
set_option autoImplicit false

theorem leNat_take16 (h : Bytes 64) : leNat (h.toList.take 16) = leVal h % 2 ^ 128 := by
  have := (leNat_take_drop h.toList 16 (by simp)).1
  rw [this, leVal]
  norm_num

/-- Every element other than 0 generates the group. -/
theorem exists_mult (q g : RGroup) (hq : q ≠ 0) : ∃ r < l, ∀ s < l, s • q = g ↔ s = r := by
  have hfin := finite_RGroup
  have hp : l.Prime := C23_prime_order.2.1
  have ho : addOrderOf q = l := by
    have hd : addOrderOf q ∣ l := addOrderOf_dvd_of_nsmul_eq_zero (l_smul q)
    rcases (Nat.dvd_prime hp).1 hd with h | h
    · exact absurd (AddMonoid.addOrderOf_eq_one_iff.1 h) hq
    · exact h
  have hz : g ∈ AddSubgroup.zmultiples q := by
    have : AddSubgroup.zmultiples q = ⊤ := by
      apply AddSubgroup.eq_top_of_card_eq
      rw [Nat.card_zmultiples, ho, card_RGroup]
    rw [this]; trivial
  obtain ⟨k, hk⟩ := AddSubgroup.mem_zmultiples_iff.1 hz
  have hl : (0 : ℤ) < l := by norm_num [l]
  have h1 := Int.emod_lt_of_pos k hl
  have h2 := Int.emod_nonneg k hl.ne'
  have key : (k % l).toNat • q = g := by
    rw [← natCast_zsmul, Int.toNat_of_nonneg h2, ← hk]
    have e : k = k % l + k / l * l := by rw [mul_comm, Int.emod_add_mul_ediv]
    conv_rhs => rw [e, add_zsmul, mul_comm, mul_zsmul, natCast_zsmul, l_smul, add_zero]
  refine ⟨(k % l).toNat, by omega, fun s hs => ⟨fun h => ?_, fun h => h ▸ key⟩⟩
  have := (nsmul_inj_mod (x := q)).1 (h.trans key.symm)
  rwa [ho, Nat.mod_eq_of_lt hs, Nat.mod_eq_of_lt (by omega)] at this

/-- **C77** (masks).  The product of a random scalar and a point other than the neutral element is each element of the group
for `2^512 / l` buffers, or one more. -/
theorem C77_mask (q : ExtPt Fe51) (a : RGroup) (hq : Represents q a) (ha : a ≠ 0) (g : RGroup) :
    Nat.card {b : Bytes 64 // Represents (Point.scalarMult q (Scalar.rand b)) g} = 2 ^ 512 / l ∨
    Nat.card {b : Bytes 64 // Represents (Point.scalarMult q (Scalar.rand b)) g} = 2 ^ 512 / l + 1 := by
  obtain ⟨r, hr, h⟩ := exists_mult a g ha
  have e : ∀ b, Represents (Point.scalarMult q (Scalar.rand b)) g ↔ scVal (Scalar.rand b) = r := fun b => by
    have hb := C28_classes q a hq _ (C58_range b)
    rw [← h _ (C58_range b)]
    exact ⟨fun h' => represents_unique hb h', fun h' => h' ▸ hb⟩
  rw [Nat.card_congr (Equiv.subtypeEquivRight e)]
  exact C58_scalar r hr

/-- **C77** (keys).  The same for the product with the base point, by `ScalarMultBase`. -/
theorem C77_keys (g : RGroup) :
    Nat.card {b : Bytes 64 // Represents (Point.scalarMultTable baseTable (Scalar.rand b)) g} = 2 ^ 512 / l ∨
    Nat.card {b : Bytes 64 // Represents (Point.scalarMultTable baseTable (Scalar.rand b)) g} = 2 ^ 512 / l + 1 := by
  obtain ⟨r, ⟨hr, hg⟩, hu⟩ := C23_prime_order.2.2.2 g
  have e : ∀ b, Represents (Point.scalarMultTable baseTable (Scalar.rand b)) g ↔ scVal (Scalar.rand b) = r := fun b => by
    have hb := (C31_scalarMultBase _ (C58_range b)).1
    refine ⟨fun h' => hu _ ⟨C58_range b, represents_unique hb h'⟩, fun h' => ?_⟩
    rwa [h', hg] at hb
  rw [Nat.card_congr (Equiv.subtypeEquivRight e)]
  exact C58_scalar r hr

/-- **C77** (hiding).  A message point that is masked by a random multiple of a point is hidden: every element is the masked
message for the same number of buffers, up to one, whatever the message. -/
theorem C77_hiding (q m m' : ExtPt Fe51) (a x x' : RGroup) (hq : Represents q a) (ha : a ≠ 0) (hm : Represents m x)
    (hm' : Represents m' x') (g : RGroup) :
    Nat.card {b : Bytes 64 // Represents (ExtPt.add m (Point.scalarMult q (Scalar.rand b))) g} ≤
      Nat.card {b : Bytes 64 // Represents (ExtPt.add m' (Point.scalarMult q (Scalar.rand b))) g} + 1 := by
  have e : ∀ (m : ExtPt Fe51) (x : RGroup), Represents m x → ∀ b : Bytes 64,
      Represents (ExtPt.add m (Point.scalarMult q (Scalar.rand b))) g ↔
        Represents (Point.scalarMult q (Scalar.rand b)) (g - x) := fun m x hm b => by
    have hb := C28_classes q a hq _ (C58_range b)
    have hs := (C21_classes m _ x _ hm hb).1
    constructor
    · intro h
      rw [← represents_unique hs h, add_sub_cancel_left]
      exact hb
    · intro h
      rw [represents_unique hb h, add_sub_cancel] at hs
      exact hs
  rw [Nat.card_congr (Equiv.subtypeEquivRight (e m x hm)), Nat.card_congr (Equiv.subtypeEquivRight (e m' x' hm'))]
  have h1 := C77_mask q a hq ha (g - x)
  have h2 := C77_mask q a hq ha (g - x')
  generalize 2 ^ 512 / l = N at *
  omega

/-- **C77** (`Scalar.Derive`).  Each reduced scalar is derived from `2^512 / l` digests or one more, and there are no other
results. -/
theorem C77_derive (r : ℕ) (hr : r < l) :
    (Nat.card {h : Bytes 64 // scVal (Scalar.derive (fun _ => h) []) = r} = 2 ^ 512 / l ∨
      Nat.card {h : Bytes 64 // scVal (Scalar.derive (fun _ => h) []) = r} = 2 ^ 512 / l + 1) ∧
    ∀ h, scVal (Scalar.derive (fun _ => h) []) < l :=
  ⟨C58_scalar r hr, C58_range⟩

/-- **C77** (`Scalar.DeriveShort`).  Each number below `2^128` is derived from exactly `2^384` digests, and there are no other
results. -/
theorem C77_deriveShort (r : ℕ) (hr : r < 2 ^ 128) :
    Nat.card {h : Bytes 64 // scVal (Scalar.deriveShort h) = r} = 2 ^ 384 ∧
    ∀ h, scVal (Scalar.deriveShort h) < 2 ^ 128 := by
  have e : ∀ h : Bytes 64, scVal (Scalar.deriveShort h) = leVal h % 2 ^ 128 := fun h => by
    rw [deriveShort_val]
    exact leNat_take16 h
  refine ⟨?_, fun h => by rw [e]; exact Nat.mod_lt _ (by norm_num)⟩
  have h : ∀ b : Bytes 64, scVal (Scalar.deriveShort b) = r ↔ leVal b ≡ r [MOD 2 ^ 128] := fun b => by
    rw [e, Nat.ModEq, Nat.mod_eq_of_lt hr]
  rw [Nat.card_congr (Equiv.subtypeEquivRight h), buf_card 64 (fun x => x ≡ r [MOD 2 ^ 128]), Nat.count_modEq_card _ (by norm_num)]
  rw [show (256 : ℕ) ^ 64 / 2 ^ 128 = 2 ^ 384 by decide +kernel, show (256 : ℕ) ^ 64 % 2 ^ 128 = 0 by decide +kernel]
  simp

/-- Non-vacuity: the base point is a point other than the neutral element, so that the masks `k·B` are spread over all of the
group. -/
example (g : RGroup) :
    Nat.card {b : Bytes 64 // Represents (Point.scalarMult ExtPt.base (Scalar.rand b)) g} = 2 ^ 512 / l ∨
    Nat.card {b : Bytes 64 // Represents (Point.scalarMult ExtPt.base (Scalar.rand b)) g} = 2 ^ 512 / l + 1 :=
  C77_mask ExtPt.base baseR base_represents baseR_ne_zero g

/-- Non-vacuity: the base point and its double, as messages under the key `B`, both give the base point as masked
message, for numbers of buffers that differ by one at most. -/
example :
    Nat.card {b : Bytes 64 // Represents (ExtPt.add ExtPt.base (Point.scalarMult ExtPt.base (Scalar.rand b))) baseR} ≤
    Nat.card {b : Bytes 64 //
      Represents (ExtPt.add (ExtPt.double ExtPt.base) (Point.scalarMult ExtPt.base (Scalar.rand b))) baseR} + 1 :=
  C77_hiding _ _ _ baseR baseR (baseR + baseR) base_represents baseR_ne_zero base_represents
    (C21_classes _ _ _ _ base_represents base_represents).2.2.1 baseR

end Ristretto.Props
