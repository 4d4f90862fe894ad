import Verif.Props.Encoding
import Verif.Props.Coords
import Verif.Props.Field
import Verif.Proofs.TextSpec
import Verif.Model.Debug
import Verif.Spec.Debug

/-!
# Property theorems: the String methods of package edwards25519
-/

namespace Ristretto.Props
open Model Proofs
set_option autoImplicit false

theorem bigEndian_append (b : ℕ) (ds : List ℕ) (d : ℕ) : bigEndian b (ds ++ [d]) = b * bigEndian b ds + d := by
  induction ds with
  | nil => simp [bigEndian]
  | cons x xs ih => simp only [List.cons_append, bigEndian, ih, List.length_append, List.length_cons, List.length_nil,
      pow_succ, pow_zero, Nat.zero_add]; ring

theorem isDecimalOf_decimal (n : ℕ) : IsDecimalOf (decimal n) n := by
  induction n using Nat.strong_induction_on with
  | _ n ih =>
    rw [decimal]
    by_cases h : n < 10
    · rw [if_pos h]
      exact ⟨[n], by simpa using h, rfl, by simp [bigEndian], by simp, by simp⟩
    · rw [if_neg h]
      obtain ⟨ds, h1, h2, h3, h4, h5⟩ := ih (n / 10) (by omega)
      refine ⟨ds ++ [n % 10], ?_, ?_, ?_, by simp, ?_⟩
      · intro v hv
        rcases List.mem_append.1 hv with hv | hv
        · exact h1 v hv
        · rw [List.mem_singleton.1 hv]; omega
      · rw [List.map_append, h2]; rfl
      · rw [bigEndian_append, h3]; omega
      · intro hh
        have : ds.head? = some 0 := by
          cases ds with
          | nil => exact absurd rfl h4
          | cons a as => simpa using hh
        rw [h5 this] at h3
        simp [bigEndian] at h3
        omega

/-- The decimal form of a number determines it. -/
theorem isDecimalOf_inj {t : List UInt8} {m n : ℕ} (hm : IsDecimalOf t m) (hn : IsDecimalOf t n) : m = n := by
  obtain ⟨as, a1, a2, a3, -, -⟩ := hm
  obtain ⟨bs, b1, b2, b3, -, -⟩ := hn
  rw [← a3, ← b3]
  congr 1
  rw [a2] at b2
  clear a2 a3 b3
  induction as generalizing bs with
  | nil => cases bs with
    | nil => rfl
    | cons b bs => simp at b2
  | cons a as ih => cases bs with
    | nil => simp at b2
    | cons b bs =>
      simp only [List.map_cons, List.cons.injEq] at b2
      have ha := a1 a (by simp)
      have hb := b1 b (by simp)
      have h := congrArg UInt8.toNat b2.1
      simp only [UInt8.toNat_ofNat'] at h
      rw [ih (fun v hv => a1 v (by simp [hv])) bs (fun v hv => b1 v (by simp [hv])) b2.2]
      congr 1
      omega

/-- A number has one decimal form. -/
theorem isDecimalOf_unique {t u : List UInt8} {n : ℕ} (ht : IsDecimalOf t n) (hu : IsDecimalOf u n) : t = u := by
  obtain ⟨as, a1, rfl, a3, a4, a5⟩ := ht
  obtain ⟨bs, b1, rfl, b3, b4, b5⟩ := hu
  have key : ∀ (as bs : List ℕ), (∀ v ∈ as, v < 10) → (∀ v ∈ bs, v < 10) → as ≠ [] → bs ≠ [] →
      (as.head? = some 0 → as = [0]) → (bs.head? = some 0 → bs = [0]) → bigEndian 10 as = bigEndian 10 bs →
      as.length = bs.length := by
    have lo : ∀ (as : List ℕ), as ≠ [] → (as.head? = some 0 → as = [0]) → bigEndian 10 as = 0 ∧ as.length = 1 ∨
        10 ^ (as.length - 1) ≤ bigEndian 10 as := by
      intro as h1 h2
      cases as with
      | nil => exact absurd rfl h1
      | cons a as =>
        by_cases ha : a = 0
        · have := h2 (by simp [ha])
          rw [this]; left; simp [bigEndian]
        · right
          simp only [bigEndian, List.length_cons, Nat.add_sub_cancel]
          have : 1 * 10 ^ as.length ≤ a * 10 ^ as.length := Nat.mul_le_mul_right _ (by omega)
          omega
    intro as bs ha hb ha0 hb0 ha1 hb1 he
    have la := bigEndian_lt (b := 10) (by norm_num) as ha
    have lb := bigEndian_lt (b := 10) (by norm_num) bs hb
    have pa : 0 < as.length := List.length_pos_iff.2 ha0
    have pb : 0 < bs.length := List.length_pos_iff.2 hb0
    have c1 := lo as ha0 ha1
    have c2 := lo bs hb0 hb1
    have step : ∀ i j : ℕ, 10 ^ i < 10 ^ j → i < j := fun i j h => (Nat.pow_lt_pow_iff_right (by norm_num)).1 h
    rcases c1 with ⟨z1, l1⟩ | c1
    · rcases c2 with ⟨z2, l2⟩ | c2
      · omega
      · have := Nat.pow_pos (n := bs.length - 1) (show 0 < 10 by norm_num); omega
    · rcases c2 with ⟨z2, l2⟩ | c2
      · have := Nat.pow_pos (n := as.length - 1) (show 0 < 10 by norm_num); omega
      · have s1 := step (as.length - 1) bs.length (by omega)
        have s2 := step (bs.length - 1) as.length (by omega)
        omega
  have hl := key as bs a1 b1 a4 b4 a5 b5 (by rw [a3, b3])
  have hab : as = bs := by
    have he : bigEndian 10 as = bigEndian 10 bs := by rw [a3, b3]
    clear a3 b3 a4 b4 a5 b5
    induction as generalizing bs with
    | nil => cases bs with
      | nil => rfl
      | cons b bs => simp at hl
    | cons a as ih => cases bs with
      | nil => simp at hl
      | cons b bs =>
        have hl' : as.length = bs.length := by simpa using hl
        have ra := bigEndian_lt (b := 10) (by norm_num) as (fun v hv => a1 v (by simp [hv]))
        have rb := bigEndian_lt (b := 10) (by norm_num) bs (fun v hv => b1 v (by simp [hv]))
        simp only [bigEndian, hl'] at he
        rw [hl'] at ra
        have e1 : a = b := by
          have x1 : (a * 10 ^ bs.length + bigEndian 10 as) / 10 ^ bs.length = a := by
            rw [Nat.mul_comm, Nat.mul_add_div (Nat.pow_pos (by norm_num)), Nat.div_eq_of_lt ra, Nat.add_zero]
          have x2 : (b * 10 ^ bs.length + bigEndian 10 bs) / 10 ^ bs.length = b := by
            rw [Nat.mul_comm, Nat.mul_add_div (Nat.pow_pos (by norm_num)), Nat.div_eq_of_lt rb, Nat.add_zero]
          rw [← x1, he, x2]
        subst e1
        rw [ih (fun v hv => a1 v (by simp [hv])) bs (fun v hv => b1 v (by simp [hv])) hl' (by omega)]
  rw [hab]

theorem isHexOf_hexEncode (bs : List UInt8) : IsHexOf (hexEncode bs) bs := by
  induction bs with
  | nil => exact .nil
  | cons b bs ih =>
    have hb : ∀ b : UInt8, HexDig (hexSym (b >>> 4)) (b.toNat / 16) ∧ HexDig (hexSym (b &&& 15)) (b.toNat % 16) ∧
        UInt8.ofNat (16 * (b.toNat / 16) + b.toNat % 16) = b := by
      unfold HexDig
      exact uint8_forall (by decide +kernel)
    obtain ⟨h1, h2, h3⟩ := hb b
    have := IsHexOf.cons h1 h2 ih
    rw [h3] at this
    exact this

theorem isLowerHexOf_hexEncode (bs : List UInt8) : IsLowerHexOf (hexEncode bs) bs := by
  refine ⟨isHexOf_hexEncode bs, fun c hc => ?_⟩
  obtain ⟨b, -, hb⟩ := List.mem_flatMap.1 hc
  have key : ∀ b : UInt8, ¬ ((65 : UInt8) ≤ hexSym (b >>> 4) ∧ hexSym (b >>> 4) ≤ 90) ∧ ¬ ((65 : UInt8) ≤ hexSym (b &&& 15) ∧ hexSym (b &&& 15) ≤ 90) :=
    uint8_forall (by decide +kernel)
  simp only [List.mem_cons, List.not_mem_nil, or_false] at hb
  rcases hb with rfl | rfl
  · exact (key b).1
  · exact (key b).2

/-- **C65** (field elements): the text of a field element is the decimal form of its value. -/
theorem C65_field (a : Fe51) (ha : LimbsLe (2 ^ 63) a) : IsDecimalOf (feString a) (feVal a).val := by
  have : feBigInt a = (feVal a).val := C17_bytes a ha
  rw [← this]
  exact isDecimalOf_decimal _

/-- **C65** (field elements): the texts of two field elements are the same exactly when the elements are. -/
theorem C65_field_iff (a b : Fe51) (ha : LimbsLe (2 ^ 63) a) (hb : LimbsLe (2 ^ 63) b) :
    feString a = feString b ↔ feVal a = feVal b := by
  have h1 := C65_field a ha
  have h2 := C65_field b hb
  constructor
  · intro h
    rw [h] at h1
    exact ZMod.val_injective _ (isDecimalOf_inj h1 h2)
  · intro h
    rw [h] at h1
    exact isDecimalOf_unique h1 h2

/-- **C65** (points): the text of a point has its extended coordinates in decimal and its encoding in hexadecimal. -/
theorem C65_point (q : ExtPt Fe51) (P : EPoint) (hq : IsPoint q P) (hP : P ∈ Even) :
    ∃ dx dy dz dt h : List UInt8, Proj P (feVal q.X) (feVal q.Y) (feVal q.Z) (feVal q.T) ∧
      IsDecimalOf dx (feVal q.X).val ∧ IsDecimalOf dy (feVal q.Y).val ∧ IsDecimalOf dz (feVal q.Z).val ∧
      IsDecimalOf dt (feVal q.T).val ∧ IsLowerHexOf h (encode (cls P hP)).toList ∧
      ExtPt.string q = ascii "ExtendedPoint(" ++ dx ++ ascii ", " ++ dy ++ ascii ", " ++ dz ++ ascii ", " ++ dt ++
        ascii "; " ++ h ++ ascii ")" := by
  have hle : ∀ a, LimbsLe ptLimb a → LimbsLe (2 ^ 63) a := by
    unfold LimbsLe ptLimb
    intro a ha
    omega
  refine ⟨feString q.X, feString q.Y, feString q.Z, feString q.T, hexEncode (ExtPt.ristretto q).toList, hq.proj,
    C65_field _ (hle _ hq.limbX), C65_field _ (hle _ hq.limbY), C65_field _ (hle _ hq.limbZ), C65_field _ (hle _ hq.limbT),
    ?_, rfl⟩
  rw [← C25_bytes q _ ⟨P, hP, hq, rfl⟩]
  exact isLowerHexOf_hexEncode _

/-- **C65** (completed points): the four coordinates `x = X/Z`, `y = Y/T` in decimal, and the encoding. -/
theorem C65_completed (q : ComplPt Fe51) (P : EPoint) (hq : IsCompleted q P) (hP : P ∈ Even) :
    ∃ dx dy dz dt h : List UInt8, feVal q.Z ≠ 0 ∧ feVal q.T ≠ 0 ∧ P.x = feVal q.X / feVal q.Z ∧ P.y = feVal q.Y / feVal q.T ∧
      IsDecimalOf dx (feVal q.X).val ∧ IsDecimalOf dy (feVal q.Y).val ∧ IsDecimalOf dz (feVal q.Z).val ∧
      IsDecimalOf dt (feVal q.T).val ∧ IsLowerHexOf h (encode (cls P hP)).toList ∧
      ComplPt.string q = ascii "CompletedPoint(" ++ dx ++ ascii ", " ++ dy ++ ascii ", " ++ dz ++ ascii ", " ++ dt ++
        ascii "; " ++ h ++ ascii ")" := by
  have hle : ∀ a, LimbsLe complLimb a → LimbsLe (2 ^ 63) a := by
    unfold LimbsLe complLimb
    intro a ha
    omega
  refine ⟨feString q.X, feString q.Y, feString q.Z, feString q.T,
    hexEncode (ExtPt.ristretto q.toExtended).toList, hq.z, hq.t, hq.x, hq.y,
    C65_field _ (hle _ hq.limbX), C65_field _ (hle _ hq.limbY), C65_field _ (hle _ hq.limbZ), C65_field _ (hle _ hq.limbT),
    ?_, rfl⟩
  rw [← C25_bytes q.toExtended _ ⟨P, hP, isPoint_iff.2 (toExtended_spec (isCompleted_iff.1 hq)), rfl⟩]
  exact isLowerHexOf_hexEncode _

/-- **C65** (points of the Jacobi quartic): the two coordinates in decimal. -/
theorem C65_jacobi (q : JacPt Fe51) (hs : LimbsLe (2 ^ 63) q.S) (ht : LimbsLe (2 ^ 63) q.T) :
    ∃ ds dt, IsDecimalOf ds (feVal q.S).val ∧ IsDecimalOf dt (feVal q.T).val ∧
      JacPt.string q = ascii "JacobiPoint(" ++ ds ++ ascii ", " ++ dt ++ ascii ")" :=
  ⟨_, _, C65_field _ hs, C65_field _ ht, rfl⟩

/-! Concrete texts. -/

example : feString (FieldOps.feI : Fe51) =
    ascii "19681161376707505956807079304988542015446066515923890162744021073123829784752" := by decide +kernel
example : JacPt.string (⟨FieldOps.feZero, FieldOps.feOne⟩ : JacPt Fe51) = ascii "JacobiPoint(0, 1)" := by decide +kernel
example : IsPoint (ExtPt.base : Pt) basePt ∧ basePt ∈ Even := ⟨isPoint_iff.2 base_spec, basePt_even⟩
example : hexEncode [0xe2, 0x0f] = ascii "e20f" := by decide +kernel

end Ristretto.Props
