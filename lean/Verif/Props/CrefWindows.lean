import Verif.Props.CrefOverflow
import Verif.Proofs.Digits

/-!
# C74: the windows of scalars

`scalar_window3` and `scalar_window5` of cref.c store signed digits in arrays of `signed char`.  The arithmetic is on `int`,
and each assignment converts back.  Here the digits are computed in unbounded integers, with a list of all values that are
assigned.
-/

namespace Ristretto.Props
open Model Model.Cref Proofs
set_option autoImplicit false

/-- "Making it signed" (cref.c:488-497, 525-535) in unbounded integers, for digits of `w` bits. -/
def signExact (w : ℕ) : ℤ → ℤ → List ℤ → List ℤ
  | carry, a, [] => [a + carry]
  | carry, a, b :: rest =>
    let r := (a + carry) % 2 ^ w
    let carry' := r / 2 ^ (w - 1)
    (r - carry' * 2 ^ w) :: signExact w carry' (b + (a + carry) / 2 ^ w) rest

/-- The values this stores, in this order: `r[i] += carry`, `r[i+1] += r[i] >> w`, `r[i] &= 2^w-1`, `carry = r[i] >> (w-1)`,
`r[i] -= carry << w`. -/
def signStores (w : ℕ) : ℤ → ℤ → List ℤ → List ℤ
  | carry, a, [] => [a + carry]
  | carry, a, b :: rest =>
    let r := (a + carry) % 2 ^ w
    let carry' := r / 2 ^ (w - 1)
    [a + carry, b + (a + carry) / 2 ^ w, r, carry', r - carry' * 2 ^ w] ++ signStores w carry' (b + (a + carry) / 2 ^ w) rest

theorem i8_add {a b : Int8} (h : -128 ≤ a.toInt + b.toInt) (h' : a.toInt + b.toInt ≤ 127) :
    (a + b).toInt = a.toInt + b.toInt := by
  rw [Int8.toInt_add]
  apply Int.bmod_eq_of_le <;> norm_num <;> omega

theorem sign5_step : ∀ a : Int8, 0 ≤ a.toInt ∧ a.toInt ≤ 33 →
    (a >>> (5 : Int8)).toInt = a.toInt / 32 ∧ ((a &&& (31 : Int8)) >>> (4 : Int8)).toInt = a.toInt % 32 / 16 ∧
    ((a &&& (31 : Int8)) - (((a &&& (31 : Int8)) >>> (4 : Int8)) <<< (5 : Int8))).toInt = a.toInt % 32 - a.toInt % 32 / 16 * 32 :=
  int8_forall (by decide +kernel)

theorem sign3_step : ∀ a : Int8, 0 ≤ a.toInt ∧ a.toInt ≤ 9 →
    (a >>> (3 : Int8)).toInt = a.toInt / 8 ∧ ((a &&& (7 : Int8)) >>> (2 : Int8)).toInt = a.toInt % 8 / 4 ∧
    ((a &&& (7 : Int8)) - (((a &&& (7 : Int8)) >>> (2 : Int8)) <<< (3 : Int8))).toInt = a.toInt % 8 - a.toInt % 8 / 4 * 8 :=
  int8_forall (by decide +kernel)

theorem sign5_exact (rest : List Int8) : ∀ carry a : Int8, 0 ≤ carry.toInt → carry.toInt ≤ 1 → 0 ≤ a.toInt → a.toInt ≤ 32 →
    (∀ x ∈ rest, 0 ≤ x.toInt ∧ x.toInt ≤ 31) →
    (Cref.window5Sign carry a rest).map Int8.toInt = signExact 5 carry.toInt a.toInt (rest.map Int8.toInt) ∧
    ∀ x ∈ signStores 5 carry.toInt a.toInt (rest.map Int8.toInt), -128 ≤ x ∧ x ≤ 127 := by
  induction rest with
  | nil =>
    intro carry a c0 c1 a0 a1 _
    have e := i8_add (a := a) (b := carry) (by omega) (by omega)
    exact ⟨by simp [Cref.window5Sign, signExact, e], by simp [signStores]; omega⟩
  | cons b rest ih =>
    intro carry a c0 c1 a0 a1 hr
    obtain ⟨b0, b1⟩ := hr b (by simp)
    have e := i8_add (a := a) (b := carry) (by omega) (by omega)
    obtain ⟨s1, s2, s3⟩ := sign5_step (a + carry) (by omega)
    rw [e] at s1 s2 s3
    have e2 := i8_add (a := b) (b := (a + carry) >>> 5) (by omega) (by omega)
    obtain ⟨i1, i2⟩ := ih (((a + carry) &&& 31) >>> 4) (b + ((a + carry) >>> 5)) (by omega) (by omega) (by omega) (by omega)
      (fun x hx => hr x (by simp [hx]))
    rw [e2, s1, s2] at i1 i2
    refine ⟨?_, ?_⟩
    · simp only [Cref.window5Sign, List.map_cons, signExact]
      rw [i1, s3]
      norm_num
    · simp only [List.map_cons, signStores, List.mem_append, List.mem_cons, List.not_mem_nil, or_false]
      norm_num
      rintro x ((rfl | rfl | rfl | rfl | rfl) | hx)
      · omega
      · omega
      · omega
      · omega
      · omega
      · exact i2 x (by norm_num; exact hx)

theorem sign3_exact (rest : List Int8) : ∀ carry a : Int8, 0 ≤ carry.toInt → carry.toInt ≤ 1 → 0 ≤ a.toInt → a.toInt ≤ 8 →
    (∀ x ∈ rest, 0 ≤ x.toInt ∧ x.toInt ≤ 7) →
    (Cref.window3Sign carry a rest).map Int8.toInt = signExact 3 carry.toInt a.toInt (rest.map Int8.toInt) ∧
    ∀ x ∈ signStores 3 carry.toInt a.toInt (rest.map Int8.toInt), -128 ≤ x ∧ x ≤ 127 := by
  induction rest with
  | nil =>
    intro carry a c0 c1 a0 a1 _
    have e := i8_add (a := a) (b := carry) (by omega) (by omega)
    exact ⟨by simp [Cref.window3Sign, signExact, e], by simp [signStores]; omega⟩
  | cons b rest ih =>
    intro carry a c0 c1 a0 a1 hr
    obtain ⟨b0, b1⟩ := hr b (by simp)
    have e := i8_add (a := a) (b := carry) (by omega) (by omega)
    obtain ⟨s1, s2, s3⟩ := sign3_step (a + carry) (by omega)
    rw [e] at s1 s2 s3
    have e2 := i8_add (a := b) (b := (a + carry) >>> 3) (by omega) (by omega)
    obtain ⟨i1, i2⟩ := ih (((a + carry) &&& 7) >>> 2) (b + ((a + carry) >>> 3)) (by omega) (by omega) (by omega) (by omega)
      (fun x hx => hr x (by simp [hx]))
    rw [e2, s1, s2] at i1 i2
    refine ⟨?_, ?_⟩
    · simp only [Cref.window3Sign, List.map_cons, signExact]
      rw [i1, s3]
      norm_num
    · simp only [List.map_cons, signStores, List.mem_append, List.mem_cons, List.not_mem_nil, or_false]
      norm_num
      rintro x ((rfl | rfl | rfl | rfl | rfl) | hx)
      · omega
      · omega
      · omega
      · omega
      · omega
      · exact i2 x (by norm_num; exact hx)

theorem xor_mask (x y m : UInt32) : Cref.i8 (x &&& m) ^^^ Cref.i8 (y &&& m) = Cref.i8 ((x ^^^ y) &&& m) := by
  unfold Cref.i8
  rw [← UInt8.toInt8_xor, ← UInt32.toUInt8_xor]
  congr 2
  apply UInt32.toBitVec_inj.1
  simp only [UInt32.toBitVec_and, UInt32.toBitVec_xor]
  ext i
  simp only [BitVec.getElem_xor, BitVec.getElem_and]
  cases x.toBitVec[i] <;> cases y.toBitVec[i] <;> simp

theorem mask5 (x : UInt32) : 0 ≤ (Cref.i8 (x &&& 31)).toInt ∧ (Cref.i8 (x &&& 31)).toInt ≤ 31 := by
  have e : Cref.i8 (x &&& 31) = (x.toUInt8 &&& 31).toInt8 := by unfold Cref.i8; rw [UInt32.toUInt8_and]; rfl
  rw [e]
  generalize x.toUInt8 = b
  revert b
  exact uint8_forall (by decide +kernel)

theorem xor5 (x y : UInt32) : 0 ≤ (Cref.i8 (x &&& 31) ^^^ Cref.i8 (y &&& 31)).toInt ∧
    (Cref.i8 (x &&& 31) ^^^ Cref.i8 (y &&& 31)).toInt ≤ 31 := by
  rw [xor_mask]
  exact mask5 _

theorem mask3 (x : UInt32) : 0 ≤ (Cref.i8 (x &&& 7)).toInt ∧ (Cref.i8 (x &&& 7)).toInt ≤ 7 := by
  have e : Cref.i8 (x &&& 7) = (x.toUInt8 &&& 7).toInt8 := by unfold Cref.i8; rw [UInt32.toUInt8_and]; rfl
  rw [e]
  generalize x.toUInt8 = b
  revert b
  exact uint8_forall (by decide +kernel)

theorem xor3 (x y : UInt32) : 0 ≤ (Cref.i8 (x &&& 7) ^^^ Cref.i8 (y &&& 7)).toInt ∧
    (Cref.i8 (x &&& 7) ^^^ Cref.i8 (y &&& 7)).toInt ≤ 7 := by
  rw [xor_mask]
  exact mask3 _

theorem raw5 (v : Sc) : ∀ x ∈ Cref.window5Raw v, 0 ≤ x.toInt ∧ x.toInt ≤ 31 := by
  unfold Cref.window5Raw Cref.window5Chunk
  simp only [List.forall_mem_append, List.forall_mem_cons, mask5, xor5, true_and, and_true, and_self]
  simp

theorem raw3 (v : Sc) : ∀ x ∈ Cref.window3Raw v, 0 ≤ x.toInt ∧ x.toInt ≤ 7 := by
  unfold Cref.window3Raw Cref.window3Chunk
  simp only [List.forall_mem_append, List.forall_mem_cons, mask3, xor3, true_and, and_true, and_self]
  simp

/-- **C74** (windows).  For every array of limbs, whatever they are, the digits from which `scalar_window3` and
`scalar_window5` start fit their `signed char`, and so does every value that is assigned later.  So the results are those of
exact arithmetic. -/
theorem C74_windows (v : Sc) :
    (∃ a rest, (Cref.window5Raw v).map Int8.toInt = a :: rest ∧ (∀ x ∈ a :: rest, 0 ≤ x ∧ x < 2 ^ 5) ∧
      (∀ x ∈ signStores 5 0 a rest, -128 ≤ x ∧ x ≤ 127) ∧ (Cref.window5 v).map Int8.toInt = signExact 5 0 a rest) ∧
    (∃ a rest, (Cref.window3Raw v).map Int8.toInt = a :: rest ∧ (∀ x ∈ a :: rest, 0 ≤ x ∧ x < 2 ^ 3) ∧
      (∀ x ∈ signStores 3 0 a rest, -128 ≤ x ∧ x ≤ 127) ∧ (Cref.window3 v).map Int8.toInt = signExact 3 0 a rest) := by
  constructor
  · have hr := raw5 v
    unfold Cref.window5
    cases h : Cref.window5Raw v with
    | nil => exact absurd h (by simp [Cref.window5Raw, Cref.window5Chunk])
    | cons a rest =>
      rw [h] at hr
      have h0 := hr a (by simp)
      obtain ⟨h1, h2⟩ := sign5_exact rest 0 a (by decide) (by decide) (by omega) (by omega) (fun x hx => hr x (by simp [hx]))
      refine ⟨a.toInt, rest.map Int8.toInt, rfl, ?_, h2, h1⟩
      intro x hx
      rw [← List.map_cons, List.mem_map] at hx
      obtain ⟨y, hy, rfl⟩ := hx
      have := hr y hy
      norm_num
      omega
  · have hr := raw3 v
    unfold Cref.window3
    cases h : Cref.window3Raw v with
    | nil => exact absurd h (by simp [Cref.window3Raw, Cref.window3Chunk])
    | cons a rest =>
      rw [h] at hr
      have h0 := hr a (by simp)
      obtain ⟨h1, h2⟩ := sign3_exact rest 0 a (by decide) (by decide) (by omega) (by omega) (fun x hx => hr x (by simp [hx]))
      refine ⟨a.toInt, rest.map Int8.toInt, rfl, ?_, h2, h1⟩
      intro x hx
      rw [← List.map_cons, List.mem_map] at hx
      obtain ⟨y, hy, rfl⟩ := hx
      have := hr y hy
      norm_num
      omega

/-- Running it: 31 is -1 + 32. -/
example : Cref.window5 ((leBytes 32 31).map UInt8.toUInt32) = (-1) :: 1 :: List.replicate 49 0 ∧
    signStores 5 0 31 [0] = [31, 0, 31, 1, -1, 1] := by decide +kernel

end Ristretto.Props
