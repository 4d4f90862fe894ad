import Verif.Proofs.LizardSha
import Verif.Spec.Lizard

/-!
# `SetLizard` and `LizardInto`
-/

namespace Ristretto.Proofs
open Model FieldOps LawfulField
set_option autoImplicit false

theorem leNat_append' (a b : List UInt8) : leNat (a ++ b) = leNat a + 256 ^ a.length * leNat b := by
  induction a with
  | nil => simp [leNat]
  | cons x a ih =>
    rw [List.cons_append, leNat, ih, leNat, List.length_cons, pow_succ]
    ring

theorem leNat_take_drop (l : List UInt8) (k : ℕ) (hk : k ≤ l.length) :
    leNat (l.take k) = leNat l % 256 ^ k ∧ leNat (l.drop k) = leNat l / 256 ^ k := by
  have h := leNat_append' (l.take k) (l.drop k)
  rw [List.take_append_drop] at h
  have hl : (l.take k).length = k := by simp [hk]
  have hlt := leNat_lt (l.take k)
  rw [hl] at h hlt
  rw [h]
  constructor
  · rw [Nat.add_mul_mod_self_left, Nat.mod_eq_of_lt hlt]
  · rw [Nat.add_mul_div_left _ _ (by positivity), Nat.div_eq_of_lt hlt, Nat.zero_add]

theorem and254_val : ∀ a : UInt8, (a &&& 254).toNat = a.toNat / 2 * 2 := uint8_forall (by decide +kernel)
theorem and63_val : ∀ a : UInt8, (a &&& 63).toNat = a.toNat % 64 := uint8_forall (by decide +kernel)

theorem leVal_16 (v : Bytes 16) : leVal v =
    v[0].toNat + 2 ^ 8 * v[1].toNat + 2 ^ 16 * v[2].toNat + 2 ^ 24 * v[3].toNat +
    2 ^ 32 * v[4].toNat + 2 ^ 40 * v[5].toNat + 2 ^ 48 * v[6].toNat + 2 ^ 56 * v[7].toNat +
    2 ^ 64 * v[8].toNat + 2 ^ 72 * v[9].toNat + 2 ^ 80 * v[10].toNat + 2 ^ 88 * v[11].toNat +
    2 ^ 96 * v[12].toNat + 2 ^ 104 * v[13].toNat + 2 ^ 112 * v[14].toNat + 2 ^ 120 * v[15].toNat := by
  rw [leVal_eq_sum]
  simp only [Finset.sum_range_succ, Finset.sum_range_zero, getD_eq _ _ (show (0 : ℕ) < 16 by norm_num),
    getD_eq _ _ (show (1 : ℕ) < 16 by norm_num), getD_eq _ _ (show (2 : ℕ) < 16 by norm_num),
    getD_eq _ _ (show (3 : ℕ) < 16 by norm_num), getD_eq _ _ (show (4 : ℕ) < 16 by norm_num),
    getD_eq _ _ (show (5 : ℕ) < 16 by norm_num), getD_eq _ _ (show (6 : ℕ) < 16 by norm_num),
    getD_eq _ _ (show (7 : ℕ) < 16 by norm_num), getD_eq _ _ (show (8 : ℕ) < 16 by norm_num),
    getD_eq _ _ (show (9 : ℕ) < 16 by norm_num), getD_eq _ _ (show (10 : ℕ) < 16 by norm_num),
    getD_eq _ _ (show (11 : ℕ) < 16 by norm_num), getD_eq _ _ (show (12 : ℕ) < 16 by norm_num),
    getD_eq _ _ (show (13 : ℕ) < 16 by norm_num), getD_eq _ _ (show (14 : ℕ) < 16 by norm_num),
    getD_eq _ _ (show (15 : ℕ) < 16 by norm_num)]
  ring

theorem low_val (h : Bytes 32) : leVal h % 2 ^ 64 =
    h[0].toNat + 2 ^ 8 * h[1].toNat + 2 ^ 16 * h[2].toNat + 2 ^ 24 * h[3].toNat +
    2 ^ 32 * h[4].toNat + 2 ^ 40 * h[5].toNat + 2 ^ 48 * h[6].toNat + 2 ^ 56 * h[7].toNat := by
  rw [leVal_32]
  have hb : ∀ x : UInt8, x.toNat < 256 := fun x => x.toNat_lt
  have b0 := hb h[0]; have b1 := hb h[1]; have b2 := hb h[2]; have b3 := hb h[3]
  have b4 := hb h[4]; have b5 := hb h[5]; have b6 := hb h[6]; have b7 := hb h[7]
  clear hb
  simp only [Nat.reducePow]
  omega

theorem high_val (h : Bytes 32) : leVal h / 2 ^ 192 =
    h[24].toNat + 2 ^ 8 * h[25].toNat + 2 ^ 16 * h[26].toNat + 2 ^ 24 * h[27].toNat +
    2 ^ 32 * h[28].toNat + 2 ^ 40 * h[29].toNat + 2 ^ 48 * h[30].toNat + 2 ^ 56 * h[31].toNat := by
  have e := (leNat_take_drop h.toList 24 (by simp)).2
  rw [show (256 : ℕ) ^ 24 = 2 ^ 192 by norm_num] at e
  unfold leVal
  rw [← e, leNat_eq_sum]
  have hl : (h.toList.drop 24).length = 8 := by simp
  rw [hl]
  have hg : ∀ i (hi : i < 8), (h.toList.drop 24).getD i 0 = h[24 + i] := by
    intro i hi
    rw [List.getD_eq_getElem?_getD, List.getElem?_drop, ← List.getD_eq_getElem?_getD, getD_eq _ _ (by omega)]
  simp only [Finset.sum_range_succ, Finset.sum_range_zero, hg 0 (by norm_num), hg 1 (by norm_num),
    hg 2 (by norm_num), hg 3 (by norm_num), hg 4 (by norm_num), hg 5 (by norm_num), hg 6 (by norm_num),
    hg 7 (by norm_num)]
  ring

/-- The buffer `SetLizard` builds. -/
theorem lizardBuf_val (H : List UInt8 → Bytes 32) (data : Bytes 16) :
    leVal (Point.lizardBuf H data) = lizardNat H data := by
  unfold lizardNat
  simp only
  rw [low_val, high_val, leVal_16, leVal_32]
  have e0 : (Point.lizardBuf H data)[0] = (H data.toList)[0] &&& 254 := by
    unfold Point.lizardBuf; simp
  have e31 : (Point.lizardBuf H data)[31] = (H data.toList)[31] &&& 63 := by
    unfold Point.lizardBuf; simp
  have eh : ∀ i (hi : i < 32), (¬ (8 ≤ i ∧ i < 24)) → i ≠ 0 → i ≠ 31 →
      (Point.lizardBuf H data)[i] = (H data.toList)[i] := by
    intro i hi h1 h2 h3
    unfold Point.lizardBuf
    simp only [Vector.getElem_ofFn, if_neg h1, if_neg h2, if_neg h3]
    rfl
  have ed : ∀ i (hi : i < 16), (Point.lizardBuf H data)[8 + i] = data[i] := by
    intro i hi
    unfold Point.lizardBuf
    simp only [Vector.getElem_ofFn]
    rw [if_pos (by omega), Nat.add_sub_cancel_left, getD_eq _ i hi]
  rw [e0, e31, and254_val, and63_val,
    eh 1 (by norm_num) (by norm_num) (by norm_num) (by norm_num), eh 2 (by norm_num) (by norm_num) (by norm_num) (by norm_num),
    eh 3 (by norm_num) (by norm_num) (by norm_num) (by norm_num), eh 4 (by norm_num) (by norm_num) (by norm_num) (by norm_num),
    eh 5 (by norm_num) (by norm_num) (by norm_num) (by norm_num), eh 6 (by norm_num) (by norm_num) (by norm_num) (by norm_num),
    eh 7 (by norm_num) (by norm_num) (by norm_num) (by norm_num), eh 24 (by norm_num) (by norm_num) (by norm_num) (by norm_num),
    eh 25 (by norm_num) (by norm_num) (by norm_num) (by norm_num), eh 26 (by norm_num) (by norm_num) (by norm_num) (by norm_num),
    eh 27 (by norm_num) (by norm_num) (by norm_num) (by norm_num), eh 28 (by norm_num) (by norm_num) (by norm_num) (by norm_num),
    eh 29 (by norm_num) (by norm_num) (by norm_num) (by norm_num), eh 30 (by norm_num) (by norm_num) (by norm_num) (by norm_num)]
  rw [← ed 0 (by norm_num), ← ed 1 (by norm_num), ← ed 2 (by norm_num), ← ed 3 (by norm_num),
    ← ed 4 (by norm_num), ← ed 5 (by norm_num), ← ed 6 (by norm_num), ← ed 7 (by norm_num),
    ← ed 8 (by norm_num), ← ed 9 (by norm_num), ← ed 10 (by norm_num), ← ed 11 (by norm_num),
    ← ed 12 (by norm_num), ← ed 13 (by norm_num), ← ed 14 (by norm_num), ← ed 15 (by norm_num)]
  generalize Point.lizardBuf H data = v
  generalize H data.toList = h
  have hb : ∀ x : UInt8, x.toNat < 256 := fun x => x.toNat_lt
  have b0 := hb h[0]; have b24 := hb h[24]; have b25 := hb h[25]; have b26 := hb h[26]; have b27 := hb h[27]
  have b28 := hb h[28]; have b29 := hb h[29]; have b30 := hb h[30]; have b31 := hb h[31]
  clear hb e0 e31 eh ed
  simp only [Nat.reducePow, Nat.reduceAdd]
  omega

theorem lizFe_eq (H : List UInt8 → Bytes 32) (data : Bytes 16) : lizFe H data = (lizardNat H data : Fp) := by
  unfold lizFe feOfBytes
  rw [lizardBuf_val, Nat.mod_eq_of_lt]
  have := lizardBuf_lt H data
  rw [lizardBuf_val] at this
  exact lt_trans this (by norm_num)

theorem lizardMap_eq (H : List UInt8 → Bytes 32) (data : Bytes 16) : lizardMap H data = ellMap (lizFe H data) := by
  unfold lizardMap; rw [lizFe_eq]

variable {F : Type} [LawfulField F]

theorem setLizard_holds' (H : List UInt8 → Bytes 32) (data : Bytes 16) :
    Holds (Point.setLizard H data : ExtPt F) (lizardMap H data) := by
  rw [lizardMap_eq]; exact setLizard_holds H data

/-- Everything about `LizardInto`, for any hash function. -/
theorem lizardInto_cases {H : List UInt8 → Bytes 32} {q : ExtPt F} {g : RGroup} (hq : Holds q g) (buf : Bytes 16) :
    ∃ D : List (Bytes 16), (∀ data, data ∈ D ↔ lizardMap H data = g ∧ (g = 0 → (lizardNat H data : Fp) ≠ missed)) ∧
      (g ≠ 0 → D.Nodup) ∧
      Point.lizardInto H q buf = match D with
      | [] => (buf, .noPreimage)
      | [x] => (x, .nil)
      | x :: y :: r => ((y :: r).getLast?.getD x, .multiple) := by
  obtain ⟨h1, h2⟩ := lizData_spec (H := H) hq
  refine ⟨lizData H (ristrettoElligator2Inverse q), fun data => ?_, h2, ?_⟩
  · rw [h1, lizardMap_eq, lizFe_eq]
  · obtain ⟨P, hP, h3, -⟩ := hq
    obtain ⟨h4, h5, -⟩ := inverse_basic h3 hP
    exact lizardInto_spec H buf h4 h5

/-- A successful decoding gives data that is encoded to the point. -/
theorem lizardInto_sound {H : List UInt8 → Bytes 32} {q : ExtPt F} {g : RGroup} (hq : Holds q g) {buf data : Bytes 16}
    (h : Point.lizardInto H q buf = (data, .nil)) : lizardMap H data = g := by
  obtain ⟨D, h1, -, h3⟩ := lizardInto_cases (H := H) hq buf
  rw [h3] at h
  match D, h with
  | [], h => simp at h
  | [x], h =>
    simp only [Prod.mk.injEq, and_true] at h
    subst h
    exact ((h1 x).1 (by simp)).1
  | x :: y :: r, h => simp at h

/-- When no preimage is reported the buffer is unchanged and nothing but the one missed preimage is
encoded to the point. -/
theorem lizardInto_no {H : List UInt8 → Bytes 32} {q : ExtPt F} {g : RGroup} (hq : Holds q g) {buf b : Bytes 16}
    (h : Point.lizardInto H q buf = (b, .noPreimage)) :
    b = buf ∧ ∀ data, lizardMap H data = g → g = 0 ∧ (lizardNat H data : Fp) = missed := by
  obtain ⟨D, h1, -, h3⟩ := lizardInto_cases (H := H) hq buf
  rw [h3] at h
  match D, h with
  | [], h =>
    simp only [Prod.mk.injEq, and_true] at h
    refine ⟨h.symm, fun data hd => ?_⟩
    have := h1 data
    simp only [List.not_mem_nil, false_iff, not_and, not_forall, not_not] at this
    obtain ⟨a, b⟩ := this hd
    exact ⟨a, b⟩
  | [x], h => simp at h
  | x :: y :: r, h => simp at h

/-- The round trip, unless the data is encoded by the one preimage the decoder misses. -/
theorem lizard_roundtrip {H : List UInt8 → Bytes 32} {q : ExtPt F} {data : Bytes 16}
    (hq : Holds q (lizardMap H data)) (hm : (lizardNat H data : Fp) ≠ missed) (buf : Bytes 16) :
    Point.lizardInto H q buf = (data, .nil) ∨ (Point.lizardInto H q buf).2 = .multiple := by
  obtain ⟨D, h1, -, h3⟩ := lizardInto_cases (H := H) hq buf
  have hd := (h1 data).2 ⟨rfl, fun _ => hm⟩
  rw [h3]
  match D, hd with
  | [x], hd =>
    left
    have : data = x := by simpa using hd
    rw [this]
  | x :: y :: r, _ => right; rfl

/-- With a hash that avoids the neutral class, the number of preimages is reported exactly. -/
theorem lizardInto_exact {H : List UInt8 → Bytes 32} (hH : AvoidsNeutral H) {q : ExtPt F} {g : RGroup}
    (hq : Holds q g) (buf : Bytes 16) :
    (∀ data, Point.lizardInto H q buf = (data, .nil) ↔ ∀ data', lizardMap H data' = g ↔ data' = data) ∧
    (Point.lizardInto H q buf = (buf, .noPreimage) ↔ ∀ data', lizardMap H data' ≠ g) ∧
    ((Point.lizardInto H q buf).2 = .multiple ↔ ∃ a b, a ≠ b ∧ lizardMap H a = g ∧ lizardMap H b = g) := by
  obtain ⟨D, h1, h2, h3⟩ := lizardInto_cases (H := H) hq buf
  have h1' : ∀ data, data ∈ D ↔ lizardMap H data = g := by
    intro data
    rw [h1]
    refine ⟨fun h => h.1, fun h => ⟨h, fun h0 => absurd (h.trans h0) ?_⟩⟩
    rw [lizardMap_eq]; exact hH data
  have hnd : D.Nodup := by
    by_cases hg : g = 0
    · match D, h1' with
      | [], _ => exact List.nodup_nil
      | x :: r, h1' =>
        exfalso
        have := (h1' x).1 List.mem_cons_self
        rw [hg, lizardMap_eq] at this
        exact hH x this
    · exact h2 hg
  rw [h3]
  match D, h1', hnd with
  | [], h1', _ =>
    refine ⟨fun data => ?_, ?_, ?_⟩
    · simp only [Prod.mk.injEq, reduceCtorEq, and_false, false_iff]
      intro h
      have := (h1' data).2 ((h data).2 rfl)
      simp at this
    · simp only [true_iff]
      intro d' hd
      have := (h1' d').2 hd
      simp at this
    · simp only [reduceCtorEq, false_iff]
      rintro ⟨a, b, -, ha, -⟩
      have := (h1' a).2 ha
      simp at this
  | [x], h1', _ =>
    refine ⟨fun data => ?_, ?_, ?_⟩
    · simp only [Prod.mk.injEq, and_true]
      constructor
      · rintro rfl d'
        rw [← h1']; simp
      · intro h
        have := (h1' data).2 ((h data).2 rfl)
        exact (List.mem_singleton.1 this).symm
    · simp only [Prod.mk.injEq, reduceCtorEq, and_false, false_iff, not_forall, not_not]
      exact ⟨x, (h1' x).1 (by simp)⟩
    · simp only [reduceCtorEq, false_iff]
      rintro ⟨a, b, hab, ha, hb⟩
      have e1 := (h1' a).2 ha
      have e2 := (h1' b).2 hb
      simp only [List.mem_singleton] at e1 e2
      exact hab (e1.trans e2.symm)
  | x :: y :: r, h1', hnd =>
    have hxy : x ≠ y := by
      intro h; subst h; simp at hnd
    have hx := (h1' x).1 (by simp)
    have hy := (h1' y).1 (by simp)
    refine ⟨fun data => ?_, ?_, ?_⟩
    · simp only [Prod.mk.injEq, reduceCtorEq, and_false, false_iff]
      intro h
      exact hxy (((h x).1 hx).trans ((h y).1 hy).symm)
    · simp only [Prod.mk.injEq, reduceCtorEq, and_false, false_iff, not_forall, not_not]
      exact ⟨x, hx⟩
    · simp only [true_iff]
      exact ⟨x, y, hxy, hx, hy⟩

/-! A hash function for which the decoder misses the only preimage. -/

/-- The representative of `missed`. -/
def missedNat : ℕ := 347587707554176910664335222571809819192038173877021618066561357284830225728

theorem missedNat_cast : (missedNat : Fp) = missed := by
  have hd : d ≠ 0 := d_ne_zero
  refine eq_of_sq_eq (nat_nonneg (by decide +kernel) (by decide +kernel)) missed_nonneg ?_
  apply mul_right_cancel₀ hd
  rw [missed_sq, d_eq, sqrtM1, ← Nat.cast_mul, ← Nat.cast_mul]
  exact natCast_eq_of_mod (by decide +kernel)

/-- A constant hash function. -/
def badHash : List UInt8 → Bytes 32 := fun _ => leBytes 32 missedNat

/-- The data it is bad for. -/
def badData : Bytes 16 := leBytes 16 (missedNat / 2 ^ 64)

theorem badHash_nat (data : Bytes 16) : lizardNat badHash data =
    missedNat % 2 ^ 64 + 2 ^ 64 * leVal data + 2 ^ 192 * (missedNat / 2 ^ 192 % 2 ^ 62) := by
  unfold lizardNat badHash
  simp only
  rw [leVal_leBytes, Nat.mod_eq_of_lt (show missedNat < 256 ^ 32 by decide +kernel)]
  rw [show missedNat % 2 ^ 64 / 2 * 2 = missedNat % 2 ^ 64 by decide +kernel]

theorem badHash_badData : lizardNat badHash badData = missedNat := by
  rw [badHash_nat, badData, leVal_leBytes]
  decide +kernel

theorem badHash_only {data : Bytes 16} (h : lizardMap badHash data = 0) : (lizardNat badHash data : Fp) = missed := by
  rw [lizardMap_eq] at h
  have hm := neutral_nat (lizFe_nonneg badHash data) h
  rw [lizFe_val, lizardBuf_val] at hm
  have hmod : lizardNat badHash data % 2 ^ 64 = missedNat % 2 ^ 64 := by
    rw [badHash_nat]
    generalize missedNat / 2 ^ 192 % 2 ^ 62 = a
    generalize leVal data = b
    generalize missedNat = c
    simp only [Nat.reducePow]
    omega
  have hall : ∀ n ∈ neutralNats, n % 2 ^ 64 = missedNat % 2 ^ 64 → n = missedNat := by decide +kernel
  rw [hall _ hm hmod, missedNat_cast]

theorem badHash_noPreimage (buf : Bytes 16) :
    Point.lizardInto badHash (Point.setLizard badHash badData : ExtPt F) buf = (buf, .noPreimage) := by
  have hg : lizardMap badHash badData = 0 := by
    unfold lizardMap
    rw [badHash_badData, missedNat_cast]
    exact ellMap_spec (inverse_neutral_incomplete (F := F) zero_spec).2.1
  obtain ⟨D, h1, -, h3⟩ := lizardInto_cases (H := badHash) (setLizard_holds' (F := F) badHash badData) buf
  rw [hg] at h1
  have : D = [] := by
    apply List.eq_nil_iff_forall_not_mem.2
    intro data hd
    obtain ⟨h4, h5⟩ := (h1 data).1 hd
    exact h5 rfl (badHash_only h4)
  rw [h3, this]

theorem slice_toList (v : Bytes 64) (a n : ℕ) (han : a + n ≤ 64) :
    (slice v a n).toList = (v.toList.drop a).take n := by
  apply List.ext_getElem
  · simp; omega
  · intro i h3 h4
    simp [slice, List.getD_eq_getElem?_getD]
    rw [Vector.getElem?_eq_getElem (by simp at h3; omega)]
    rfl

theorem feOfBytes_slice_low (v : Bytes 64) :
    feOfBytes (slice v 0 32) = ((leVal v % 2 ^ 255 : ℕ) : Fp) := by
  have hl : v.toList.length = 64 := by simp
  unfold feOfBytes leVal
  rw [slice_toList v 0 32 (by norm_num), List.drop_zero, (leNat_take_drop _ 32 (by omega)).1,
    show (256 : ℕ) ^ 32 = 2 ^ 256 by norm_num, Nat.mod_mod_of_dvd _ (Nat.pow_dvd_pow 2 (by norm_num))]

theorem feOfBytes_slice_high (v : Bytes 64) :
    feOfBytes (slice v 32 32) = ((leVal v / 2 ^ 256 % 2 ^ 255 : ℕ) : Fp) := by
  have hl : v.toList.length = 64 := by simp
  unfold feOfBytes leVal
  rw [slice_toList v 32 32 (by norm_num), List.take_of_length_le (by simp), (leNat_take_drop _ 32 (by omega)).2,
    show (256 : ℕ) ^ 32 = 2 ^ 256 by norm_num]

end Ristretto.Proofs
