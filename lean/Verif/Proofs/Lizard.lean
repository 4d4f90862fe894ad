import Verif.Proofs.Api
import Verif.Spec.Sha256

/-!
# Lizard
-/

namespace Ristretto.Proofs
open Model FieldOps LawfulField
set_option autoImplicit false

variable {F : Type} [LawfulField F]

/-! ## The mask -/

/-- The bits of a mask built from eight flags. -/
theorem mask_bits : ∀ b0 b1 b2 b3 b4 b5 b6 b7 : Bool, ∀ j : Fin 8,
    ((Point.inverseMask 0 ([b0, b1, b2, b3, b4, b5, b6, b7].map fun b => ((), if b then (1 : Int32) else 0)))
      >>> UInt8.ofNat j) &&& 1 = if [b0, b1, b2, b3, b4, b5, b6, b7].getD j false then 1 else 0 := by
  decide +kernel

theorem inverseMask_map {G : Type} (L : List (G × Int32)) : ∀ j,
    Point.inverseMask j L = Point.inverseMask j (L.map fun e => ((), e.2)) := by
  induction L with
  | nil => intro j; rfl
  | cons e L ih => intro j; simp only [Point.inverseMask, List.map_cons, ih (j + 1)]

theorem inverseMask_bit {G : Type} {L : List (G × Int32)} (hl : L.length = 8)
    (hb : ∀ e ∈ L, e.2 = 0 ∨ e.2 = 1) {j : ℕ} (hj : j < 8) :
    (Point.inverseMask 0 L >>> UInt8.ofNat j) &&& 1 = if L[j].2 = 1 then 1 else 0 := by
  have key : ∀ M : List Int32, M.length = 8 → (∀ x ∈ M, x = 0 ∨ x = 1) → ∀ j (hj : j < M.length),
      (Point.inverseMask 0 (M.map fun x => ((), x)) >>> UInt8.ofNat j) &&& 1 = if M[j] = 1 then 1 else 0 := by
    intro M hM hx j hj
    obtain ⟨B, rfl⟩ : ∃ B : List Bool, M = B.map fun b => if b then (1 : Int32) else 0 := by
      refine ⟨M.map fun x => decide (x = 1), ?_⟩
      rw [List.map_map]
      conv_lhs => rw [← List.map_id M]
      apply List.map_congr_left
      intro x h
      rcases hx x h with rfl | rfl <;> rfl
    rw [List.length_map] at hM
    match B, hM with
    | [b0, b1, b2, b3, b4, b5, b6, b7], _ =>
      have hj8 : j < 8 := by simpa using hj
      have := mask_bits b0 b1 b2 b3 b4 b5 b6 b7 ⟨j, hj8⟩
      simp only [List.map_map] at this ⊢
      have e : ((fun x => ((), x)) ∘ fun b => if b = true then (1 : Int32) else 0) =
        fun b => ((), if b = true then (1 : Int32) else 0) := rfl
      rw [e, this]
      rw [List.getElem_map]
      have hg : [b0, b1, b2, b3, b4, b5, b6, b7].getD j false = [b0, b1, b2, b3, b4, b5, b6, b7][j] := by
        rw [List.getD_eq_getElem?_getD, List.getElem?_eq_getElem (by simpa using hj8)]; rfl
      simp only [hg]
      cases [b0, b1, b2, b3, b4, b5, b6, b7][j] <;> simp
  rw [inverseMask_map]
  have := key (L.map (·.2)) (by simpa using hl) (by
    intro x hx
    obtain ⟨e, he, rfl⟩ := List.mem_map.1 hx
    exact hb e he) j (by simpa [hl] using hj)
  rw [List.map_map] at this
  rw [List.getElem_map] at this
  exact this

/-! ## The loop -/

/-- An entry that passes the check. -/
def LizOk (H : List UInt8 → Bytes 32) (e : F × Int32) : Prop :=
  e.2 = 1 ∧ Point.lizardBuf H (slice (bytes e.1) 8 16) = bytes e.1

open Classical in
/-- The data of the entries that pass the check. -/
noncomputable def lizData (H : List UInt8 → Bytes 32) (L : List (F × Int32)) : List (Bytes 16) :=
  (L.filter fun e => decide (LizOk H e)).map fun e => slice (bytes e.1) 8 16

theorem lizardStep_spec (H : List UInt8 → Bytes 32) (mask : UInt8) (e : F × Int32) (j : ℕ)
    (hm : (mask >>> UInt8.ofNat j) &&& 1 = if e.2 = 1 then 1 else 0) (st : Bytes 16 × UInt8) [Decidable (LizOk H e)] :
    Point.lizardStep H mask e.1 j st =
      if LizOk H e then (slice (bytes e.1) 8 16, st.2 + 1) else st := by
  unfold Point.lizardStep LizOk ExtPt.constantTimeCompare
  simp only [hm]
  have e1 : (Int32.toUInt32 1).toUInt8 = 1 := by decide
  have e0 : (Int32.toUInt32 0).toUInt8 = 0 := by decide
  have z1 : (1 : UInt8) &&& 1 = 1 := by decide
  have z0 : ∀ x : UInt8, (0 : UInt8) &&& x = 0 := fun x => by simp
  have z2 : (1 : UInt8) &&& 0 = 0 := by decide
  by_cases h1 : e.2 = 1 <;> by_cases h2 : Point.lizardBuf H (slice (bytes e.1) 8 16) = bytes e.1 <;>
    simp [h1, h2, e1, e0, z1, z0, z2]

theorem lizardLoop_spec (H : List UInt8 → Bytes 32) (mask : UInt8) : ∀ (L : List (F × Int32)) (j : ℕ)
    (st : Bytes 16 × UInt8),
    (∀ (i : ℕ) (h : i < L.length), (mask >>> UInt8.ofNat (j + i)) &&& 1 = if L[i].2 = 1 then 1 else 0) →
    Point.lizardLoop H mask j (L.map (·.1)) st =
      ((lizData H L).getLast?.getD st.1, st.2 + UInt8.ofNat (lizData H L).length) := by
  classical
  intro L
  induction L with
  | nil => intro j st _; simp [Point.lizardLoop, lizData]
  | cons e L ih =>
    intro j st h
    rw [List.map_cons, Point.lizardLoop, lizardStep_spec H mask e j (h 0 (by simp)),
      ih (j + 1) _ (fun i hi => by
        have := h (i + 1) (by simpa using hi)
        rw [show j + (i + 1) = j + 1 + i by ring] at this
        simpa using this)]
    by_cases he : LizOk H e
    · have : lizData H (e :: L) = slice (bytes e.1) 8 16 :: lizData H L := by
        unfold lizData
        rw [List.filter_cons_of_pos (by simpa using he), List.map_cons]
      rw [if_pos he, this]
      apply Prod.ext
      · simp only [List.getLast?_cons, Option.getD_some]
      · simp only [List.length_cons]
        rw [UInt8.ofNat_add]
        simp only [UInt8.add_assoc]
        congr 1
        exact UInt8.add_comm _ _
    · have : lizData H (e :: L) = lizData H L := by
        unfold lizData
        rw [List.filter_cons_of_neg (by simpa using he)]
      rw [if_neg he, this]

/-- `LizardInto` counts the entries that pass the check. -/
theorem lizardInto_spec (H : List UInt8 → Bytes 32) {q : ExtPt F} (buf : Bytes 16)
    (hl : (ristrettoElligator2Inverse q).length = 8)
    (hb : ∀ e ∈ ristrettoElligator2Inverse q, e.2 = 0 ∨ e.2 = 1) :
    Point.lizardInto H q buf =
      match lizData H (ristrettoElligator2Inverse q) with
      | [] => (buf, .noPreimage)
      | [x] => (x, .nil)
      | x :: y :: r => ((y :: r).getLast?.getD x, .multiple) := by
  classical
  unfold Point.lizardInto
  simp only
  have hlen : (lizData H (ristrettoElligator2Inverse q)).length ≤ 8 := by
    unfold lizData
    rw [List.length_map, ← hl]
    exact List.length_filter_le _ _
  rw [lizardLoop_spec H _ _ 0 (buf, 0) (by
    intro i hi
    rw [Nat.zero_add]
    exact inverseMask_bit hl hb (by omega))]
  generalize lizData H (ristrettoElligator2Inverse q) = D at *
  match D, hlen with
  | [], _ => simp
  | [x], _ => simp
  | x :: y :: r, hlen =>
    have hr : r.length ≤ 6 := by simp only [List.length_cons] at hlen; omega
    have h1 : (0 : UInt8) + UInt8.ofNat (x :: y :: r).length ≠ 1 := by
      intro h
      have := congrArg UInt8.toNat h
      simp at this
      omega
    have h0 : (0 : UInt8) + UInt8.ofNat (x :: y :: r).length ≠ 0 := by
      intro h
      have := congrArg UInt8.toNat h
      simp at this
      omega
    simp only [if_neg h1, if_neg h0, List.getLast?_cons, Option.getD_some]

/-! ## The buffer -/

/-- The field element `SetLizard` maps to the curve. -/
def lizFe (H : List UInt8 → Bytes 32) (data : Bytes 16) : Fp := feOfBytes (Point.lizardBuf H data)

theorem getD_ofFn {n : ℕ} (f : Fin n → UInt8) (i : ℕ) (h : i < n) :
    (Vector.ofFn f).toList.getD i 0 = f ⟨i, h⟩ := by
  rw [getD_eq _ i h]; simp

theorem slice_lizardBuf (H : List UInt8 → Bytes 32) (data : Bytes 16) :
    slice (Point.lizardBuf H data) 8 16 = data := by
  apply Vector.ext
  intro i hi
  unfold slice Point.lizardBuf
  simp only [Vector.getElem_ofFn]
  rw [getD_ofFn _ _ (by omega)]
  simp only
  rw [if_pos (by omega), Nat.add_sub_cancel_left, getD_eq _ i hi]

theorem lizardBuf_inj {H : List UInt8 → Bytes 32} {a b : Bytes 16}
    (h : Point.lizardBuf H a = Point.lizardBuf H b) : a = b := by
  rw [← slice_lizardBuf H a, h, slice_lizardBuf]

theorem and254_even : ∀ a : UInt8, (a &&& 254).toNat % 2 = 0 := uint8_forall (by decide +kernel)
theorem and63_lt : ∀ a : UInt8, (a &&& 63).toNat < 64 := uint8_forall (by decide +kernel)

theorem lizardBuf_even (H : List UInt8 → Bytes 32) (data : Bytes 16) :
    leVal (Point.lizardBuf H data) % 2 = 0 := by
  have h : (Point.lizardBuf H data)[0] = (H data.toList)[0] &&& 254 := by
    unfold Point.lizardBuf; simp
  have h0 := and254_even (H data.toList)[0]
  rw [leVal_32, h]
  omega

theorem lizardBuf_lt (H : List UInt8 → Bytes 32) (data : Bytes 16) :
    leVal (Point.lizardBuf H data) < 2 ^ 254 := by
  have h : (Point.lizardBuf H data)[31] = (H data.toList)[31] &&& 63 := by
    unfold Point.lizardBuf; simp
  have h0 := and63_lt (H data.toList)[31]
  rw [leVal_32, h]
  have hb : ∀ x : UInt8, x.toNat < 256 := fun x => x.toNat_lt
  generalize Point.lizardBuf H data = v
  have b0 := hb v[0]; have b1 := hb v[1]; have b2 := hb v[2]; have b3 := hb v[3]
  have b4 := hb v[4]; have b5 := hb v[5]; have b6 := hb v[6]; have b7 := hb v[7]
  have b8 := hb v[8]; have b9 := hb v[9]; have b10 := hb v[10]; have b11 := hb v[11]
  have b12 := hb v[12]; have b13 := hb v[13]; have b14 := hb v[14]; have b15 := hb v[15]
  have b16 := hb v[16]; have b17 := hb v[17]; have b18 := hb v[18]; have b19 := hb v[19]
  have b20 := hb v[20]; have b21 := hb v[21]; have b22 := hb v[22]; have b23 := hb v[23]
  have b24 := hb v[24]; have b25 := hb v[25]; have b26 := hb v[26]; have b27 := hb v[27]
  have b28 := hb v[28]; have b29 := hb v[29]; have b30 := hb v[30]
  clear hb h
  simp only [Nat.reducePow]
  omega

theorem lizFe_val (H : List UInt8 → Bytes 32) (data : Bytes 16) :
    (lizFe H data).val = leVal (Point.lizardBuf H data) := by
  have h := lizardBuf_lt H data
  unfold lizFe feOfBytes
  rw [Nat.mod_eq_of_lt (lt_trans h (by norm_num)), ZMod.val_natCast, Nat.mod_eq_of_lt]
  exact lt_trans h (by norm_num [p])

theorem lizFe_nonneg (H : List UInt8 → Bytes 32) (data : Bytes 16) : ¬ IsNeg (lizFe H data) := by
  unfold IsNeg
  rw [lizFe_val, lizardBuf_even]; norm_num

/-! ## The preimages that are found -/

theorem bytes_eq_lizardBuf {H : List UInt8 → Bytes 32} {f : F} (hf : bd 6 f) (data : Bytes 16) :
    bytes f = Point.lizardBuf H data ↔ eval f = lizFe H data := by
  have h := bytes_law (bd_mono (by norm_num) hf : bd 12 f)
  constructor
  · intro e
    apply ZMod.val_injective
    rw [← h, e, lizFe_val]
  · intro e
    apply leVal_inj
    rw [h, e, lizFe_val]

theorem mem_lizData {H : List UInt8 → Bytes 32} {L : List (F × Int32)} (hL : ∀ e ∈ L, bd 6 e.1) (data : Bytes 16) :
    data ∈ lizData H L ↔ Found L (lizFe H data) := by
  classical
  unfold lizData Found
  simp only [List.mem_map, List.mem_filter, decide_eq_true_eq]
  constructor
  · rintro ⟨e, ⟨he, h1, h2⟩, rfl⟩
    exact ⟨e, he, h1, (bytes_eq_lizardBuf (hL e he) _).1 h2.symm⟩
  · rintro ⟨e, he, h1, h2⟩
    have h3 := (bytes_eq_lizardBuf (hL e he) _).2 h2
    have h4 : slice (bytes e.1) 8 16 = data := by rw [h3, slice_lizardBuf]
    exact ⟨e, ⟨he, h1, by rw [h4, h3]⟩, h4⟩

theorem lizData_nodup {H : List UInt8 → Bytes 32} {L : List (F × Int32)} (hL : ∀ e ∈ L, bd 6 e.1)
    (hp : L.Pairwise fun a b => a.2 = 1 → b.2 = 1 → eval a.1 ≠ eval b.1) : (lizData H L).Nodup := by
  classical
  unfold lizData
  rw [List.Nodup, List.pairwise_map]
  apply (hp.filter _).imp_of_mem
  intro a b ha hb h heq
  simp only [List.mem_filter, decide_eq_true_eq] at ha hb
  apply h ha.2.1 hb.2.1
  have e1 := (bytes_eq_lizardBuf (hL a ha.1) _).1 ha.2.2.symm
  have e2 := (bytes_eq_lizardBuf (hL b hb.1) _).1 hb.2.2.symm
  rw [e1, e2, heq]

theorem inverse_basic {q : ExtPt F} {P : EPoint} (h : IsPt q P) (hP : P ∈ Even) :
    (ristrettoElligator2Inverse q).length = 8 ∧
    (∀ e ∈ ristrettoElligator2Inverse q, e.2 = 0 ∨ e.2 = 1) ∧ ∀ e ∈ ristrettoElligator2Inverse q, bd 6 e.1 := by
  refine ⟨rfl, ?_⟩
  by_cases hE : P ∈ E4
  · have hF := neutral_results h hE
    exact ⟨fun e he => (forall2_right hF he).choose_spec.2.bits,
      fun e he => (forall2_right hF he).choose_spec.2.bound⟩
  · obtain ⟨J, hF, -⟩ := regular_pairs h hP hE
    exact ⟨fun e he => (forall2_right hF he).choose_spec.2.bits,
      fun e he => (forall2_right hF he).choose_spec.2.bound⟩

/-- The data found in a variable holding `g`. -/
theorem lizData_spec {H : List UInt8 → Bytes 32} {q : ExtPt F} {g : RGroup} (hq : Holds q g) :
    (∀ data, data ∈ lizData H (ristrettoElligator2Inverse q) ↔
      ellMap (lizFe H data) = g ∧ (g = 0 → lizFe H data ≠ missed)) ∧
    (g ≠ 0 → (lizData H (ristrettoElligator2Inverse q)).Nodup) := by
  obtain ⟨P, hP, h1, rfl⟩ := hq
  obtain ⟨-, -, hbd⟩ := inverse_basic h1 hP
  have hz : cls P hP = 0 ↔ P ∈ E4 := by
    rw [← cls_zero, cls_eq, sub_zero]
  refine ⟨fun data => ?_, fun hne => lizData_nodup hbd (inverse_distinct h1 hP (fun h => hne (hz.2 h)))⟩
  rw [mem_lizData hbd, ellMap_eq_iff, hz]
  by_cases hE : P ∈ E4
  · rw [inverse_neutral h1 hE]
    simp only [lizFe_nonneg, not_false_eq_true, true_and, hE, forall_const]
  · rw [inverse_exact h1 hP hE]
    simp only [lizFe_nonneg, not_false_eq_true, true_and, hE, false_imp_iff, and_true]

end Ristretto.Proofs
