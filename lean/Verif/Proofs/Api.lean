import Verif.Model.Api
import Verif.Spec.Abstract
import Verif.Proofs.BaseTable
import Verif.Proofs.RistrettoDecode
import Verif.Proofs.VarTime
import Verif.Proofs.ScalarOps
import Verif.Proofs.EllExact
import Verif.Proofs.Text
import Verif.Proofs.LeBytes

/-!
# The methods of `Point`, on group elements

`Holds q g`: the variable `q` holds the group element `g`.
-/

namespace Ristretto.Proofs
open Model FieldOps LawfulField
set_option autoImplicit false

variable {F : Type} [LawfulField F]

/-- `q` holds the group element `g`: it has bounded limbs and valid extended coordinates of an even
point of the class `g`. -/
def Holds (q : ExtPt F) (g : RGroup) : Prop := ∃ (P : EPoint) (hP : P ∈ Even), IsPt q P ∧ cls P hP = g

/-- `t` is a table for the group element `g`. -/
def HoldsT (t : Table F) (g : RGroup) : Prop :=
  ∃ (P : EPoint) (hP : P ∈ Even), IsTable t P ∧ t.length = 32 ∧ cls P hP = g

theorem cls_add {P Q : EPoint} (hP : P ∈ Even) (hQ : Q ∈ Even) :
    cls (P + Q) (Even.add_mem hP hQ) = cls P hP + cls Q hQ := rfl
theorem cls_sub {P Q : EPoint} (hP : P ∈ Even) (hQ : Q ∈ Even) :
    cls (P - Q) (Even.sub_mem hP hQ) = cls P hP - cls Q hQ := rfl
theorem cls_neg {P : EPoint} (hP : P ∈ Even) : cls (-P) (Even.neg_mem hP) = -cls P hP := rfl
theorem cls_zero : cls 0 Even.zero_mem = 0 := rfl
theorem cls_nsmul {P : EPoint} (hP : P ∈ Even) (n : ℕ) :
    cls (n • P) (Even.nsmul_mem hP n) = n • cls P hP := rfl

/-- Every group element is the class of an even point. -/
theorem cls_surj (g : RGroup) : ∃ (P : EPoint) (hP : P ∈ Even), cls P hP = g := by
  induction g using QuotientAddGroup.induction_on with
  | H z => exact ⟨z.1, z.2, rfl⟩

theorem Holds.unique {q : ExtPt F} {g g' : RGroup} (h : Holds q g) (h' : Holds q g') : g = g' := by
  obtain ⟨P, hP, h1, rfl⟩ := h
  obtain ⟨Q, hQ, h2, rfl⟩ := h'
  have := h1.inj h2
  subst this
  rfl

theorem Holds.add {q r : ExtPt F} {g h : RGroup} (hq : Holds q g) (hr : Holds r h) :
    Holds (ExtPt.add q r) (g + h) := by
  obtain ⟨P, hP, h1, rfl⟩ := hq
  obtain ⟨Q, hQ, h2, rfl⟩ := hr
  exact ⟨P + Q, Even.add_mem hP hQ, add_spec h1 h2, rfl⟩

theorem Holds.sub {q r : ExtPt F} {g h : RGroup} (hq : Holds q g) (hr : Holds r h) :
    Holds (ExtPt.sub q r) (g - h) := by
  obtain ⟨P, hP, h1, rfl⟩ := hq
  obtain ⟨Q, hQ, h2, rfl⟩ := hr
  exact ⟨P - Q, Even.sub_mem hP hQ, sub_spec h1 h2, rfl⟩

theorem Holds.neg {q : ExtPt F} {g : RGroup} (hq : Holds q g) : Holds (ExtPt.neg q) (-g) := by
  obtain ⟨P, hP, h1, rfl⟩ := hq
  exact ⟨-P, Even.neg_mem hP, neg_spec h1, rfl⟩

theorem Holds.double {q : ExtPt F} {g : RGroup} (hq : Holds q g) : Holds (ExtPt.double q) (g + g) := by
  obtain ⟨P, hP, h1, rfl⟩ := hq
  exact ⟨P + P, Even.add_mem hP hP, double_spec h1, rfl⟩

theorem holds_zero : Holds (ExtPt.zero : ExtPt F) 0 := ⟨0, Even.zero_mem, zero_spec, rfl⟩

theorem holds_base : Holds (ExtPt.base : ExtPt F) baseR :=
  ⟨basePt, basePt_even, base_spec, (cls_eq _ _).2 basePt_sub_stdBase⟩

theorem holds_baseTable : HoldsT baseTable baseR :=
  ⟨basePt, basePt_even, baseTable_spec.1, baseTable_spec.2, (cls_eq _ _).2 basePt_sub_stdBase⟩

theorem Holds.compute {q : ExtPt F} {g : RGroup} (hq : Holds q g) : HoldsT (tableCompute q) g := by
  obtain ⟨P, hP, h1, rfl⟩ := hq
  exact ⟨P, hP, (tableCompute_spec h1).1, (tableCompute_spec h1).2, rfl⟩

theorem Holds.smul {q : ExtPt F} {g : RGroup} (hq : Holds q g) {s : Scalar} (hs : scVal s < 2 ^ 254) :
    Holds (Point.scalarMult q s) (scVal s • g) := by
  obtain ⟨P, hP, h1, rfl⟩ := hq
  rw [← bytes_val] at hs ⊢
  exact ⟨_, Even.nsmul_mem hP _, scalarMult_spec h1 _ hs, rfl⟩

theorem Holds.psmul {q : ExtPt F} {g : RGroup} (hq : Holds q g) {s : Scalar} (hs : scVal s < 2 ^ 255) :
    ∃ r, Point.publicScalarMult q s = some r ∧ Holds r (scVal s • g) := by
  obtain ⟨P, hP, h1, rfl⟩ := hq
  rw [← bytes_val] at hs ⊢
  obtain ⟨r, hr, h2⟩ := varTimeScalarMult_spec h1 _ hs
  exact ⟨r, hr, _, Even.nsmul_mem hP _, h2, rfl⟩

theorem HoldsT.smul {t : Table F} {g : RGroup} (ht : HoldsT t g) {s : Scalar} (hs : scVal s < 2 ^ 255) :
    Holds (Point.scalarMultTable t s) (scVal s • g) := by
  obtain ⟨P, hP, h1, h2, rfl⟩ := ht
  rw [← bytes_val] at hs ⊢
  exact ⟨_, Even.nsmul_mem hP _, tableScalarMult_spec h1 h2 _ hs, rfl⟩

theorem HoldsT.psmul {t : Table F} {g : RGroup} (ht : HoldsT t g) {s : Scalar} (hs : scVal s < 2 ^ 255) :
    ∃ r, Point.publicScalarMultTable t s = some r ∧ Holds r (scVal s • g) := by
  obtain ⟨P, hP, h1, h2, rfl⟩ := ht
  rw [← bytes_val] at hs ⊢
  obtain ⟨r, hr, h3⟩ := tableVarTimeScalarMult_spec h1 h2 _ hs
  exact ⟨r, hr, _, Even.nsmul_mem hP _, h3, rfl⟩

/-! Equality -/

theorem Holds.equalsI {q r : ExtPt F} {g h : RGroup} (hq : Holds q g) (hr : Holds r h) [Decidable (g = h)] :
    ExtPt.ristrettoEqualsI q r = if g = h then 1 else 0 := by
  classical
  obtain ⟨P, hP, h1, rfl⟩ := hq
  obtain ⟨Q, hQ, h2, rfl⟩ := hr
  rw [ristrettoEqualsI_spec h1 h2]
  unfold flag
  simp only [cls_eq hP hQ]

theorem Holds.equals {q r : ExtPt F} {g h : RGroup} (hq : Holds q g) (hr : Holds r h) :
    Point.equals q r = true ↔ g = h := by
  classical
  unfold Point.equals
  rw [hq.equalsI hr]
  split <;> simp_all

/-! Encoding -/

theorem enc_decodes {Q : EPoint} {s : Fp} : (¬ IsNeg s ∧ DecodesTo s Q) → Enc Q s := fun ⟨h, h'⟩ =>
  ⟨Q, by rw [sub_self]; exact E4.zero_mem, h'.x_nonneg, h'.t_nonneg, h'.y_ne, h, h'.rel⟩

theorem bytes_exists (s : Fp) : ∃ b : Bytes 32, leVal b = s.val := by
  have hv := ZMod.val_lt s
  refine ⟨leBytes 32 s.val, ?_⟩
  rw [leVal_leBytes]
  apply Nat.mod_eq_of_lt
  have : p < 256 ^ 32 := by norm_num [p]
  exact lt_trans hv this

theorem encodes_exists (g : RGroup) : ∃ b, Encodes g b := by
  obtain ⟨P, hP, rfl⟩ := cls_surj g
  obtain ⟨s, hs⟩ := enc_exists hP
  obtain ⟨b, hb⟩ := bytes_exists s
  exact ⟨b, P, hP, s, rfl, hs, hb⟩

theorem encodes_unique {g : RGroup} {b c : Bytes 32} (h : Encodes g b) (h' : Encodes g c) : b = c := by
  obtain ⟨P, hP, s, rfl, h1, h2⟩ := h
  obtain ⟨Q, hQ, t, h3, h4, h5⟩ := h'
  have hE := (cls_eq hP hQ).1 h3.symm
  have : s = t := enc_unique ((enc_congr hE).1 h1) h4
  subst this
  exact leVal_inj (h2.trans h5.symm)

theorem encodes_inj {g h : RGroup} {b : Bytes 32} (h1 : Encodes g b) (h2 : Encodes h b) : g = h := by
  obtain ⟨P, hP, s, rfl, h3, h4⟩ := h1
  obtain ⟨Q, hQ, t, rfl, h5, h6⟩ := h2
  have : s = t := ZMod.val_injective _ (h4.symm.trans h6)
  subst this
  exact (cls_eq _ _).2 (enc_inj h3 h5)

theorem encodes_encode (g : RGroup) : Encodes g (encode g) := Classical.epsilon_spec (encodes_exists g)

theorem encodes_iff {g : RGroup} {b : Bytes 32} : Encodes g b ↔ b = encode g :=
  ⟨fun h => encodes_unique h (encodes_encode g), fun h => h ▸ encodes_encode g⟩

theorem encode_injective : Function.Injective encode := fun g h e =>
  encodes_inj (encodes_encode g) (by rw [e]; exact encodes_encode h)

theorem decode_eq_some {b : Bytes 32} {g : RGroup} : decode b = some g ↔ b = encode g := by
  unfold decode
  constructor
  · intro h
    split at h
    · rename_i hb
      simp only [Option.some.injEq] at h
      have := hb.choose_spec
      rw [h] at this
      exact encodes_iff.1 this
    · simp at h
  · rintro rfl
    have hb : ∃ h, Encodes h (encode g) := ⟨g, encodes_encode g⟩
    rw [dif_pos hb]
    exact congrArg some (encodes_inj hb.choose_spec (encodes_encode g))

theorem decode_encode (g : RGroup) : decode (encode g) = some g := decode_eq_some.2 rfl

theorem decode_eq_none {b : Bytes 32} : decode b = none ↔ ∀ g, encode g ≠ b := by
  constructor
  · rintro h g rfl
    rw [decode_encode] at h; simp at h
  · intro h
    cases hd : decode b with
    | none => rfl
    | some g => exact absurd (decode_eq_some.1 hd).symm (h g)

theorem Holds.bytes {q : ExtPt F} {g : RGroup} (hq : Holds q g) : ExtPt.ristretto q = encode g := by
  obtain ⟨P, hP, h1, rfl⟩ := hq
  obtain ⟨s, hs, hb⟩ := ristretto_spec h1 hP
  exact encodes_iff.1 ⟨P, hP, s, rfl, hs, hb⟩

theorem setBytes_some {b : Bytes 32} {g : RGroup} (h : decode b = some g) :
    (ExtPt.setRistretto (F := F) b).2 = true ∧ Holds (ExtPt.setRistretto (F := F) b).1 g := by
  have he := encodes_iff.2 (decode_eq_some.1 h)
  obtain ⟨P, hP, s, rfl, hs, hb⟩ := he
  rcases setRistretto_spec (F := F) b with ⟨t, Q, h1, h2, h3, h4, h5⟩ | ⟨h1, h2, h3⟩
  · have hQ := enc_decodes ⟨h1, h2⟩
    have : s = t := ZMod.val_injective _ (hb.symm.trans h3)
    subst this
    exact ⟨h4, Q, even_of_enc hQ, h5, (cls_eq _ _).2 (enc_inj hQ hs)⟩
  · exfalso
    obtain ⟨Q, hQ, q1, q2, q3, q4, q5⟩ := hs
    exact h1 ⟨s, Q, q4, ⟨q1, q2, q3, q5⟩, hb⟩

theorem setBytes_none {b : Bytes 32} (h : decode b = none) :
    ExtPt.setRistretto (F := F) b = (⟨feZero, feZero, feZero, feZero⟩, false) := by
  rcases setRistretto_spec (F := F) b with ⟨t, Q, h1, h2, h3, h4, h5⟩ | ⟨h1, h2, h3⟩
  · exfalso
    have hQ := enc_decodes ⟨h1, h2⟩
    have : Encodes (cls Q (even_of_enc hQ)) b := ⟨Q, even_of_enc hQ, t, rfl, hQ, h3⟩
    exact decode_eq_none.1 h _ (encodes_iff.1 this).symm
  · exact Prod.ext h3 h2

/-! Elligator -/

theorem ellMap_spec {r : Fp} {P : EPoint} (h : Elligator r P) : ellMap r = cls P (elligator_even h) := by
  have h1 : ∃ g, ∃ (P : EPoint) (hP : P ∈ Even), Elligator r P ∧ cls P hP = g := ⟨_, P, elligator_even h, h, rfl⟩
  obtain ⟨Q, hQ, h2, h3⟩ := Classical.epsilon_spec h1
  have : Q = P := elligator_unique h2 h
  subst this
  exact h3.symm

theorem ellMap_eq_iff {r : Fp} {Q : EPoint} (hQ : Q ∈ Even) :
    ellMap r = cls Q hQ ↔ ∃ P, Elligator r P ∧ P - Q ∈ E4 := by
  obtain ⟨P, hP⟩ := elligator_exists r
  rw [ellMap_spec hP, cls_eq]
  constructor
  · intro h; exact ⟨P, hP, h⟩
  · rintro ⟨P', hP', h⟩
    rwa [elligator_unique hP hP']

theorem ell_holds {fe : F} (h : bd 6 fe) : Holds (setRistrettoElligator2 fe).toExtended (ellMap (eval fe)) := by
  obtain ⟨P, h1, h2⟩ := setRistrettoElligator2_spec h
  exact ⟨P, elligator_even h1, toExtended_spec h2, (ellMap_spec h1).symm⟩

theorem setElligator_holds (buf : Bytes 32) :
    Holds (Point.setElligator buf : ExtPt F) (ellMap (feOfBytes buf)) := by
  have h := setBytes_law (F := F) buf
  have := ell_holds (bd_mono (by norm_num) h.1 : bd 6 (setBytes buf : F))
  rw [h.2] at this
  exact this

theorem derive_holds (sha512 : List UInt8 → Bytes 64) (data : List UInt8) :
    Holds (Point.derive sha512 data : ExtPt F) (ellMap (feOfBytes (slice (sha512 data) 0 32))) :=
  setElligator_holds _

theorem deriveDalek_holds (sha512 : List UInt8 → Bytes 64) (data : List UInt8) :
    Holds (Point.deriveDalek sha512 data : ExtPt F)
      (ellMap (feOfBytes (slice (sha512 data) 0 32)) + ellMap (feOfBytes (slice (sha512 data) 32 32))) :=
  (setElligator_holds _).add (setElligator_holds _)

theorem setLizard_holds (sha256 : List UInt8 → Bytes 32) (data : Bytes 16) :
    Holds (Point.setLizard sha256 data : ExtPt F) (ellMap (feOfBytes (Point.lizardBuf sha256 data))) :=
  setElligator_holds _

/-! Binary and text forms -/

theorem toBytes_toList {n : ℕ} (v : Bytes n) : toBytes n v.toList = v := by
  apply Vector.ext
  intro i hi
  simp [toBytes, List.getD_eq_getElem?_getD]

theorem toBytes_val {n : ℕ} {l : List UInt8} (h : l.length = n) : (toBytes n l).toList = l := by
  subst h
  apply List.ext_getElem
  · simp [toBytes]
  · intro i h1 h2
    simp [toBytes, List.getD_eq_getElem?_getD, h2]

theorem unmarshalBinary_length {q : ExtPt F} {data : List UInt8} (h : data.length ≠ 32) :
    Point.unmarshalBinary q data = (q, false) := if_pos h

theorem unmarshalBinary_eq {q : ExtPt F} {data : List UInt8} (h : data.length = 32) :
    Point.unmarshalBinary q data = ExtPt.setRistretto (toBytes 32 data) := if_neg (by omega)

theorem unmarshal_marshal {q r : ExtPt F} {g : RGroup} (hq : Holds q g) :
    (Point.unmarshalBinary r (Point.marshalBinary q)).2 = true ∧
      Holds (Point.unmarshalBinary r (Point.marshalBinary q)).1 g := by
  unfold Point.marshalBinary
  rw [unmarshalBinary_eq (by simp), toBytes_toList, hq.bytes]
  exact setBytes_some (decode_encode g)

theorem unmarshalText_marshalText {q r : ExtPt F} {g : RGroup} (hq : Holds q g) :
    ∃ q', Point.unmarshalText r (Point.marshalText q) = some (q', true) ∧ Holds q' g := by
  unfold Point.unmarshalText Point.marshalText
  rw [textToBuf_encode (by simp)]
  simp only
  rw [toBytes_toList, hq.bytes]
  obtain ⟨h1, h2⟩ := setBytes_some (F := F) (decode_encode g)
  exact ⟨_, by rw [← h1], h2⟩

theorem scalar_text_roundtrip {s t : Scalar} (hs : scVal s < l) :
    Scalar.unmarshalText t (Scalar.marshalText s) = some (s, true) := by
  unfold Scalar.unmarshalText Scalar.marshalText
  rw [b64_roundtrip (by simp)]
  simp only
  rw [if_neg (by simp), toBytes_toList]
  have : Scalar.setBytes s.bytes = s := by
    apply scVal_inj
    rw [setBytes_val, bytes_val]
    have hl : l < 2 ^ 253 := by decide +kernel
    rw [Nat.mod_eq_of_lt (lt_trans hs hl), Nat.mod_eq_of_lt hs]
  rw [this]

end Ristretto.Proofs
