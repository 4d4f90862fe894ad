import Verif.Proofs.Rfc9496
import Verif.Proofs.Repr
import Verif.Proofs.LizardNat

/-!
# C78: conformance with RFC 9496

`Spec/Rfc9496.lean` transcribes section 4 of "The ristretto255 and decaf448 Groups", the standard written after this package:
constants, formulas and names are those of the RFC.  The theorems compare the functions of the package with it, for every
input.
-/

namespace Ristretto.Props
open Model Proofs LawfulField
set_option autoImplicit false

/-- The internal representation, in the sense of the RFC, that a point holds. -/
def coords (q : ExtPt Fe51) : Rfc9496.Elem := ⟨feVal q.X, feVal q.Y, feVal q.Z, feVal q.T⟩

/-- Bytes 32 to 63 of a digest. -/
def secondHalf (h : Bytes 64) : Bytes 32 := Vector.ofFn fun i => h[32 + (i : ℕ)]
/-- Bytes 0 to 31 of a digest. -/
def firstHalf (h : Bytes 64) : Bytes 32 := Vector.ofFn fun i => h[(i : ℕ)]

theorem slice_first (h : Bytes 64) : slice h 0 32 = firstHalf h := by
  unfold slice firstHalf
  congr 1
  funext i
  have : (i : ℕ) < 64 := by omega
  simp [List.getD_eq_getElem?_getD, this]

theorem slice_second (h : Bytes 64) : slice h 32 32 = secondHalf h := by
  unfold slice secondHalf
  congr 1
  funext i
  have : 32 + (i : ℕ) < 64 := by omega
  simp [List.getD_eq_getElem?_getD, this]

/-- Every representation of every point of a class has the same RFC encoding, the one of the class. -/
theorem rfc_encode_class {e : Rfc9496.Elem} {P : EPoint} (he : e.Of P) (hP : P ∈ Even) :
    Rfc9496.encode e = encode (cls P hP) := by
  rw [← encodes_iff]
  refine ⟨P, hP, _, rfl, Rfc.encode_spec he hP, ?_⟩
  have hlt : (Rfc9496.encodeField e).val < 2 ^ 256 :=
    lt_trans (ZMod.val_lt _) (by unfold p; norm_num)
  show leVal (leBytes 32 _) = _
  rw [leVal_leBytes, Nat.mod_eq_of_lt (lt_of_lt_of_eq hlt (by norm_num))]

/-- **C78** (encoding): `Bytes` is Encode of section 4.3.2 of the coordinates the point holds; and Encode of any coordinates of
any other representative of the same element. -/
theorem C78_encode (q : ExtPt Fe51) (g : RGroup) (hq : Represents q g) :
    ExtPt.ristretto q = Rfc9496.encode (coords q) ∧
    ∀ (e : Rfc9496.Elem) (P : EPoint) (hP : P ∈ Even), e.Of P → cls P hP = g → ExtPt.ristretto q = Rfc9496.encode e := by
  have h : ∀ (e : Rfc9496.Elem) (P : EPoint) (hP : P ∈ Even), e.Of P → cls P hP = g →
      ExtPt.ristretto q = Rfc9496.encode e := by
    intro e P hP he hc
    rw [rfc_encode_class he hP, hc]
    exact (represents_iff.1 hq).bytes
  obtain ⟨P, hP, h1, h2⟩ := hq
  exact ⟨h _ P hP h1.proj h2, h⟩

/-- **C78** (decoding): `SetBytes` accepts exactly what Decode of section 4.3.1 accepts, and then holds coordinates of the very
point the RFC gives, not only of its class. -/
theorem C78_decode (b : Bytes 32) :
    (ExtPt.setRistretto (F := Fe51) b).2 = (Rfc9496.decode b).isSome ∧
    ∀ e, Rfc9496.decode b = some e → ∃ P ∈ Even, IsPoint (ExtPt.setRistretto (F := Fe51) b).1 P ∧ e.Of P := by
  rcases setRistretto_spec (F := Fe51) b with ⟨s, Q, h1, h2, h3, h4, h5⟩ | ⟨h1, h2, h3⟩
  · rcases Rfc.decode_spec b with ⟨e', s', Q', h4', he', h1', h2', h3'⟩ | ⟨h1', h2'⟩
    · have hs : s = s' := ZMod.val_injective _ (h3.symm.trans h3')
      subst hs
      subst he'
      have hQ : Q = Q' := Rfc.decodesTo_unique h2 h2'
      subst hQ
      refine ⟨by rw [h4, h4']; rfl, fun e he => ?_⟩
      rw [h4'] at he
      cases he
      refine ⟨Q, ?_, isPoint_iff.2 h5, ⟨one_ne_zero, ?_, ?_, ?_⟩⟩
      · exact even_of_sq h2.rel
      · simp
      · simp
      · simp
    · exact absurd ⟨s, Q, h1, h2, h3⟩ h2'
  · rcases Rfc.decode_spec b with ⟨e', s', Q', h4', he', h1', h2', h3'⟩ | ⟨h1', h2'⟩
    · exact absurd ⟨s', Q', h1', h2', h3'⟩ h1
    · exact ⟨by rw [h2, h1']; rfl, fun e he => by rw [h1'] at he; cases he⟩

/-- **C78** (comparing): `Equals` is Equals of section 4.3.3 on the coordinates the points hold. -/
theorem C78_equals (q r : ExtPt Fe51) (g h : RGroup) (hq : Represents q g) (hr : Represents r h) :
    Point.equals q r = Rfc9496.equals (coords q) (coords r) := by
  have h0 := (represents_iff.1 hq).equals (represents_iff.1 hr)
  obtain ⟨P, hP, h1, h2⟩ := hq
  obtain ⟨Q, hQ, h3, h4⟩ := hr
  have h5 := Rfc.equals_spec (e := coords q) (f := coords r) h1.proj h3.proj
  rw [← cls_eq hP hQ, h2, h4] at h5
  rw [Bool.eq_iff_iff, h0, h5]

theorem setElligator_point (b : Bytes 32) :
    ∃ P ∈ Even, IsPoint (Point.setElligator b : ExtPt Fe51) P ∧ (Rfc9496.MAP (Rfc9496.mapInput b)).Of P := by
  have h := setBytes_law (F := Fe51) b
  obtain ⟨P, h1, h2⟩ := setRistrettoElligator2_spec (bd_mono (by norm_num) h.1 : bd 6 (FieldOps.setBytes b : Fe51))
  rw [h.2] at h1
  obtain ⟨Q, h3, h4⟩ := Rfc.map_spec (Rfc9496.mapInput b)
  have hQ : P = Q := elligator_unique h1 h3
  subst hQ
  exact ⟨P, elligator_even h1, isPoint_iff.2 (toExtended_spec h2), h4⟩

/-- **C78** (the one-way map): `SetElligator` computes MAP of section 4.3.4, as a point of the curve. -/
theorem C78_map (b : Bytes 32) :
    ∃ P ∈ Even, IsPoint (Point.setElligator b : ExtPt Fe51) P ∧ (Rfc9496.MAP (Rfc9496.mapInput b)).Of P ∧
      ExtPt.ristretto (Point.setElligator b : ExtPt Fe51) = Rfc9496.encode (Rfc9496.MAP (Rfc9496.mapInput b)) := by
  obtain ⟨P, hP, h1, h2⟩ := setElligator_point b
  exact ⟨P, hP, h1, h2, (C78_encode _ _ ⟨P, hP, h1, rfl⟩).2 _ P hP h2 rfl⟩

/-- **C78** (deriving elements): `DeriveDalek` is Element Derivation of section 4.3.4 applied to the SHA-512 digest of the data
(for every hash function in place of SHA-512): MAP of the two halves, added. -/
theorem C78_deriveDalek (sha512 : List UInt8 → Bytes 64) (data : List UInt8) :
    ∃ P₁ ∈ Even, ∃ P₂ ∈ Even, (Rfc9496.MAP (Rfc9496.mapInput (firstHalf (sha512 data)))).Of P₁ ∧
      (Rfc9496.MAP (Rfc9496.mapInput (secondHalf (sha512 data)))).Of P₂ ∧
      IsPoint (Point.deriveDalek sha512 data : ExtPt Fe51) (P₁ + P₂) ∧
      ∀ e : Rfc9496.Elem, e.Of (P₁ + P₂) →
        ExtPt.ristretto (Point.deriveDalek sha512 data : ExtPt Fe51) = Rfc9496.encode e := by
  obtain ⟨P₁, hP₁, h1, h2⟩ := setElligator_point (slice (sha512 data) 0 32)
  obtain ⟨P₂, hP₂, h3, h4⟩ := setElligator_point (slice (sha512 data) 32 32)
  have e1 : Rfc9496.mapInput (slice (sha512 data) 0 32) = Rfc9496.mapInput (firstHalf (sha512 data)) := by
    rw [slice_first]
  have e2 : Rfc9496.mapInput (slice (sha512 data) 32 32) = Rfc9496.mapInput (secondHalf (sha512 data)) := by
    rw [slice_second]
  rw [e1] at h2
  rw [e2] at h4
  have h5 : IsPoint (Point.deriveDalek sha512 data : ExtPt Fe51) (P₁ + P₂) :=
    isPoint_iff.2 (add_spec (isPoint_iff.1 h1) (isPoint_iff.1 h3))
  exact ⟨P₁, hP₁, P₂, hP₂, h2, h4, h5,
    fun e he => (C78_encode _ _ ⟨_, Even.add_mem hP₁ hP₂, h5, rfl⟩).2 e _ (Even.add_mem hP₁ hP₂) he rfl⟩

/-- `Derive` on the other hand is MAP of the first half alone. -/
theorem C78_derive (sha512 : List UInt8 → Bytes 64) (data : List UInt8) :
    ExtPt.ristretto (Point.derive sha512 data : ExtPt Fe51) =
      Rfc9496.encode (Rfc9496.MAP (Rfc9496.mapInput (firstHalf (sha512 data)))) := by
  obtain ⟨P, hP, h1, h2, h3⟩ := C78_map (slice (sha512 data) 0 32)
  have e1 : Rfc9496.mapInput (slice (sha512 data) 0 32) = Rfc9496.mapInput (firstHalf (sha512 data)) := by
    rw [slice_first]
  rw [← e1]
  exact h3

/-- It is not Element Derivation: there are digests on which the two differ. -/
theorem C78_derive_differs : ∃ h : Bytes 64,
    ExtPt.ristretto (Point.derive (fun _ => h) [] : ExtPt Fe51) ≠
      ExtPt.ristretto (Point.deriveDalek (fun _ => h) [] : ExtPt Fe51) :=
  ⟨leBytes 64 (2 + 2 ^ 256 * 3), by decide +kernel⟩

/-! The hypotheses are met, and both sides take values other than the neutral element.  The numbers are test vectors of the
RFC (appendices A.1, A.2 and A.3), written as little-endian numbers. -/

example : Represents (ExtPt.base : ExtPt Fe51) baseR ∧
    Rfc9496.encode (coords ExtPt.base) =
      #v[0xe2, 0xf2, 0xae, 0x0a, 0x6a, 0xbc, 0x4e, 0x71, 0xa8, 0x84, 0xa9, 0x61, 0xc5, 0x00, 0x51, 0x5f,
         0x58, 0xe3, 0x0b, 0x6a, 0xa5, 0x82, 0xdd, 0x8d, 0xb6, 0xa6, 0x59, 0x45, 0xe0, 0x8d, 0x2d, 0x76] := by
  have h : Represents (ExtPt.base : ExtPt Fe51) baseR := represents_iff.2 holds_base
  exact ⟨h, by rw [← (C78_encode _ _ h).1]; decide +kernel⟩

/-- An accepted string; and rejected ones: not canonical, negative, not a square, `y = 0`. -/
example : (Rfc9496.decode (ExtPt.ristretto (ExtPt.base : ExtPt Fe51))).isSome = true ∧
    (Rfc9496.decode (leBytes 32 p)).isSome = false ∧ (Rfc9496.decode (leBytes 32 1)).isSome = false ∧
    (Rfc9496.decode (leBytes 32 51485050767150065296458600688377593423602953320526694477039286172342700315686)).isSome = false ∧
    (Rfc9496.decode (leBytes 32 (p - 1))).isSome = false := by
  simp only [← (C78_decode _).1]
  decide +kernel

/-- The digest of "Ristretto is traditionally a short shot of espresso coffee". -/
example : ExtPt.ristretto (Point.deriveDalek (fun _ => leBytes 64
      9550934544876074472864335409058008876701444279189343478972895212932086571468793318539822911708305494960028691790819613052678787725296280374086297595157341) [] :
      ExtPt Fe51) = leBytes 32 31680085187462729902376606230845618866830056053850568863738022364209707771440 ∧
    ExtPt.ristretto (Point.deriveDalek (fun _ => leBytes 64
      2961810140887782204412662146935988029048609870944321866214753844642738878683398589020058175511742998214919597081958025247042663838505329318402189159503601) [] :
      ExtPt Fe51) = leBytes 32 12591315894774617980504893345159544623752570257311593035175980067567372562162 := by
  decide +kernel

/-- Two points holding different coordinates of one element, and two different elements. -/
example : Rfc9496.equals (coords ExtPt.base) (coords (ExtPt.add ExtPt.base ExtPt.torsion1)) = true ∧
    coords ExtPt.base ≠ coords (ExtPt.add ExtPt.base ExtPt.torsion1) ∧
    Rfc9496.equals (coords ExtPt.base) (coords ExtPt.zero) = false := by decide +kernel

end Ristretto.Props
