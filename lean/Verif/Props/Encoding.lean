import Verif.Proofs.Repr
import Verif.Proofs.Text
import Verif.Proofs.Hex

/-!
# C25–C27, C38–C40: encodings of points and scalars

`encode g` and `decode b` (Spec/Abstract.lean) define the Ristretto encoding from the curve alone.
-/

namespace Ristretto.Props
open Model Proofs
set_option autoImplicit false

/-- `Bytes` returns the Ristretto encoding of the class. -/
theorem C25_bytes (q : ExtPt Fe51) (g : RGroup) (hq : Represents q g) : ExtPt.ristretto q = encode g :=
  (represents_iff.1 hq).bytes

/-- **C25.** -/
theorem C25_canonical (q r : ExtPt Fe51) (g h : RGroup) (hq : Represents q g) (hr : Represents r h) :
    (ExtPt.ristretto q = ExtPt.ristretto r ↔ Point.equals q r = true) ∧
    (ExtPt.ristretto q = ExtPt.ristretto r ↔ g = h) := by
  have h1 : ExtPt.ristretto q = ExtPt.ristretto r ↔ g = h := by
    rw [C25_bytes q g hq, C25_bytes r h hr]
    exact encode_injective.eq_iff
  exact ⟨h1.trans ((represents_iff.1 hq).equals (represents_iff.1 hr)).symm, h1⟩

/-- The encoding of the base point and of another representative of its class. -/
example : ExtPt.ristretto (ExtPt.base : ExtPt Fe51) =
    #v[0xe2, 0xf2, 0xae, 0x0a, 0x6a, 0xbc, 0x4e, 0x71, 0xa8, 0x84, 0xa9, 0x61, 0xc5, 0x00, 0x51, 0x5f,
       0x58, 0xe3, 0x0b, 0x6a, 0xa5, 0x82, 0xdd, 0x8d, 0xb6, 0xa6, 0x59, 0x45, 0xe0, 0x8d, 0x2d, 0x76] ∧
    ExtPt.ristretto (ExtPt.add ExtPt.base ExtPt.torsion1 : ExtPt Fe51) = ExtPt.ristretto (ExtPt.base : ExtPt Fe51) := by
  decide +kernel

/-- **C26.** -/
theorem C26_roundtrip (q : ExtPt Fe51) (g : RGroup) (hq : Represents q g) :
    (ExtPt.setRistretto (F := Fe51) (ExtPt.ristretto q)).2 = true ∧
    Represents (ExtPt.setRistretto (ExtPt.ristretto q)).1 g ∧
    Point.equals (ExtPt.setRistretto (ExtPt.ristretto q)).1 q = true := by
  rw [C25_bytes q g hq]
  rw [represents_iff] at hq
  obtain ⟨h1, h2⟩ := setBytes_some (F := Fe51) (decode_encode g)
  exact ⟨h1, represents_iff.2 h2, (h2.equals hq).2 rfl⟩

/-- **C27.** -/
theorem C27_exact (b : Bytes 32) :
    ((ExtPt.setRistretto (F := Fe51) b).2 = true →
      (∃ g, Represents (ExtPt.setRistretto b).1 g) ∧ ExtPt.ristretto (F := Fe51) (ExtPt.setRistretto b).1 = b) ∧
    ((ExtPt.setRistretto (F := Fe51) b).2 = true ↔ ∃ g, encode g = b) ∧
    ((ExtPt.setRistretto (F := Fe51) b).2 = true ↔ ∃ q g, Represents q g ∧ ExtPt.ristretto q = b) ∧
    ((ExtPt.setRistretto (F := Fe51) b).2 = false →
      (ExtPt.setRistretto (F := Fe51) b).1 = ⟨⟨0, 0, 0, 0, 0⟩, ⟨0, 0, 0, 0, 0⟩, ⟨0, 0, 0, 0, 0⟩, ⟨0, 0, 0, 0, 0⟩⟩) := by
  cases hd : decode b with
  | some g =>
    obtain ⟨h1, h2⟩ := setBytes_some (F := Fe51) hd
    have hb := decode_eq_some.1 hd
    have hr := represents_iff.2 h2
    have he : ExtPt.ristretto (F := Fe51) (ExtPt.setRistretto b).1 = b := (C25_bytes _ _ hr).trans hb.symm
    refine ⟨fun _ => ⟨⟨g, hr⟩, he⟩, ⟨fun _ => ⟨g, hb.symm⟩, fun _ => h1⟩, ⟨fun _ => ⟨_, g, hr, he⟩, fun _ => h1⟩, fun h => ?_⟩
    rw [h1] at h; simp at h
  | none =>
    have h := setBytes_none (F := Fe51) hd
    have hn := decode_eq_none.1 hd
    rw [h]
    refine ⟨fun h => by simp at h, ⟨fun h => by simp at h, fun ⟨g, hg⟩ => absurd hg (hn g)⟩,
      ⟨fun h => by simp at h, fun ⟨q, g, hq, hb⟩ => absurd ((C25_bytes q g hq).symm.trans hb) (hn g)⟩, fun _ => rfl⟩

/-- An accepted input (the base point), and rejected ones: a non-canonical field element (p), a negative
one (1), one with the top bit set (2^255), and one that belongs to no point (2). -/
example :
    (ExtPt.setRistretto (F := Fe51) (ExtPt.ristretto (ExtPt.base : ExtPt Fe51))).2 = true ∧
    (ExtPt.setRistretto (F := Fe51) (leBytes 32 p)).2 = false ∧
    (ExtPt.setRistretto (F := Fe51) (leBytes 32 1)).2 = false ∧
    (ExtPt.setRistretto (F := Fe51) (leBytes 32 0)).2 = true ∧
    (ExtPt.setRistretto (F := Fe51) (leBytes 32 (2 ^ 255))).2 = false ∧
    (ExtPt.setRistretto (F := Fe51) (leBytes 32 2)).2 = false := by decide +kernel

/-- **C38** (round trip). -/
theorem C38_roundtrip (q r : ExtPt Fe51) (g : RGroup) (hq : Represents q g) :
    (Point.unmarshalBinary r (Point.marshalBinary q)).2 = true ∧
    Represents (Point.unmarshalBinary r (Point.marshalBinary q)).1 g := by
  obtain ⟨h1, h2⟩ := unmarshal_marshal (r := r) (represents_iff.1 hq)
  exact ⟨h1, represents_iff.2 h2⟩

/-- **C38** (errors): success exactly on the encodings; on a wrong length the receiver is unchanged. -/
theorem C38_exact (r : ExtPt Fe51) (data : List UInt8) :
    ((Point.unmarshalBinary r data).2 = true ↔ ∃ g, (encode g).toList = data) ∧
    (data.length ≠ 32 → Point.unmarshalBinary r data = (r, false)) ∧
    (∀ g, (encode g).toList = data → Represents (Point.unmarshalBinary r data).1 g) := by
  by_cases hl : data.length = 32
  · rw [unmarshalBinary_eq hl]
    have hL : ∀ g, (encode g).toList = data ↔ encode g = toBytes 32 data := by
      intro g
      constructor
      · rintro rfl; rw [toBytes_toList]
      · intro h; rw [h, toBytes_val hl]
    refine ⟨?_, fun h => absurd hl h, fun g hg => ?_⟩
    · rw [(C27_exact (toBytes 32 data)).2.1]
      simp only [hL]
    · rw [represents_iff]
      exact (setBytes_some (decode_eq_some.2 ((hL g).1 hg).symm)).2
  · rw [unmarshalBinary_length hl]
    refine ⟨⟨fun h => by simp at h, fun ⟨g, hg⟩ => absurd (by rw [← hg]; simp) hl⟩, fun _ => rfl, fun g hg =>
      absurd (by rw [← hg]; simp) hl⟩

example : (Point.unmarshalBinary (ExtPt.zero : ExtPt Fe51) (Point.marshalBinary (ExtPt.base : ExtPt Fe51))).2 = true ∧
    (Point.unmarshalBinary (ExtPt.zero : ExtPt Fe51) [1, 2, 3]).2 = false := by decide +kernel

/-- **C39** (points, base64). -/
theorem C39_point (q r : ExtPt Fe51) (g : RGroup) (hq : Represents q g) :
    ∃ q', Point.unmarshalText r (Point.marshalText q) = some (q', true) ∧ Represents q' g := by
  obtain ⟨q', h1, h2⟩ := unmarshalText_marshalText (r := r) (represents_iff.1 hq)
  exact ⟨q', h1, represents_iff.2 h2⟩

/-- **C39** (points, hexadecimal digits in either case). `IsHexOf txt bs`: the text is two
hexadecimal digits per byte. -/
theorem C39_hex (q r : ExtPt Fe51) (g : RGroup) (hq : Represents q g) (txt : List UInt8)
    (ht : IsHexOf txt (ExtPt.ristretto q).toList) :
    ∃ q', Point.unmarshalText r txt = some (q', true) ∧ Represents q' g := by
  have h := textToBuf_hex ht (by simp)
  unfold Point.unmarshalText
  rw [h]
  simp only [toBytes_toList]
  obtain ⟨h1, h2, -⟩ := C26_roundtrip q g hq
  exact ⟨_, by rw [← h1], h2⟩

/-- **C39** (scalars). -/
theorem C39_scalar (s r : Scalar) (hs : scVal s < l) :
    Scalar.unmarshalText r (Scalar.marshalText s) = some (s, true) := scalar_text_roundtrip hs

/-- The text of the base point; its hexadecimal form is accepted. -/
example : Point.marshalText (ExtPt.base : ExtPt Fe51) = "4vKuCmq8TnGohKlhxQBRX1jjC2qlgt2NtqZZReCNLXY".toUTF8.toList ∧
    (Point.unmarshalText (ExtPt.zero : ExtPt Fe51)
      "E2F2ae0a6abc4e71a884a961c500515f58e30b6aa582dd8db6a65945e08d2d76".toUTF8.toList).map (·.2) = some true := by
  decide +kernel

/-- **C40 is false**: 44 letters `A` make `UnmarshalText` panic, for points and for scalars. -/
theorem C40_panics (q : ExtPt Fe51) (s : Scalar) :
    Point.unmarshalText q (List.replicate 44 65) = none ∧ Scalar.unmarshalText s (List.replicate 44 65) = none := by
  have h1 : textToBuf (List.replicate 44 65) = .panic := by decide +kernel
  have h2 : b64Decode 32 (List.replicate 44 65) = .panic := by decide +kernel
  constructor
  · unfold Point.unmarshalText; rw [h1]
  · unfold Scalar.unmarshalText; rw [h2]

/-- What remains true of **C40**: the exact set of inputs on which `UnmarshalText` of a scalar panics.
`LongB64 txt`: at least 44 characters besides line breaks, the first 44 of them base64 digits. -/
theorem C40_scalar_partial (s : Scalar) (txt : List UInt8) :
    Scalar.unmarshalText s txt = none ↔ LongB64 txt := by
  rw [longB64_iff]
  unfold Scalar.unmarshalText
  cases h : b64Decode 32 txt with
  | panic => simp
  | err => simp
  | ok out => simp only; split <;> simp

/-- What remains true of **C40** for points: the same, unless the text is 64 hexadecimal digits. -/
theorem C40_point_partial (q : ExtPt Fe51) (txt : List UInt8) :
    Point.unmarshalText q txt = none ↔
      LongB64 txt ∧ ¬ ∃ bs, bs.length = 32 ∧ IsHexOf txt bs := by
  rw [longB64_iff, ← textToBuf_panic_iff]
  unfold Point.unmarshalText
  cases h : textToBuf txt <;> simp

/-- In particular every text of less than 44 characters is handled without a panic. -/
theorem C40_short_partial (q : ExtPt Fe51) (s : Scalar) (txt : List UInt8) (h : txt.length < 44) :
    Point.unmarshalText q txt ≠ none ∧ Scalar.unmarshalText s txt ≠ none := by
  have hl : (withoutBreaks txt).length ≤ txt.length := List.length_filter_le _ _
  rw [Ne, Ne, C40_point_partial, C40_scalar_partial]
  constructor
  · rintro ⟨⟨h1, -⟩, -⟩; omega
  · rintro ⟨h1, -⟩; omega

end Ristretto.Props
