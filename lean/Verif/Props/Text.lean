import Verif.Props.Encoding
import Verif.Proofs.TextSpec
import Verif.Proofs.LeBytes

/-!
# C57: the text forms of points and scalars

Spec/Text.lean describes hexadecimal and base64 text as positional notation: `IsHexOf txt bs`, `IsB64Of txt bs` (any
base64 form, with line breaks), `IsCanonicalB64Of txt bs` (the one form without line breaks or stray bits), and `LongB64 txt`, the texts that
make the package panic.
-/

namespace Ristretto.Props
open Model Proofs
set_option autoImplicit false

/-- **C57**: `MarshalText` of a point is the base64 form of its encoding, and no other text is. -/
theorem C57_marshal_point (q : ExtPt Fe51) (g : RGroup) (hq : Represents q g) (txt : List UInt8) :
    Point.marshalText q = txt ↔ IsCanonicalB64Of txt (encode g).toList := by
  rw [← C25_bytes q g hq, ← encode_iff]
  exact eq_comm

/-- **C57**: `MarshalText` of a reduced scalar is the base64 form of its 32 little-endian bytes. -/
theorem C57_marshal_scalar (s : Scalar) (hs : scVal s < l) (txt : List UInt8) :
    Scalar.marshalText s = txt ↔ IsCanonicalB64Of txt (leBytes 32 (scVal s)).toList := by
  have h : s.bytes = leBytes 32 (scVal s) := by
    apply leVal_inj
    rw [bytes_val, leVal_leBytes, Nat.mod_eq_of_lt]
    have hl := l_eq
    simp only [Nat.reducePow] at *
    omega
  rw [← h, ← encode_iff]
  exact eq_comm

/-- **C57**: a text that is a hexadecimal or base64 form of 32 bytes sets the point exactly if they are the encoding of one;
if they are not, the receiver is left blank. -/
theorem C57_point (q : ExtPt Fe51) (txt : List UInt8) (b : Bytes 32)
    (hb : IsHexOf txt b.toList ∨ IsB64Of txt b.toList) :
    (∀ g, encode g = b → ∃ q', Point.unmarshalText q txt = some (q', true) ∧ Represents q' g) ∧
    ((∀ g, encode g ≠ b) → Point.unmarshalText q txt =
      some (⟨⟨0, 0, 0, 0, 0⟩, ⟨0, 0, 0, 0, 0⟩, ⟨0, 0, 0, 0, 0⟩, ⟨0, 0, 0, 0, 0⟩⟩, false)) := by
  have h := (textToBuf_ok_iff txt b.toList).2 ⟨by simp, hb⟩
  unfold Point.unmarshalText
  rw [h]
  simp only [toBytes_toList]
  refine ⟨fun g hg => ?_, fun hn => ?_⟩
  · obtain ⟨h1, h2⟩ := setBytes_some (F := Fe51) (decode_eq_some.2 hg.symm)
    exact ⟨_, by rw [← h1], represents_iff.2 h2⟩
  · have h1 : (ExtPt.setRistretto (F := Fe51) b).2 = false := by
      cases e : (ExtPt.setRistretto (F := Fe51) b).2 with
      | false => rfl
      | true =>
        obtain ⟨g, hg⟩ := (C27_exact b).2.1.1 e
        exact absurd hg (hn g)
    have h2 := (C27_exact b).2.2.2 h1
    rw [← h1, ← h2]

/-- **C57**: any other text is rejected with the receiver unchanged, or is one of the texts of C40 that make the
package panic. -/
theorem C57_point_rejects (q : ExtPt Fe51) (txt : List UInt8)
    (hn : ∀ b : Bytes 32, ¬ (IsHexOf txt b.toList ∨ IsB64Of txt b.toList)) :
    (LongB64 txt → Point.unmarshalText q txt = none) ∧ (¬ LongB64 txt → Point.unmarshalText q txt = some (q, false)) := by
  have hp := textToBuf_panic_iff txt
  rw [← longB64_iff] at hp
  unfold Point.unmarshalText
  cases e : textToBuf txt with
  | ok bs =>
    obtain ⟨hl, hb⟩ := (textToBuf_ok_iff txt bs).1 e
    exact absurd (by rw [toBytes_eq hl]; exact hb) (hn (toBytes 32 bs))
  | err =>
    have : ¬ LongB64 txt := by
      intro hL
      have := hp.2 ⟨hL, fun ⟨bs, h1, h2⟩ => hn (toBytes 32 bs) (.inl (by rw [toBytes_eq h1]; exact h2))⟩
      rw [e] at this; cases this
    exact ⟨fun h => absurd h this, fun _ => rfl⟩
  | panic => exact ⟨fun _ => rfl, fun h => absurd (hp.1 e).1 h⟩

/-- **C57**: a text that is a base64 form of 32 bytes sets a scalar as `SetBytes` does: their little-endian value
without the top three bits, modulo `l`. -/
theorem C57_scalar (s : Scalar) (txt : List UInt8) (b : Bytes 32) (hb : IsB64Of txt b.toList) :
    ∃ s', Scalar.unmarshalText s txt = some (s', true) ∧ scVal s' = leVal b % 2 ^ 253 % l := by
  have h := (b64Decode_ok_iff 32 txt b.toList).2 ⟨hb, by simp⟩
  unfold Scalar.unmarshalText
  rw [h]
  refine ⟨_, by simp; rfl, ?_⟩
  rw [toBytes_toList]
  exact setBytes_val b

/-- **C57**: any other text is rejected with the receiver unchanged, or makes the package panic. -/
theorem C57_scalar_rejects (s : Scalar) (txt : List UInt8) (hn : ∀ b : Bytes 32, ¬ IsB64Of txt b.toList) :
    (LongB64 txt → Scalar.unmarshalText s txt = none) ∧ (¬ LongB64 txt → Scalar.unmarshalText s txt = some (s, false)) := by
  have hp := longB64_iff txt
  unfold Scalar.unmarshalText
  cases e : b64Decode 32 txt with
  | ok bs =>
    obtain ⟨hb, -⟩ := (b64Decode_ok_iff 32 txt bs).1 e
    have hl : bs.length ≠ 32 := fun hl => hn (toBytes 32 bs) (by rw [toBytes_eq hl]; exact hb)
    have : ¬ LongB64 txt := by rw [hp, e]; simp
    exact ⟨fun h => absurd h this, fun _ => by simp only [hl, ne_eq, not_false_eq_true, if_true]⟩
  | err =>
    have : ¬ LongB64 txt := by rw [hp, e]; simp
    exact ⟨fun h => absurd h this, fun _ => rfl⟩
  | panic => exact ⟨fun _ => rfl, fun h => absurd (hp.2 e) h⟩

/-- A text has at most one meaning. -/
theorem C57_unambiguous (txt : List UInt8) (a b : Bytes 32) (ha : IsHexOf txt a.toList ∨ IsB64Of txt a.toList)
    (hb : IsHexOf txt b.toList ∨ IsB64Of txt b.toList) : a = b :=
  Vector.toList_inj.1 (textOf_inj (by simp) (by simp) ha hb)

/-- Base64 text with a line break and stray bits in the last digit (`Z` for `Y`): accepted, but not what `MarshalText` writes.
One digit less, or one that is not a base64 digit: rejected. -/
example :
    (Point.unmarshalText (ExtPt.zero : ExtPt Fe51)
      "4vKuCmq8TnGohKlhxQBRX1jjC2q\nlgt2NtqZZReCNLXZ".toUTF8.toList).map (·.2) = some true ∧
    (Point.unmarshalText (ExtPt.zero : ExtPt Fe51)
      "4vKuCmq8TnGohKlhxQBRX1jjC2qlgt2NtqZZReCNLX".toUTF8.toList).map (·.2) = some false ∧
    (Point.unmarshalText (ExtPt.zero : ExtPt Fe51)
      "4vKuCmq8TnGohKlhxQBRX1jjC2qlgt2NtqZZReCNLX=".toUTF8.toList).map (·.2) = some false := by
  decide +kernel

/-- A text that meets the hypothesis of `C57_point` and `C57_scalar`. -/
example : IsB64Of (text32 (leBytes 32 77)) (leBytes 32 77).toList := by
  have h := b64_roundtrip (cap := 32) (l := (leBytes 32 77).toList) (by simp)
  rw [text32_eq] at h
  exact ((b64Decode_ok_iff 32 _ _).1 h).1

end Ristretto.Props
