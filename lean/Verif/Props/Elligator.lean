import Verif.Proofs.Repr
import Verif.Proofs.LizardNat
import Verif.Proofs.EllExact

/-!
# C34–C37: Elligator, Derive, Lizard

`ellMap r` (Spec/Abstract.lean, Spec/Elligator.lean): the class the map of RFC 9496 assigns to a field
element.  `lizardMap H data` (Spec/Lizard.lean): the class 16 bytes are encoded into by Lizard.
-/

namespace Ristretto.Props
open Model Proofs
set_option autoImplicit false

/-- `ellMap` is the map of RFC 9496: every field element has exactly one image point. -/
theorem C34_map (r : Fp) : ∃! P, Elligator r P ∧ ∃ hP : P ∈ Even, ellMap r = cls P hP := by
  obtain ⟨P, hP⟩ := elligator_exists r
  exact ⟨P, ⟨hP, elligator_even hP, ellMap_spec hP⟩, fun Q hQ => elligator_unique hQ.1 hP⟩

/-- **C34** (total; depends only on the field element read from the buffer). -/
theorem C34_setElligator (buf : Bytes 32) :
    Represents (Point.setElligator buf : ExtPt Fe51) (ellMap ((leVal buf % 2 ^ 255 : ℕ) : Fp)) :=
  represents_iff.2 (setElligator_holds buf)

/-- **C34** (equal for r and -r). -/
theorem C34_neg (r : Fp) : ellMap (-r) = ellMap r := by
  obtain ⟨P, s, t, h1, h2⟩ := elligator_exists r
  rw [ellMap_spec (r := r) ⟨s, t, h1, h2⟩, ellMap_spec (r := -r) ⟨s, t, elligatorJac_neg.2 h1, h2⟩]

/-- **C34** as an API statement: buffers holding `±r` modulo p give equal points. -/
theorem C34_api (a b : Bytes 32)
    (h : ((leVal a % 2 ^ 255 : ℕ) : Fp) = ((leVal b % 2 ^ 255 : ℕ) : Fp) ∨
      ((leVal a % 2 ^ 255 : ℕ) : Fp) = -((leVal b % 2 ^ 255 : ℕ) : Fp)) :
    Point.equals (Point.setElligator a : ExtPt Fe51) (Point.setElligator b) = true := by
  have ha := C34_setElligator a
  have hb := C34_setElligator b
  refine ((represents_iff.1 ha).equals (represents_iff.1 hb)).2 ?_
  rcases h with h | h
  · rw [h]
  · rw [h, C34_neg]

/-- 2 and p - 2 with the top bit set: different buffers, equal points, not the neutral element. -/
example : Point.equals (Point.setElligator (leBytes 32 2) : ExtPt Fe51)
      (Point.setElligator (leBytes 32 (2 ^ 255 + p - 2))) = true ∧
    Point.equals (Point.setElligator (leBytes 32 2) : ExtPt Fe51) ExtPt.zero = false := by decide +kernel

/-- **C35.** For every hash function. -/
theorem C35_derive (sha512 : List UInt8 → Bytes 64) (data : List UInt8) :
    Represents (Point.derive sha512 data : ExtPt Fe51)
      (ellMap ((leVal (sha512 data) % 2 ^ 255 : ℕ) : Fp)) ∧
    Represents (Point.deriveDalek sha512 data : ExtPt Fe51)
      (ellMap ((leVal (sha512 data) % 2 ^ 255 : ℕ) : Fp) +
        ellMap ((leVal (sha512 data) / 2 ^ 256 % 2 ^ 255 : ℕ) : Fp)) := by
  have h1 := derive_holds (F := Fe51) sha512 data
  have h2 := deriveDalek_holds (F := Fe51) sha512 data
  rw [feOfBytes_slice_low] at h1 h2
  rw [feOfBytes_slice_high] at h2
  exact ⟨represents_iff.2 h1, represents_iff.2 h2⟩

/-- A hash function with different halves. -/
example : ∃ g, g ≠ 0 ∧ Represents (Point.derive (fun _ => leBytes 64 (2 + 2 ^ 256 * 3)) [] : ExtPt Fe51) g := by
  refine ⟨_, ?_, (C35_derive _ []).1⟩
  intro h
  have h1 := represents_iff.1 (C35_derive (fun _ => leBytes 64 (2 + 2 ^ 256 * 3)) []).1
  rw [h] at h1
  have h2 := h1.equals (holds_zero (F := Fe51)) |>.2 rfl
  have h3 : Point.equals (Point.derive (fun _ => leBytes 64 (2 + 2 ^ 256 * 3)) [] : ExtPt Fe51) ExtPt.zero = false := by
    decide +kernel
  rw [h3] at h2
  simp at h2

/-- The field elements `RistrettoElligator2Inverse` flags. -/
def Returned (q : ExtPt Fe51) (x : Fp) : Prop := ∃ e ∈ ristrettoElligator2Inverse q, e.2 = 1 ∧ feVal e.1 = x

theorem missed_spec : ¬ IsNeg missed ∧ missed ^ 2 * d = sqrtM1 :=
  ⟨missed_nonneg, by rw [sq]; exact missed_sq⟩

theorem ellMap_iff {q : ExtPt Fe51} {P : EPoint} (hP : P ∈ Even) {g : RGroup} (hg : cls P hP = g) (x : Fp) :
    (∃ Q, Elligator x Q ∧ Q - P ∈ E4) ↔ ellMap x = g := by
  rw [← hg, ellMap_eq_iff]

/-- **C36** away from the neutral class: the flagged elements are exactly the non-negative preimages,
and none is flagged twice. -/
theorem C36_inverse_partial (q : ExtPt Fe51) (g : RGroup) (hq : Represents q g) (hg : g ≠ 0) :
    (∀ x, Returned q x ↔ ¬ IsNeg x ∧ ellMap x = g) ∧
    (ristrettoElligator2Inverse q).Pairwise (fun a b => a.2 = 1 → b.2 = 1 → feVal a.1 ≠ feVal b.1) ∧
    (ristrettoElligator2Inverse q).length = 8 := by
  obtain ⟨P, hP, h1, h2⟩ := represents_iff.1 hq
  have hE : P ∉ E4 := by
    intro h
    apply hg
    rw [← h2]
    exact (cls_eq hP Even.zero_mem).2 (by rw [sub_zero]; exact h)
  refine ⟨fun x => ?_, inverse_distinct h1 hP hE, ?_⟩
  · rw [← ellMap_iff (q := q) hP h2 x]
    exact inverse_exact h1 hP hE x
  · rfl

/-- **C36 fails** on the neutral class: of its non-negative preimages exactly `missed`, the
non-negative square root of `i/d`, is never returned. -/
theorem C36_neutral_partial (q : ExtPt Fe51) (hq : Represents q 0) :
    (∀ x, Returned q x ↔ ¬ IsNeg x ∧ ellMap x = 0 ∧ x ≠ missed) ∧ ¬ IsNeg missed ∧ ellMap missed = 0 := by
  obtain ⟨P, hP, h1, h2⟩ := represents_iff.1 hq
  have hE : P ∈ E4 := by
    have := (cls_eq hP Even.zero_mem).1 h2
    rwa [sub_zero] at this
  refine ⟨fun x => ?_, missed_nonneg, ?_⟩
  · rw [← ellMap_iff (q := q) hP h2 x]
    exact inverse_neutral h1 hE x
  · exact ellMap_spec (inverse_neutral_incomplete (F := Fe51) zero_spec).2.1

/-- So the full statement of C36 is false for the neutral element. -/
theorem C36_false : ¬ ∀ (q : ExtPt Fe51) (g : RGroup), Represents q g →
    ∀ x, Returned q x ↔ ¬ IsNeg x ∧ ellMap x = g := by
  intro h
  have h0 : Represents (ExtPt.zero : ExtPt Fe51) 0 := represents_iff.2 holds_zero
  have h1 := C36_neutral_partial _ h0
  have h2 := (h _ _ h0 missed).2 ⟨h1.2.1, h1.2.2⟩
  exact ((h1.1 missed).1 h2).2.2 rfl

/-- The hypotheses are met by the base point. -/
example : Represents (ExtPt.base : ExtPt Fe51) baseR ∧ Point.equals (ExtPt.base : ExtPt Fe51) ExtPt.zero = false :=
  ⟨represents_iff.2 holds_base, by decide +kernel⟩

/-- `SetLizard`, for every hash function. -/
theorem C37_setLizard (H : List UInt8 → Bytes 32) (data : Bytes 16) :
    Represents (Point.setLizard H data : ExtPt Fe51) (lizardMap H data) :=
  represents_iff.2 (setLizard_holds' H data)

/-- **C37** (soundness), every point and every hash function: a successful decoding returns data that
is encoded to the point. -/
theorem C37_sound (H : List UInt8 → Bytes 32) (q : ExtPt Fe51) (g : RGroup) (hq : Represents q g)
    (buf data : Bytes 16) (h : Point.lizardInto H q buf = (data, .nil)) :
    lizardMap H data = g ∧ Point.equals (Point.setLizard H data) q = true := by
  have h1 := lizardInto_sound (represents_iff.1 hq) h
  exact ⟨h1, ((represents_iff.1 (C37_setLizard H data)).equals (represents_iff.1 hq)).2 h1⟩

/-- **C37** (round trip) with SHA-256, the hash function the package uses: the data or the error
`Multiple Lizard preimages`. -/
theorem C37_roundtrip (data buf : Bytes 16) (q : ExtPt Fe51)
    (hq : Represents q (lizardMap Sha256.sha256 data)) :
    Point.lizardInto Sha256.sha256 q buf = (data, .nil) ∨
      (Point.lizardInto Sha256.sha256 q buf).2 = .multiple := by
  refine lizard_roundtrip (represents_iff.1 hq) (fun hm => ?_) buf
  refine sha256_avoids data ?_
  rw [lizFe_eq, hm]
  exact ellMap_spec (inverse_neutral_incomplete (F := Fe51) zero_spec).2.1

/-- **C37** (round trip) for every hash function, unless the data hits the preimage `missed` of the
neutral element. -/
theorem C37_roundtrip_partial (H : List UInt8 → Bytes 32) (data buf : Bytes 16) (q : ExtPt Fe51)
    (hq : Represents q (lizardMap H data)) (hm : (lizardNat H data : Fp) ≠ missed) :
    Point.lizardInto H q buf = (data, .nil) ∨ (Point.lizardInto H q buf).2 = .multiple :=
  lizard_roundtrip (represents_iff.1 hq) hm buf

/-- **C37**, sharper, with SHA-256: the outcome says exactly how many inputs are encoded to the point. -/
theorem C37_exact (q : ExtPt Fe51) (g : RGroup) (hq : Represents q g) (buf : Bytes 16) :
    (∀ data, Point.lizardInto Sha256.sha256 q buf = (data, .nil) ↔
      ∀ data', lizardMap Sha256.sha256 data' = g ↔ data' = data) ∧
    (Point.lizardInto Sha256.sha256 q buf = (buf, .noPreimage) ↔ ∀ data', lizardMap Sha256.sha256 data' ≠ g) ∧
    ((Point.lizardInto Sha256.sha256 q buf).2 = .multiple ↔
      ∃ a b, a ≠ b ∧ lizardMap Sha256.sha256 a = g ∧ lizardMap Sha256.sha256 b = g) :=
  lizardInto_exact sha256_avoids (represents_iff.1 hq) buf

/-- **C37** for `Lizard`, which returns nil on an error. -/
theorem C37_lizard (q : ExtPt Fe51) (g : RGroup) (hq : Represents q g) (data : Bytes 16) :
    Point.lizard Sha256.sha256 q = some data ↔ ∀ data', lizardMap Sha256.sha256 data' = g ↔ data' = data := by
  rw [← (C37_exact q g hq (Vector.replicate 16 0)).1 data]
  unfold Point.lizard
  simp only
  generalize Point.lizardInto Sha256.sha256 q (Vector.replicate 16 0) = r
  obtain ⟨a, b⟩ := r
  by_cases h : b = .nil <;> simp [h]

/-- The round trip as stated in **C37**, for *every* hash function, is false: a hash function can hit the
preimage of the neutral element that the decoder misses.  By `C37_roundtrip` SHA-256 does not. -/
theorem C37_false_for_some_hash : ∃ (H : List UInt8 → Bytes 32) (data : Bytes 16), ∀ buf,
    Point.lizardInto H (Point.setLizard H data : ExtPt Fe51) buf = (buf, .noPreimage) :=
  ⟨badHash, badData, badHash_noPreimage⟩

/-- The hypotheses of `C37_roundtrip` are met by every point `SetLizard` returns. -/
example (data buf : Bytes 16) :
    Point.lizardInto Sha256.sha256 (Point.setLizard Sha256.sha256 data : ExtPt Fe51) buf = (data, .nil) ∨
    (Point.lizardInto Sha256.sha256 (Point.setLizard Sha256.sha256 data : ExtPt Fe51) buf).2 = .multiple :=
  C37_roundtrip data buf _ (C37_setLizard _ data)

end Ristretto.Props
