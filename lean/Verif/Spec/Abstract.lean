import Verif.Spec.Ristretto
import Verif.Spec.Elligator
import Verif.Spec.Scalar
import Verif.Model.Word

/-!
# The abstract Ristretto group

`RGroup` is the group of even points of Edwards25519 modulo `E[4]`.  This file says which byte
string encodes an element, and which element belongs to a field element under Elligator, without
reference to the code.
-/

namespace Ristretto
set_option autoImplicit false

/-- The 32 bytes `b` are the Ristretto encoding of the group element `g`: the canonical
little-endian form of the encoding `s` of any point in the class. -/
def Encodes (g : RGroup) (b : Bytes 32) : Prop :=
  ∃ (P : EPoint) (hP : P ∈ Even) (s : Fp), cls P hP = g ∧ Enc P s ∧ leVal b = s.val

open Classical in
/-- The encoding of a group element. -/
noncomputable def encode (g : RGroup) : Bytes 32 := epsilon (Encodes g)

open Classical in
/-- The group element a byte string encodes, if any. -/
noncomputable def decode (b : Bytes 32) : Option RGroup :=
  if h : ∃ g, Encodes g b then some h.choose else none

open Classical in
/-- The group element Elligator assigns to a field element. -/
noncomputable def ellMap (r : Fp) : RGroup :=
  epsilon fun g => ∃ (P : EPoint) (hP : P ∈ Even), Elligator r P ∧ cls P hP = g

/-- The 32 bytes of a number below 2^256, least significant first. -/
def littleEndian (x : ℕ) : Bytes 32 := Vector.ofFn fun i => UInt8.ofNat (x / 256 ^ (i : ℕ))

/-- The field element read from 32 bytes: little endian, ignoring the top bit, modulo p. -/
def feOfBytes (b : Bytes 32) : Fp := ((leVal b % 2 ^ 255 : ℕ) : Fp)

/-- The Edwards25519 base point is even: its order is odd. -/
theorem stdBase_even : stdBase ∈ Even := by
  refine mem_Even.2 ⟨((l + 1) / 2) • stdBase, ?_⟩
  rw [← add_nsmul, show (l + 1) / 2 + (l + 1) / 2 = l + 1 by decide +kernel, add_nsmul,
    l_smul_stdBase, zero_add, one_nsmul]

/-- The class of the Edwards25519 base point. -/
def baseR : RGroup := cls stdBase stdBase_even

end Ristretto
