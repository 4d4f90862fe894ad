import Verif.Model.Word

/-!
# Hexadecimal and base64 text
-/

namespace Ristretto
set_option autoImplicit false

/-- The ASCII character `c` is a hexadecimal digit, of either case, with value `v`. -/
def HexDig (c : UInt8) (v : Nat) : Prop :=
  (v < 10 ∧ c.toNat = 48 + v) ∨ (10 ≤ v ∧ v < 16 ∧ (c.toNat = 87 + v ∨ c.toNat = 55 + v))

/-- `txt` is the hexadecimal form of the bytes: two digits per byte, the high one first. -/
inductive IsHexOf : List UInt8 → List UInt8 → Prop
  | nil : IsHexOf [] []
  | cons {a b : UInt8} {x y : Nat} {txt bs : List UInt8} (ha : HexDig a x) (hb : HexDig b y)
      (h : IsHexOf txt bs) : IsHexOf (a :: b :: txt) (UInt8.ofNat (16 * x + y) :: bs)

/-- The URL-safe base64 alphabet: `A`-`Z`, `a`-`z`, `0`-`9`, `-`, `_`. -/
def B64Char (c : UInt8) : Prop :=
  (65 ≤ c ∧ c ≤ 90) ∨ (97 ≤ c ∧ c ≤ 122) ∨ (48 ≤ c ∧ c ≤ 57) ∨ c = 45 ∨ c = 95

/-- The text without line feeds and carriage returns. -/
def withoutBreaks (txt : List UInt8) : List UInt8 := txt.filter fun c => decide (c ≠ 10 ∧ c ≠ 13)

/-- `txt` has, apart from line breaks, at least 44 characters, and the first 44 are base64 digits. -/
def LongB64 (txt : List UInt8) : Prop :=
  44 ≤ (withoutBreaks txt).length ∧ ∀ c ∈ (withoutBreaks txt).take 44, B64Char c

/-- The ASCII character `c` is the base64 digit with value `v`. -/
def B64Dig (c : UInt8) (v : Nat) : Prop :=
  (v < 26 ∧ c.toNat = 65 + v) ∨ (26 ≤ v ∧ v < 52 ∧ c.toNat = 97 + (v - 26)) ∨
    (52 ≤ v ∧ v < 62 ∧ c.toNat = 48 + (v - 52)) ∨ (v = 62 ∧ c.toNat = 45) ∨ (v = 63 ∧ c.toNat = 95)

/-- The number with these digits in base `b`, the most significant one first. -/
def bigEndian (b : Nat) : List Nat → Nat
  | [] => 0
  | d :: ds => d * b ^ ds.length + bigEndian b ds

/-- The characters are base64 digits with the values `ds`, one by one. -/
inductive DigitsOf : List UInt8 → List Nat → Prop
  | nil : DigitsOf [] []
  | cons {c : UInt8} {v : Nat} {cs : List UInt8} {vs : List Nat} (h : B64Dig c v) (hs : DigitsOf cs vs) :
      DigitsOf (c :: cs) (v :: vs)

/-- `txt` is, apart from line breaks, an unpadded base64 form of the bytes: as a number with big-endian digits in base 64
it is that of the bytes in base 256 with up to seven bits appended (that fill up the last digit). -/
def IsB64Of (txt bs : List UInt8) : Prop :=
  ∃ ds, DigitsOf (withoutBreaks txt) ds ∧ ds.length % 4 ≠ 1 ∧ bs.length = 6 * ds.length / 8 ∧
    bigEndian 256 (bs.map UInt8.toNat) = bigEndian 64 ds / 2 ^ (6 * ds.length % 8)

/-- `txt` is the base64 form of the bytes: no line breaks, and the bits appended are zero. -/
def IsCanonicalB64Of (txt bs : List UInt8) : Prop :=
  ∃ ds, DigitsOf txt ds ∧ ds.length = (8 * bs.length + 5) / 6 ∧
    bigEndian 64 ds = bigEndian 256 (bs.map UInt8.toNat) * 2 ^ (6 * ds.length - 8 * bs.length)

/-- The base64 digit with value `v`. -/
def b64Sym (v : Nat) : UInt8 :=
  if v < 26 then UInt8.ofNat (65 + v) else if v < 52 then UInt8.ofNat (97 + (v - 26))
  else if v < 62 then UInt8.ofNat (48 + (v - 52)) else if v = 62 then 45 else 95

/-- The text form of 32 bytes: the 43 base64 digits of the big-endian number they are, times four. -/
def text32 (b : Bytes 32) : List UInt8 :=
  (List.range 43).map fun i => b64Sym (4 * bigEndian 256 (b.toList.map UInt8.toNat) / 64 ^ (42 - i) % 64)

/-- What a text is to a parser. -/
inductive Parsed where
  | bytes (b : Bytes 32)
  | malformed
  | panic

open Classical in
/-- `UnmarshalText` of points: 64 hexadecimal digits or a base64 form of 32 bytes, with line breaks anywhere.  Other texts
are malformed, or make the package panic. -/
noncomputable def parsePoint (txt : List UInt8) : Parsed :=
  if h : ∃ b : Bytes 32, IsHexOf txt b.toList ∨ IsB64Of txt b.toList then .bytes h.choose
  else if LongB64 txt then .panic else .malformed

open Classical in
/-- `UnmarshalText` of scalars: a base64 form of 32 bytes. -/
noncomputable def parseScalar (txt : List UInt8) : Parsed :=
  if h : ∃ b : Bytes 32, IsB64Of txt b.toList then .bytes h.choose
  else if LongB64 txt then .panic else .malformed

end Ristretto
