import Verif.Spec.Abstract

/-!
# ristretto255 as RFC 9496 writes it down

Section 4 of "The ristretto255 and decaf448 Groups": the constants as decimal numbers, and the formulas, line by line and with
the names of the RFC, for encoding, decoding, comparing and deriving elements.  Nothing here refers to the code, nor to the
definitions by which the rest of this development specifies encodings (Spec/Ristretto.lean) and the one-way map
(Spec/Elligator.lean).
-/

namespace Ristretto.Rfc9496
set_option autoImplicit false

/-! ## 4.1 Implementation Constants -/

def D : Fp := ((37095705934669439343138083508754565189542113879843219016388785533085940283555 : ℕ) : Fp)
def SQRT_M1 : Fp := ((19681161376707505956807079304988542015446066515923890162744021073123829784752 : ℕ) : Fp)
def SQRT_AD_MINUS_ONE : Fp := ((25063068953384623474111414158702152701244531502492656460079210482610430750235 : ℕ) : Fp)
def INVSQRT_A_MINUS_D : Fp := ((54469307008909316920995813868745141605393597292927456921205312896311721017578 : ℕ) : Fp)
def ONE_MINUS_D_SQ : Fp := ((1159843021668779879193775521855586647937357759715417654439879720876111806838 : ℕ) : Fp)
def D_MINUS_ONE_SQ : Fp := ((40440834346308536858101042469323190826248399146238708352240133220865137265952 : ℕ) : Fp)

/-! ## 4.2 Square Root of a Ratio of Field Elements -/

/-- IS_NEGATIVE: the least nonnegative representative is odd. -/
def IS_NEGATIVE (e : Fp) : Bool := e.val % 2 == 1

/-- CT_ABS. -/
def CT_ABS (u : Fp) : Fp := if IS_NEGATIVE u then -u else u

/-- SQRT_RATIO_M1(u, v). -/
def SQRT_RATIO_M1 (u v : Fp) : Bool × Fp :=
  let r := (u * v ^ 3) * (u * v ^ 7) ^ ((p - 5) / 8)
  let check := v * r ^ 2
  let correct_sign_sqrt := check == u
  let flipped_sign_sqrt := check == -u
  let flipped_sign_sqrt_i := check == -u * SQRT_M1
  let r_prime := SQRT_M1 * r
  let r := if flipped_sign_sqrt || flipped_sign_sqrt_i then r_prime else r
  let r := CT_ABS r
  let was_square := correct_sign_sqrt || flipped_sign_sqrt
  (was_square, r)

/-! ## 4.3 ristretto255 Group Operations -/

/-- Internal representations: extended coordinates. -/
structure Elem where
  x : Fp
  y : Fp
  z : Fp
  t : Fp
  deriving DecidableEq

/-- 4.3.1 Decode. -/
def decode (b : Bytes 32) : Option Elem :=
  if leVal b ≥ p then none else
  let s : Fp := (leVal b : Fp)
  if IS_NEGATIVE s then none else
  let ss := s ^ 2
  let u1 := 1 - ss
  let u2 := 1 + ss
  let u2_sqr := u2 ^ 2
  let v := -(D * u1 ^ 2) - u2_sqr
  let (was_square, invsqrt) := SQRT_RATIO_M1 1 (v * u2_sqr)
  let den_x := invsqrt * u2
  let den_y := invsqrt * den_x * v
  let x := CT_ABS (2 * s * den_x)
  let y := u1 * den_y
  let t := x * y
  if was_square == false || IS_NEGATIVE t || y == 0 then none else
  some ⟨x, y, 1, t⟩

/-- 4.3.2 Encode: the field element. -/
def encodeField (e : Elem) : Fp :=
  let u1 := (e.z + e.y) * (e.z - e.y)
  let u2 := e.x * e.y
  let (_, invsqrt) := SQRT_RATIO_M1 1 (u1 * u2 ^ 2)
  let den1 := invsqrt * u1
  let den2 := invsqrt * u2
  let z_inv := den1 * den2 * e.t
  let ix0 := e.x * SQRT_M1
  let iy0 := e.y * SQRT_M1
  let enchanted_denominator := den1 * INVSQRT_A_MINUS_D
  let rotate := IS_NEGATIVE (e.t * z_inv)
  let x := if rotate then iy0 else e.x
  let y := if rotate then ix0 else e.y
  let z := e.z
  let den_inv := if rotate then enchanted_denominator else den2
  let y := if IS_NEGATIVE (x * z_inv) then -y else y
  CT_ABS (den_inv * (z - y))

/-- 4.3.2 Encode: 32 bytes, little endian. -/
def encode (e : Elem) : Bytes 32 := littleEndian (encodeField e).val

/-- 4.3.3 Equals. -/
def equals (e f : Elem) : Bool := e.x * f.y == e.y * f.x || e.y * f.y == e.x * f.x

/-- 4.3.4 Element Derivation: MAP, on a field element. -/
def MAP (t : Fp) : Elem :=
  let r := SQRT_M1 * t ^ 2
  let u := (r + 1) * ONE_MINUS_D_SQ
  let v := (-1 - r * D) * (r + D)
  let (was_square, s) := SQRT_RATIO_M1 u v
  let s_prime := -CT_ABS (s * t)
  let s := if was_square then s else s_prime
  let c := if was_square then -1 else r
  let N := c * (r - 1) * D_MINUS_ONE_SQ - v
  let w0 := 2 * s * v
  let w1 := N * SQRT_AD_MINUS_ONE
  let w2 := 1 - s ^ 2
  let w3 := 1 + s ^ 2
  ⟨w0 * w3, w2 * w1, w1 * w3, w0 * w2⟩

/-- 4.3.4 Element Derivation: the field element read from 32 bytes, of which the most significant bit is ignored. -/
def mapInput (b : Bytes 32) : Fp := ((leVal b % 2 ^ 255 : ℕ) : Fp)

/-- The extended coordinates of a point of the curve. -/
def Elem.Of (e : Elem) (P : EPoint) : Prop := Proj P e.x e.y e.z e.t

end Ristretto.Rfc9496
