import Verif.Model.CrefApi

/-!
# The field of cref.c with checks for signed overflow (cref/cref.c)

In C, an addition, subtraction, multiplication or negation of signed integers whose exact result does not fit into
the type is undefined behaviour.  Here the functions of Model/CrefField are written once more, statement by
statement, on integers that carry two flags.

* `ok`: no signed addition, subtraction, multiplication or negation on the way to this value overflowed, and no
  conversion to `crypto_int32` changed a value.
* `iso`: moreover no `<<` on the way had an operand that ISO C leaves undefined: a negative left operand, or an exact
  result that does not fit.  (gcc and clang define `<<` on two's complement numbers in all these cases, so that only
  `ok` matters for what a compiler may do.)

`>>` of negative numbers and conversions that change the value are implementation-defined, not undefined.
-/

namespace Ristretto.Model.Cref
set_option autoImplicit false

/-- A signed integer, and whether the operations that led to it stayed in range. -/
structure Chk (A : Type) where
  val : A
  ok : Bool
  iso : Bool

namespace Chk

/-- A value that was computed before. -/
def of {A : Type} (x : A) : Chk A := ⟨x, true, true⟩

instance {n : Nat} : OfNat (Chk Int32) n := ⟨of (OfNat.ofNat n)⟩
instance {n : Nat} : OfNat (Chk Int64) n := ⟨of (OfNat.ofNat n)⟩

/-- The result of an operation that is undefined unless its exact result is `z`. -/
def arith32 (x : Int32) (z : Int) (ok iso : Bool) : Chk Int32 :=
  ⟨x, ok && decide (x.toInt = z), iso && decide (x.toInt = z)⟩
/-- See `arith32`. -/
def arith64 (x : Int64) (z : Int) (ok iso : Bool) : Chk Int64 :=
  ⟨x, ok && decide (x.toInt = z), iso && decide (x.toInt = z)⟩

instance : Add (Chk Int32) := ⟨fun a b => arith32 (a.val + b.val) (a.val.toInt + b.val.toInt) (a.ok && b.ok) (a.iso && b.iso)⟩
instance : Sub (Chk Int32) := ⟨fun a b => arith32 (a.val - b.val) (a.val.toInt - b.val.toInt) (a.ok && b.ok) (a.iso && b.iso)⟩
instance : Mul (Chk Int32) := ⟨fun a b => arith32 (a.val * b.val) (a.val.toInt * b.val.toInt) (a.ok && b.ok) (a.iso && b.iso)⟩
instance : Neg (Chk Int32) := ⟨fun a => arith32 (-a.val) (-a.val.toInt) a.ok a.iso⟩
instance : ShiftRight (Chk Int32) := ⟨fun a b => ⟨a.val >>> b.val, a.ok && b.ok, a.iso && b.iso⟩⟩
instance : ShiftLeft (Chk Int32) := ⟨fun a b => ⟨a.val <<< b.val, a.ok && b.ok, a.iso && b.iso && decide (0 ≤ a.val) &&
  decide ((a.val <<< b.val).toInt = a.val.toInt * 2 ^ b.val.toInt.toNat)⟩⟩
instance : OrOp (Chk Int32) := ⟨fun a b => ⟨a.val ||| b.val, a.ok && b.ok, a.iso && b.iso⟩⟩

instance : Add (Chk Int64) := ⟨fun a b => arith64 (a.val + b.val) (a.val.toInt + b.val.toInt) (a.ok && b.ok) (a.iso && b.iso)⟩
instance : Sub (Chk Int64) := ⟨fun a b => arith64 (a.val - b.val) (a.val.toInt - b.val.toInt) (a.ok && b.ok) (a.iso && b.iso)⟩
instance : Mul (Chk Int64) := ⟨fun a b => arith64 (a.val * b.val) (a.val.toInt * b.val.toInt) (a.ok && b.ok) (a.iso && b.iso)⟩
instance : ShiftRight (Chk Int64) := ⟨fun a b => ⟨a.val >>> b.val, a.ok && b.ok, a.iso && b.iso⟩⟩
instance : ShiftLeft (Chk Int64) := ⟨fun a b => ⟨a.val <<< b.val, a.ok && b.ok, a.iso && b.iso && decide (0 ≤ a.val) &&
  decide ((a.val <<< b.val).toInt = a.val.toInt * 2 ^ b.val.toInt.toNat)⟩⟩

/-- The conversion `(crypto_int64) x`. -/
def toInt64 (a : Chk Int32) : Chk Int64 := ⟨a.val.toInt64, a.ok, a.iso⟩
/-- The implicit conversion in `h[i] = h_i`. -/
def toInt32 (a : Chk Int64) : Chk Int32 := ⟨a.val.toInt32, a.ok && decide (a.val.toInt32.toInt = a.val.toInt), a.iso⟩
/-- The conversion to `unsigned char`, which is defined for all values. -/
def toByte (a : Chk Int32) : Chk UInt8 := ⟨Cref.toByte a.val, a.ok, a.iso⟩

end Chk

/-- The limbs of a field element. -/
structure ChkFe where
  l0 : Chk Int32
  l1 : Chk Int32
  l2 : Chk Int32
  l3 : Chk Int32
  l4 : Chk Int32
  l5 : Chk Int32
  l6 : Chk Int32
  l7 : Chk Int32
  l8 : Chk Int32
  l9 : Chk Int32

namespace ChkFe
def val (f : ChkFe) : Fe25 :=
  ⟨f.l0.val, f.l1.val, f.l2.val, f.l3.val, f.l4.val, f.l5.val, f.l6.val, f.l7.val, f.l8.val, f.l9.val⟩
def ok (f : ChkFe) : Bool :=
  f.l0.ok && f.l1.ok && f.l2.ok && f.l3.ok && f.l4.ok && f.l5.ok && f.l6.ok && f.l7.ok && f.l8.ok && f.l9.ok
def iso (f : ChkFe) : Bool :=
  f.l0.iso && f.l1.iso && f.l2.iso && f.l3.iso && f.l4.iso && f.l5.iso && f.l6.iso && f.l7.iso && f.l8.iso && f.l9.iso
end ChkFe

/-- `fe25519_unpack` (cref.c:640-685), as `unpack` in Model/CrefField. -/
def unpackC (s : Bytes 32) : ChkFe :=
  let h0 : Chk Int64 := .of (load4 s[0] s[1] s[2] s[3]).toInt64
  let h1 : Chk Int64 := .of (load3 s[4] s[5] s[6] <<< 6).toInt64
  let h2 : Chk Int64 := .of (load3 s[7] s[8] s[9] <<< 5).toInt64
  let h3 : Chk Int64 := .of (load3 s[10] s[11] s[12] <<< 3).toInt64
  let h4 : Chk Int64 := .of (load3 s[13] s[14] s[15] <<< 2).toInt64
  let h5 : Chk Int64 := .of (load4 s[16] s[17] s[18] s[19]).toInt64
  let h6 : Chk Int64 := .of (load3 s[20] s[21] s[22] <<< 7).toInt64
  let h7 : Chk Int64 := .of (load3 s[23] s[24] s[25] <<< 5).toInt64
  let h8 : Chk Int64 := .of (load3 s[26] s[27] s[28] <<< 4).toInt64
  let h9 : Chk Int64 := .of ((load3 s[29] s[30] s[31] &&& 8388607) <<< 2).toInt64
  let carry9 : Chk Int64 := (h9 + 16777216) >>> 25
  let h0 : Chk Int64 := h0 + carry9 * 19
  let h9 : Chk Int64 := h9 - (carry9 <<< 25)
  let carry1 : Chk Int64 := (h1 + 16777216) >>> 25
  let h2 : Chk Int64 := h2 + carry1
  let h1 : Chk Int64 := h1 - (carry1 <<< 25)
  let carry3 : Chk Int64 := (h3 + 16777216) >>> 25
  let h4 : Chk Int64 := h4 + carry3
  let h3 : Chk Int64 := h3 - (carry3 <<< 25)
  let carry5 : Chk Int64 := (h5 + 16777216) >>> 25
  let h6 : Chk Int64 := h6 + carry5
  let h5 : Chk Int64 := h5 - (carry5 <<< 25)
  let carry7 : Chk Int64 := (h7 + 16777216) >>> 25
  let h8 : Chk Int64 := h8 + carry7
  let h7 : Chk Int64 := h7 - (carry7 <<< 25)
  let carry0 : Chk Int64 := (h0 + 33554432) >>> 26
  let h1 : Chk Int64 := h1 + carry0
  let h0 : Chk Int64 := h0 - (carry0 <<< 26)
  let carry2 : Chk Int64 := (h2 + 33554432) >>> 26
  let h3 : Chk Int64 := h3 + carry2
  let h2 : Chk Int64 := h2 - (carry2 <<< 26)
  let carry4 : Chk Int64 := (h4 + 33554432) >>> 26
  let h5 : Chk Int64 := h5 + carry4
  let h4 : Chk Int64 := h4 - (carry4 <<< 26)
  let carry6 : Chk Int64 := (h6 + 33554432) >>> 26
  let h7 : Chk Int64 := h7 + carry6
  let h6 : Chk Int64 := h6 - (carry6 <<< 26)
  let carry8 : Chk Int64 := (h8 + 33554432) >>> 26
  let h9 : Chk Int64 := h9 + carry8
  let h8 : Chk Int64 := h8 - (carry8 <<< 26)
  ⟨h0.toInt32, h1.toInt32, h2.toInt32, h3.toInt32, h4.toInt32, h5.toInt32, h6.toInt32, h7.toInt32, h8.toInt32, h9.toInt32⟩

/-- `fe25519_pack` (cref.c:713-804), as `pack` in Model/CrefField. -/
def packC (h : Fe25) : List (Chk UInt8) :=
  let h0 : Chk Int32 := .of h.l0
  let h1 : Chk Int32 := .of h.l1
  let h2 : Chk Int32 := .of h.l2
  let h3 : Chk Int32 := .of h.l3
  let h4 : Chk Int32 := .of h.l4
  let h5 : Chk Int32 := .of h.l5
  let h6 : Chk Int32 := .of h.l6
  let h7 : Chk Int32 := .of h.l7
  let h8 : Chk Int32 := .of h.l8
  let h9 : Chk Int32 := .of h.l9
  let q : Chk Int32 := (19 * h9 + 16777216) >>> 25
  let q : Chk Int32 := (h0 + q) >>> 26
  let q : Chk Int32 := (h1 + q) >>> 25
  let q : Chk Int32 := (h2 + q) >>> 26
  let q : Chk Int32 := (h3 + q) >>> 25
  let q : Chk Int32 := (h4 + q) >>> 26
  let q : Chk Int32 := (h5 + q) >>> 25
  let q : Chk Int32 := (h6 + q) >>> 26
  let q : Chk Int32 := (h7 + q) >>> 25
  let q : Chk Int32 := (h8 + q) >>> 26
  let q : Chk Int32 := (h9 + q) >>> 25
  let h0 : Chk Int32 := h0 + 19 * q
  let carry0 : Chk Int32 := h0 >>> 26
  let h1 : Chk Int32 := h1 + carry0
  let h0 : Chk Int32 := h0 - (carry0 <<< 26)
  let carry1 : Chk Int32 := h1 >>> 25
  let h2 : Chk Int32 := h2 + carry1
  let h1 : Chk Int32 := h1 - (carry1 <<< 25)
  let carry2 : Chk Int32 := h2 >>> 26
  let h3 : Chk Int32 := h3 + carry2
  let h2 : Chk Int32 := h2 - (carry2 <<< 26)
  let carry3 : Chk Int32 := h3 >>> 25
  let h4 : Chk Int32 := h4 + carry3
  let h3 : Chk Int32 := h3 - (carry3 <<< 25)
  let carry4 : Chk Int32 := h4 >>> 26
  let h5 : Chk Int32 := h5 + carry4
  let h4 : Chk Int32 := h4 - (carry4 <<< 26)
  let carry5 : Chk Int32 := h5 >>> 25
  let h6 : Chk Int32 := h6 + carry5
  let h5 : Chk Int32 := h5 - (carry5 <<< 25)
  let carry6 : Chk Int32 := h6 >>> 26
  let h7 : Chk Int32 := h7 + carry6
  let h6 : Chk Int32 := h6 - (carry6 <<< 26)
  let carry7 : Chk Int32 := h7 >>> 25
  let h8 : Chk Int32 := h8 + carry7
  let h7 : Chk Int32 := h7 - (carry7 <<< 25)
  let carry8 : Chk Int32 := h8 >>> 26
  let h9 : Chk Int32 := h9 + carry8
  let h8 : Chk Int32 := h8 - (carry8 <<< 26)
  let carry9 : Chk Int32 := h9 >>> 25
  let h9 : Chk Int32 := h9 - (carry9 <<< 25)
  [Chk.toByte (h0 >>> 0),
    Chk.toByte (h0 >>> 8),
    Chk.toByte (h0 >>> 16),
    Chk.toByte ((h0 >>> 24) ||| (h1 <<< 2)),
    Chk.toByte (h1 >>> 6),
    Chk.toByte (h1 >>> 14),
    Chk.toByte ((h1 >>> 22) ||| (h2 <<< 3)),
    Chk.toByte (h2 >>> 5),
    Chk.toByte (h2 >>> 13),
    Chk.toByte ((h2 >>> 21) ||| (h3 <<< 5)),
    Chk.toByte (h3 >>> 3),
    Chk.toByte (h3 >>> 11),
    Chk.toByte ((h3 >>> 19) ||| (h4 <<< 6)),
    Chk.toByte (h4 >>> 2),
    Chk.toByte (h4 >>> 10),
    Chk.toByte (h4 >>> 18),
    Chk.toByte (h5 >>> 0),
    Chk.toByte (h5 >>> 8),
    Chk.toByte (h5 >>> 16),
    Chk.toByte ((h5 >>> 24) ||| (h6 <<< 1)),
    Chk.toByte (h6 >>> 7),
    Chk.toByte (h6 >>> 15),
    Chk.toByte ((h6 >>> 23) ||| (h7 <<< 3)),
    Chk.toByte (h7 >>> 5),
    Chk.toByte (h7 >>> 13),
    Chk.toByte ((h7 >>> 21) ||| (h8 <<< 4)),
    Chk.toByte (h8 >>> 4),
    Chk.toByte (h8 >>> 12),
    Chk.toByte ((h8 >>> 20) ||| (h9 <<< 6)),
    Chk.toByte (h9 >>> 2),
    Chk.toByte (h9 >>> 10),
    Chk.toByte (h9 >>> 18)]

/-- `fe25519_neg` (cref.c:919-951), as `neg` in Model/CrefField. -/
def negC (f : Fe25) : ChkFe :=
  let f0 : Chk Int32 := .of f.l0
  let f1 : Chk Int32 := .of f.l1
  let f2 : Chk Int32 := .of f.l2
  let f3 : Chk Int32 := .of f.l3
  let f4 : Chk Int32 := .of f.l4
  let f5 : Chk Int32 := .of f.l5
  let f6 : Chk Int32 := .of f.l6
  let f7 : Chk Int32 := .of f.l7
  let f8 : Chk Int32 := .of f.l8
  let f9 : Chk Int32 := .of f.l9
  let h0 : Chk Int32 := -f0
  let h1 : Chk Int32 := -f1
  let h2 : Chk Int32 := -f2
  let h3 : Chk Int32 := -f3
  let h4 : Chk Int32 := -f4
  let h5 : Chk Int32 := -f5
  let h6 : Chk Int32 := -f6
  let h7 : Chk Int32 := -f7
  let h8 : Chk Int32 := -f8
  let h9 : Chk Int32 := -f9
  ⟨h0, h1, h2, h3, h4, h5, h6, h7, h8, h9⟩

/-- `fe25519_add` (cref.c:971-1013), as `add` in Model/CrefField. -/
def addC (f g : Fe25) : ChkFe :=
  let f0 : Chk Int32 := .of f.l0
  let f1 : Chk Int32 := .of f.l1
  let f2 : Chk Int32 := .of f.l2
  let f3 : Chk Int32 := .of f.l3
  let f4 : Chk Int32 := .of f.l4
  let f5 : Chk Int32 := .of f.l5
  let f6 : Chk Int32 := .of f.l6
  let f7 : Chk Int32 := .of f.l7
  let f8 : Chk Int32 := .of f.l8
  let f9 : Chk Int32 := .of f.l9
  let g0 : Chk Int32 := .of g.l0
  let g1 : Chk Int32 := .of g.l1
  let g2 : Chk Int32 := .of g.l2
  let g3 : Chk Int32 := .of g.l3
  let g4 : Chk Int32 := .of g.l4
  let g5 : Chk Int32 := .of g.l5
  let g6 : Chk Int32 := .of g.l6
  let g7 : Chk Int32 := .of g.l7
  let g8 : Chk Int32 := .of g.l8
  let g9 : Chk Int32 := .of g.l9
  let h0 : Chk Int32 := f0 + g0
  let h1 : Chk Int32 := f1 + g1
  let h2 : Chk Int32 := f2 + g2
  let h3 : Chk Int32 := f3 + g3
  let h4 : Chk Int32 := f4 + g4
  let h5 : Chk Int32 := f5 + g5
  let h6 : Chk Int32 := f6 + g6
  let h7 : Chk Int32 := f7 + g7
  let h8 : Chk Int32 := f8 + g8
  let h9 : Chk Int32 := f9 + g9
  ⟨h0, h1, h2, h3, h4, h5, h6, h7, h8, h9⟩

/-- `fe25519_sub` (cref.c:1037-1079), as `sub` in Model/CrefField. -/
def subC (f g : Fe25) : ChkFe :=
  let f0 : Chk Int32 := .of f.l0
  let f1 : Chk Int32 := .of f.l1
  let f2 : Chk Int32 := .of f.l2
  let f3 : Chk Int32 := .of f.l3
  let f4 : Chk Int32 := .of f.l4
  let f5 : Chk Int32 := .of f.l5
  let f6 : Chk Int32 := .of f.l6
  let f7 : Chk Int32 := .of f.l7
  let f8 : Chk Int32 := .of f.l8
  let f9 : Chk Int32 := .of f.l9
  let g0 : Chk Int32 := .of g.l0
  let g1 : Chk Int32 := .of g.l1
  let g2 : Chk Int32 := .of g.l2
  let g3 : Chk Int32 := .of g.l3
  let g4 : Chk Int32 := .of g.l4
  let g5 : Chk Int32 := .of g.l5
  let g6 : Chk Int32 := .of g.l6
  let g7 : Chk Int32 := .of g.l7
  let g8 : Chk Int32 := .of g.l8
  let g9 : Chk Int32 := .of g.l9
  let h0 : Chk Int32 := f0 - g0
  let h1 : Chk Int32 := f1 - g1
  let h2 : Chk Int32 := f2 - g2
  let h3 : Chk Int32 := f3 - g3
  let h4 : Chk Int32 := f4 - g4
  let h5 : Chk Int32 := f5 - g5
  let h6 : Chk Int32 := f6 - g6
  let h7 : Chk Int32 := f7 - g7
  let h8 : Chk Int32 := f8 - g8
  let h9 : Chk Int32 := f9 - g9
  ⟨h0, h1, h2, h3, h4, h5, h6, h7, h8, h9⟩

/-- `fe25519_mul` (cref.c:1114-1331), as `mul` in Model/CrefField. -/
def mulC (f g : Fe25) : ChkFe :=
  let f0 : Chk Int32 := .of f.l0
  let f1 : Chk Int32 := .of f.l1
  let f2 : Chk Int32 := .of f.l2
  let f3 : Chk Int32 := .of f.l3
  let f4 : Chk Int32 := .of f.l4
  let f5 : Chk Int32 := .of f.l5
  let f6 : Chk Int32 := .of f.l6
  let f7 : Chk Int32 := .of f.l7
  let f8 : Chk Int32 := .of f.l8
  let f9 : Chk Int32 := .of f.l9
  let g0 : Chk Int32 := .of g.l0
  let g1 : Chk Int32 := .of g.l1
  let g2 : Chk Int32 := .of g.l2
  let g3 : Chk Int32 := .of g.l3
  let g4 : Chk Int32 := .of g.l4
  let g5 : Chk Int32 := .of g.l5
  let g6 : Chk Int32 := .of g.l6
  let g7 : Chk Int32 := .of g.l7
  let g8 : Chk Int32 := .of g.l8
  let g9 : Chk Int32 := .of g.l9
  let g1_19 : Chk Int32 := 19 * g1
  let g2_19 : Chk Int32 := 19 * g2
  let g3_19 : Chk Int32 := 19 * g3
  let g4_19 : Chk Int32 := 19 * g4
  let g5_19 : Chk Int32 := 19 * g5
  let g6_19 : Chk Int32 := 19 * g6
  let g7_19 : Chk Int32 := 19 * g7
  let g8_19 : Chk Int32 := 19 * g8
  let g9_19 : Chk Int32 := 19 * g9
  let f1_2 : Chk Int32 := 2 * f1
  let f3_2 : Chk Int32 := 2 * f3
  let f5_2 : Chk Int32 := 2 * f5
  let f7_2 : Chk Int32 := 2 * f7
  let f9_2 : Chk Int32 := 2 * f9
  let f0g0 : Chk Int64 := f0.toInt64 * g0.toInt64
  let f0g1 : Chk Int64 := f0.toInt64 * g1.toInt64
  let f0g2 : Chk Int64 := f0.toInt64 * g2.toInt64
  let f0g3 : Chk Int64 := f0.toInt64 * g3.toInt64
  let f0g4 : Chk Int64 := f0.toInt64 * g4.toInt64
  let f0g5 : Chk Int64 := f0.toInt64 * g5.toInt64
  let f0g6 : Chk Int64 := f0.toInt64 * g6.toInt64
  let f0g7 : Chk Int64 := f0.toInt64 * g7.toInt64
  let f0g8 : Chk Int64 := f0.toInt64 * g8.toInt64
  let f0g9 : Chk Int64 := f0.toInt64 * g9.toInt64
  let f1g0 : Chk Int64 := f1.toInt64 * g0.toInt64
  let f1g1_2 : Chk Int64 := f1_2.toInt64 * g1.toInt64
  let f1g2 : Chk Int64 := f1.toInt64 * g2.toInt64
  let f1g3_2 : Chk Int64 := f1_2.toInt64 * g3.toInt64
  let f1g4 : Chk Int64 := f1.toInt64 * g4.toInt64
  let f1g5_2 : Chk Int64 := f1_2.toInt64 * g5.toInt64
  let f1g6 : Chk Int64 := f1.toInt64 * g6.toInt64
  let f1g7_2 : Chk Int64 := f1_2.toInt64 * g7.toInt64
  let f1g8 : Chk Int64 := f1.toInt64 * g8.toInt64
  let f1g9_38 : Chk Int64 := f1_2.toInt64 * g9_19.toInt64
  let f2g0 : Chk Int64 := f2.toInt64 * g0.toInt64
  let f2g1 : Chk Int64 := f2.toInt64 * g1.toInt64
  let f2g2 : Chk Int64 := f2.toInt64 * g2.toInt64
  let f2g3 : Chk Int64 := f2.toInt64 * g3.toInt64
  let f2g4 : Chk Int64 := f2.toInt64 * g4.toInt64
  let f2g5 : Chk Int64 := f2.toInt64 * g5.toInt64
  let f2g6 : Chk Int64 := f2.toInt64 * g6.toInt64
  let f2g7 : Chk Int64 := f2.toInt64 * g7.toInt64
  let f2g8_19 : Chk Int64 := f2.toInt64 * g8_19.toInt64
  let f2g9_19 : Chk Int64 := f2.toInt64 * g9_19.toInt64
  let f3g0 : Chk Int64 := f3.toInt64 * g0.toInt64
  let f3g1_2 : Chk Int64 := f3_2.toInt64 * g1.toInt64
  let f3g2 : Chk Int64 := f3.toInt64 * g2.toInt64
  let f3g3_2 : Chk Int64 := f3_2.toInt64 * g3.toInt64
  let f3g4 : Chk Int64 := f3.toInt64 * g4.toInt64
  let f3g5_2 : Chk Int64 := f3_2.toInt64 * g5.toInt64
  let f3g6 : Chk Int64 := f3.toInt64 * g6.toInt64
  let f3g7_38 : Chk Int64 := f3_2.toInt64 * g7_19.toInt64
  let f3g8_19 : Chk Int64 := f3.toInt64 * g8_19.toInt64
  let f3g9_38 : Chk Int64 := f3_2.toInt64 * g9_19.toInt64
  let f4g0 : Chk Int64 := f4.toInt64 * g0.toInt64
  let f4g1 : Chk Int64 := f4.toInt64 * g1.toInt64
  let f4g2 : Chk Int64 := f4.toInt64 * g2.toInt64
  let f4g3 : Chk Int64 := f4.toInt64 * g3.toInt64
  let f4g4 : Chk Int64 := f4.toInt64 * g4.toInt64
  let f4g5 : Chk Int64 := f4.toInt64 * g5.toInt64
  let f4g6_19 : Chk Int64 := f4.toInt64 * g6_19.toInt64
  let f4g7_19 : Chk Int64 := f4.toInt64 * g7_19.toInt64
  let f4g8_19 : Chk Int64 := f4.toInt64 * g8_19.toInt64
  let f4g9_19 : Chk Int64 := f4.toInt64 * g9_19.toInt64
  let f5g0 : Chk Int64 := f5.toInt64 * g0.toInt64
  let f5g1_2 : Chk Int64 := f5_2.toInt64 * g1.toInt64
  let f5g2 : Chk Int64 := f5.toInt64 * g2.toInt64
  let f5g3_2 : Chk Int64 := f5_2.toInt64 * g3.toInt64
  let f5g4 : Chk Int64 := f5.toInt64 * g4.toInt64
  let f5g5_38 : Chk Int64 := f5_2.toInt64 * g5_19.toInt64
  let f5g6_19 : Chk Int64 := f5.toInt64 * g6_19.toInt64
  let f5g7_38 : Chk Int64 := f5_2.toInt64 * g7_19.toInt64
  let f5g8_19 : Chk Int64 := f5.toInt64 * g8_19.toInt64
  let f5g9_38 : Chk Int64 := f5_2.toInt64 * g9_19.toInt64
  let f6g0 : Chk Int64 := f6.toInt64 * g0.toInt64
  let f6g1 : Chk Int64 := f6.toInt64 * g1.toInt64
  let f6g2 : Chk Int64 := f6.toInt64 * g2.toInt64
  let f6g3 : Chk Int64 := f6.toInt64 * g3.toInt64
  let f6g4_19 : Chk Int64 := f6.toInt64 * g4_19.toInt64
  let f6g5_19 : Chk Int64 := f6.toInt64 * g5_19.toInt64
  let f6g6_19 : Chk Int64 := f6.toInt64 * g6_19.toInt64
  let f6g7_19 : Chk Int64 := f6.toInt64 * g7_19.toInt64
  let f6g8_19 : Chk Int64 := f6.toInt64 * g8_19.toInt64
  let f6g9_19 : Chk Int64 := f6.toInt64 * g9_19.toInt64
  let f7g0 : Chk Int64 := f7.toInt64 * g0.toInt64
  let f7g1_2 : Chk Int64 := f7_2.toInt64 * g1.toInt64
  let f7g2 : Chk Int64 := f7.toInt64 * g2.toInt64
  let f7g3_38 : Chk Int64 := f7_2.toInt64 * g3_19.toInt64
  let f7g4_19 : Chk Int64 := f7.toInt64 * g4_19.toInt64
  let f7g5_38 : Chk Int64 := f7_2.toInt64 * g5_19.toInt64
  let f7g6_19 : Chk Int64 := f7.toInt64 * g6_19.toInt64
  let f7g7_38 : Chk Int64 := f7_2.toInt64 * g7_19.toInt64
  let f7g8_19 : Chk Int64 := f7.toInt64 * g8_19.toInt64
  let f7g9_38 : Chk Int64 := f7_2.toInt64 * g9_19.toInt64
  let f8g0 : Chk Int64 := f8.toInt64 * g0.toInt64
  let f8g1 : Chk Int64 := f8.toInt64 * g1.toInt64
  let f8g2_19 : Chk Int64 := f8.toInt64 * g2_19.toInt64
  let f8g3_19 : Chk Int64 := f8.toInt64 * g3_19.toInt64
  let f8g4_19 : Chk Int64 := f8.toInt64 * g4_19.toInt64
  let f8g5_19 : Chk Int64 := f8.toInt64 * g5_19.toInt64
  let f8g6_19 : Chk Int64 := f8.toInt64 * g6_19.toInt64
  let f8g7_19 : Chk Int64 := f8.toInt64 * g7_19.toInt64
  let f8g8_19 : Chk Int64 := f8.toInt64 * g8_19.toInt64
  let f8g9_19 : Chk Int64 := f8.toInt64 * g9_19.toInt64
  let f9g0 : Chk Int64 := f9.toInt64 * g0.toInt64
  let f9g1_38 : Chk Int64 := f9_2.toInt64 * g1_19.toInt64
  let f9g2_19 : Chk Int64 := f9.toInt64 * g2_19.toInt64
  let f9g3_38 : Chk Int64 := f9_2.toInt64 * g3_19.toInt64
  let f9g4_19 : Chk Int64 := f9.toInt64 * g4_19.toInt64
  let f9g5_38 : Chk Int64 := f9_2.toInt64 * g5_19.toInt64
  let f9g6_19 : Chk Int64 := f9.toInt64 * g6_19.toInt64
  let f9g7_38 : Chk Int64 := f9_2.toInt64 * g7_19.toInt64
  let f9g8_19 : Chk Int64 := f9.toInt64 * g8_19.toInt64
  let f9g9_38 : Chk Int64 := f9_2.toInt64 * g9_19.toInt64
  let h0 : Chk Int64 := f0g0 + f1g9_38 + f2g8_19 + f3g7_38 + f4g6_19 + f5g5_38 + f6g4_19 + f7g3_38 + f8g2_19 + f9g1_38
  let h1 : Chk Int64 := f0g1 + f1g0 + f2g9_19 + f3g8_19 + f4g7_19 + f5g6_19 + f6g5_19 + f7g4_19 + f8g3_19 + f9g2_19
  let h2 : Chk Int64 := f0g2 + f1g1_2 + f2g0 + f3g9_38 + f4g8_19 + f5g7_38 + f6g6_19 + f7g5_38 + f8g4_19 + f9g3_38
  let h3 : Chk Int64 := f0g3 + f1g2 + f2g1 + f3g0 + f4g9_19 + f5g8_19 + f6g7_19 + f7g6_19 + f8g5_19 + f9g4_19
  let h4 : Chk Int64 := f0g4 + f1g3_2 + f2g2 + f3g1_2 + f4g0 + f5g9_38 + f6g8_19 + f7g7_38 + f8g6_19 + f9g5_38
  let h5 : Chk Int64 := f0g5 + f1g4 + f2g3 + f3g2 + f4g1 + f5g0 + f6g9_19 + f7g8_19 + f8g7_19 + f9g6_19
  let h6 : Chk Int64 := f0g6 + f1g5_2 + f2g4 + f3g3_2 + f4g2 + f5g1_2 + f6g0 + f7g9_38 + f8g8_19 + f9g7_38
  let h7 : Chk Int64 := f0g7 + f1g6 + f2g5 + f3g4 + f4g3 + f5g2 + f6g1 + f7g0 + f8g9_19 + f9g8_19
  let h8 : Chk Int64 := f0g8 + f1g7_2 + f2g6 + f3g5_2 + f4g4 + f5g3_2 + f6g2 + f7g1_2 + f8g0 + f9g9_38
  let h9 : Chk Int64 := f0g9 + f1g8 + f2g7 + f3g6 + f4g5 + f5g4 + f6g3 + f7g2 + f8g1 + f9g0
  let carry0 : Chk Int64 := (h0 + 33554432) >>> 26
  let h1 : Chk Int64 := h1 + carry0
  let h0 : Chk Int64 := h0 - (carry0 <<< 26)
  let carry4 : Chk Int64 := (h4 + 33554432) >>> 26
  let h5 : Chk Int64 := h5 + carry4
  let h4 : Chk Int64 := h4 - (carry4 <<< 26)
  let carry1 : Chk Int64 := (h1 + 16777216) >>> 25
  let h2 : Chk Int64 := h2 + carry1
  let h1 : Chk Int64 := h1 - (carry1 <<< 25)
  let carry5 : Chk Int64 := (h5 + 16777216) >>> 25
  let h6 : Chk Int64 := h6 + carry5
  let h5 : Chk Int64 := h5 - (carry5 <<< 25)
  let carry2 : Chk Int64 := (h2 + 33554432) >>> 26
  let h3 : Chk Int64 := h3 + carry2
  let h2 : Chk Int64 := h2 - (carry2 <<< 26)
  let carry6 : Chk Int64 := (h6 + 33554432) >>> 26
  let h7 : Chk Int64 := h7 + carry6
  let h6 : Chk Int64 := h6 - (carry6 <<< 26)
  let carry3 : Chk Int64 := (h3 + 16777216) >>> 25
  let h4 : Chk Int64 := h4 + carry3
  let h3 : Chk Int64 := h3 - (carry3 <<< 25)
  let carry7 : Chk Int64 := (h7 + 16777216) >>> 25
  let h8 : Chk Int64 := h8 + carry7
  let h7 : Chk Int64 := h7 - (carry7 <<< 25)
  let carry4 : Chk Int64 := (h4 + 33554432) >>> 26
  let h5 : Chk Int64 := h5 + carry4
  let h4 : Chk Int64 := h4 - (carry4 <<< 26)
  let carry8 : Chk Int64 := (h8 + 33554432) >>> 26
  let h9 : Chk Int64 := h9 + carry8
  let h8 : Chk Int64 := h8 - (carry8 <<< 26)
  let carry9 : Chk Int64 := (h9 + 16777216) >>> 25
  let h0 : Chk Int64 := h0 + carry9 * 19
  let h9 : Chk Int64 := h9 - (carry9 <<< 25)
  let carry0 : Chk Int64 := (h0 + 33554432) >>> 26
  let h1 : Chk Int64 := h1 + carry0
  let h0 : Chk Int64 := h0 - (carry0 <<< 26)
  ⟨h0.toInt32, h1.toInt32, h2.toInt32, h3.toInt32, h4.toInt32, h5.toInt32, h6.toInt32, h7.toInt32, h8.toInt32, h9.toInt32⟩

/-- `fe25519_square` (cref.c:1343-1473), as `square` in Model/CrefField. -/
def squareC (f : Fe25) : ChkFe :=
  let f0 : Chk Int32 := .of f.l0
  let f1 : Chk Int32 := .of f.l1
  let f2 : Chk Int32 := .of f.l2
  let f3 : Chk Int32 := .of f.l3
  let f4 : Chk Int32 := .of f.l4
  let f5 : Chk Int32 := .of f.l5
  let f6 : Chk Int32 := .of f.l6
  let f7 : Chk Int32 := .of f.l7
  let f8 : Chk Int32 := .of f.l8
  let f9 : Chk Int32 := .of f.l9
  let f0_2 : Chk Int32 := 2 * f0
  let f1_2 : Chk Int32 := 2 * f1
  let f2_2 : Chk Int32 := 2 * f2
  let f3_2 : Chk Int32 := 2 * f3
  let f4_2 : Chk Int32 := 2 * f4
  let f5_2 : Chk Int32 := 2 * f5
  let f6_2 : Chk Int32 := 2 * f6
  let f7_2 : Chk Int32 := 2 * f7
  let f5_38 : Chk Int32 := 38 * f5
  let f6_19 : Chk Int32 := 19 * f6
  let f7_38 : Chk Int32 := 38 * f7
  let f8_19 : Chk Int32 := 19 * f8
  let f9_38 : Chk Int32 := 38 * f9
  let f0f0 : Chk Int64 := f0.toInt64 * f0.toInt64
  let f0f1_2 : Chk Int64 := f0_2.toInt64 * f1.toInt64
  let f0f2_2 : Chk Int64 := f0_2.toInt64 * f2.toInt64
  let f0f3_2 : Chk Int64 := f0_2.toInt64 * f3.toInt64
  let f0f4_2 : Chk Int64 := f0_2.toInt64 * f4.toInt64
  let f0f5_2 : Chk Int64 := f0_2.toInt64 * f5.toInt64
  let f0f6_2 : Chk Int64 := f0_2.toInt64 * f6.toInt64
  let f0f7_2 : Chk Int64 := f0_2.toInt64 * f7.toInt64
  let f0f8_2 : Chk Int64 := f0_2.toInt64 * f8.toInt64
  let f0f9_2 : Chk Int64 := f0_2.toInt64 * f9.toInt64
  let f1f1_2 : Chk Int64 := f1_2.toInt64 * f1.toInt64
  let f1f2_2 : Chk Int64 := f1_2.toInt64 * f2.toInt64
  let f1f3_4 : Chk Int64 := f1_2.toInt64 * f3_2.toInt64
  let f1f4_2 : Chk Int64 := f1_2.toInt64 * f4.toInt64
  let f1f5_4 : Chk Int64 := f1_2.toInt64 * f5_2.toInt64
  let f1f6_2 : Chk Int64 := f1_2.toInt64 * f6.toInt64
  let f1f7_4 : Chk Int64 := f1_2.toInt64 * f7_2.toInt64
  let f1f8_2 : Chk Int64 := f1_2.toInt64 * f8.toInt64
  let f1f9_76 : Chk Int64 := f1_2.toInt64 * f9_38.toInt64
  let f2f2 : Chk Int64 := f2.toInt64 * f2.toInt64
  let f2f3_2 : Chk Int64 := f2_2.toInt64 * f3.toInt64
  let f2f4_2 : Chk Int64 := f2_2.toInt64 * f4.toInt64
  let f2f5_2 : Chk Int64 := f2_2.toInt64 * f5.toInt64
  let f2f6_2 : Chk Int64 := f2_2.toInt64 * f6.toInt64
  let f2f7_2 : Chk Int64 := f2_2.toInt64 * f7.toInt64
  let f2f8_38 : Chk Int64 := f2_2.toInt64 * f8_19.toInt64
  let f2f9_38 : Chk Int64 := f2.toInt64 * f9_38.toInt64
  let f3f3_2 : Chk Int64 := f3_2.toInt64 * f3.toInt64
  let f3f4_2 : Chk Int64 := f3_2.toInt64 * f4.toInt64
  let f3f5_4 : Chk Int64 := f3_2.toInt64 * f5_2.toInt64
  let f3f6_2 : Chk Int64 := f3_2.toInt64 * f6.toInt64
  let f3f7_76 : Chk Int64 := f3_2.toInt64 * f7_38.toInt64
  let f3f8_38 : Chk Int64 := f3_2.toInt64 * f8_19.toInt64
  let f3f9_76 : Chk Int64 := f3_2.toInt64 * f9_38.toInt64
  let f4f4 : Chk Int64 := f4.toInt64 * f4.toInt64
  let f4f5_2 : Chk Int64 := f4_2.toInt64 * f5.toInt64
  let f4f6_38 : Chk Int64 := f4_2.toInt64 * f6_19.toInt64
  let f4f7_38 : Chk Int64 := f4.toInt64 * f7_38.toInt64
  let f4f8_38 : Chk Int64 := f4_2.toInt64 * f8_19.toInt64
  let f4f9_38 : Chk Int64 := f4.toInt64 * f9_38.toInt64
  let f5f5_38 : Chk Int64 := f5.toInt64 * f5_38.toInt64
  let f5f6_38 : Chk Int64 := f5_2.toInt64 * f6_19.toInt64
  let f5f7_76 : Chk Int64 := f5_2.toInt64 * f7_38.toInt64
  let f5f8_38 : Chk Int64 := f5_2.toInt64 * f8_19.toInt64
  let f5f9_76 : Chk Int64 := f5_2.toInt64 * f9_38.toInt64
  let f6f6_19 : Chk Int64 := f6.toInt64 * f6_19.toInt64
  let f6f7_38 : Chk Int64 := f6.toInt64 * f7_38.toInt64
  let f6f8_38 : Chk Int64 := f6_2.toInt64 * f8_19.toInt64
  let f6f9_38 : Chk Int64 := f6.toInt64 * f9_38.toInt64
  let f7f7_38 : Chk Int64 := f7.toInt64 * f7_38.toInt64
  let f7f8_38 : Chk Int64 := f7_2.toInt64 * f8_19.toInt64
  let f7f9_76 : Chk Int64 := f7_2.toInt64 * f9_38.toInt64
  let f8f8_19 : Chk Int64 := f8.toInt64 * f8_19.toInt64
  let f8f9_38 : Chk Int64 := f8.toInt64 * f9_38.toInt64
  let f9f9_38 : Chk Int64 := f9.toInt64 * f9_38.toInt64
  let h0 : Chk Int64 := f0f0 + f1f9_76 + f2f8_38 + f3f7_76 + f4f6_38 + f5f5_38
  let h1 : Chk Int64 := f0f1_2 + f2f9_38 + f3f8_38 + f4f7_38 + f5f6_38
  let h2 : Chk Int64 := f0f2_2 + f1f1_2 + f3f9_76 + f4f8_38 + f5f7_76 + f6f6_19
  let h3 : Chk Int64 := f0f3_2 + f1f2_2 + f4f9_38 + f5f8_38 + f6f7_38
  let h4 : Chk Int64 := f0f4_2 + f1f3_4 + f2f2 + f5f9_76 + f6f8_38 + f7f7_38
  let h5 : Chk Int64 := f0f5_2 + f1f4_2 + f2f3_2 + f6f9_38 + f7f8_38
  let h6 : Chk Int64 := f0f6_2 + f1f5_4 + f2f4_2 + f3f3_2 + f7f9_76 + f8f8_19
  let h7 : Chk Int64 := f0f7_2 + f1f6_2 + f2f5_2 + f3f4_2 + f8f9_38
  let h8 : Chk Int64 := f0f8_2 + f1f7_4 + f2f6_2 + f3f5_4 + f4f4 + f9f9_38
  let h9 : Chk Int64 := f0f9_2 + f1f8_2 + f2f7_2 + f3f6_2 + f4f5_2
  let carry0 : Chk Int64 := (h0 + 33554432) >>> 26
  let h1 : Chk Int64 := h1 + carry0
  let h0 : Chk Int64 := h0 - (carry0 <<< 26)
  let carry4 : Chk Int64 := (h4 + 33554432) >>> 26
  let h5 : Chk Int64 := h5 + carry4
  let h4 : Chk Int64 := h4 - (carry4 <<< 26)
  let carry1 : Chk Int64 := (h1 + 16777216) >>> 25
  let h2 : Chk Int64 := h2 + carry1
  let h1 : Chk Int64 := h1 - (carry1 <<< 25)
  let carry5 : Chk Int64 := (h5 + 16777216) >>> 25
  let h6 : Chk Int64 := h6 + carry5
  let h5 : Chk Int64 := h5 - (carry5 <<< 25)
  let carry2 : Chk Int64 := (h2 + 33554432) >>> 26
  let h3 : Chk Int64 := h3 + carry2
  let h2 : Chk Int64 := h2 - (carry2 <<< 26)
  let carry6 : Chk Int64 := (h6 + 33554432) >>> 26
  let h7 : Chk Int64 := h7 + carry6
  let h6 : Chk Int64 := h6 - (carry6 <<< 26)
  let carry3 : Chk Int64 := (h3 + 16777216) >>> 25
  let h4 : Chk Int64 := h4 + carry3
  let h3 : Chk Int64 := h3 - (carry3 <<< 25)
  let carry7 : Chk Int64 := (h7 + 16777216) >>> 25
  let h8 : Chk Int64 := h8 + carry7
  let h7 : Chk Int64 := h7 - (carry7 <<< 25)
  let carry4 : Chk Int64 := (h4 + 33554432) >>> 26
  let h5 : Chk Int64 := h5 + carry4
  let h4 : Chk Int64 := h4 - (carry4 <<< 26)
  let carry8 : Chk Int64 := (h8 + 33554432) >>> 26
  let h9 : Chk Int64 := h9 + carry8
  let h8 : Chk Int64 := h8 - (carry8 <<< 26)
  let carry9 : Chk Int64 := (h9 + 16777216) >>> 25
  let h0 : Chk Int64 := h0 + carry9 * 19
  let h9 : Chk Int64 := h9 - (carry9 <<< 25)
  let carry0 : Chk Int64 := (h0 + 33554432) >>> 26
  let h1 : Chk Int64 := h1 + carry0
  let h0 : Chk Int64 := h0 - (carry0 <<< 26)
  ⟨h0.toInt32, h1.toInt32, h2.toInt32, h3.toInt32, h4.toInt32, h5.toInt32, h6.toInt32, h7.toInt32, h8.toInt32, h9.toInt32⟩

/-- `fe25519_square_double` (cref.c:1833-1974), as `squareDouble` in Model/CrefField. -/
def squareDoubleC (f : Fe25) : ChkFe :=
  let f0 : Chk Int32 := .of f.l0
  let f1 : Chk Int32 := .of f.l1
  let f2 : Chk Int32 := .of f.l2
  let f3 : Chk Int32 := .of f.l3
  let f4 : Chk Int32 := .of f.l4
  let f5 : Chk Int32 := .of f.l5
  let f6 : Chk Int32 := .of f.l6
  let f7 : Chk Int32 := .of f.l7
  let f8 : Chk Int32 := .of f.l8
  let f9 : Chk Int32 := .of f.l9
  let f0_2 : Chk Int32 := 2 * f0
  let f1_2 : Chk Int32 := 2 * f1
  let f2_2 : Chk Int32 := 2 * f2
  let f3_2 : Chk Int32 := 2 * f3
  let f4_2 : Chk Int32 := 2 * f4
  let f5_2 : Chk Int32 := 2 * f5
  let f6_2 : Chk Int32 := 2 * f6
  let f7_2 : Chk Int32 := 2 * f7
  let f5_38 : Chk Int32 := 38 * f5
  let f6_19 : Chk Int32 := 19 * f6
  let f7_38 : Chk Int32 := 38 * f7
  let f8_19 : Chk Int32 := 19 * f8
  let f9_38 : Chk Int32 := 38 * f9
  let f0f0 : Chk Int64 := f0.toInt64 * f0.toInt64
  let f0f1_2 : Chk Int64 := f0_2.toInt64 * f1.toInt64
  let f0f2_2 : Chk Int64 := f0_2.toInt64 * f2.toInt64
  let f0f3_2 : Chk Int64 := f0_2.toInt64 * f3.toInt64
  let f0f4_2 : Chk Int64 := f0_2.toInt64 * f4.toInt64
  let f0f5_2 : Chk Int64 := f0_2.toInt64 * f5.toInt64
  let f0f6_2 : Chk Int64 := f0_2.toInt64 * f6.toInt64
  let f0f7_2 : Chk Int64 := f0_2.toInt64 * f7.toInt64
  let f0f8_2 : Chk Int64 := f0_2.toInt64 * f8.toInt64
  let f0f9_2 : Chk Int64 := f0_2.toInt64 * f9.toInt64
  let f1f1_2 : Chk Int64 := f1_2.toInt64 * f1.toInt64
  let f1f2_2 : Chk Int64 := f1_2.toInt64 * f2.toInt64
  let f1f3_4 : Chk Int64 := f1_2.toInt64 * f3_2.toInt64
  let f1f4_2 : Chk Int64 := f1_2.toInt64 * f4.toInt64
  let f1f5_4 : Chk Int64 := f1_2.toInt64 * f5_2.toInt64
  let f1f6_2 : Chk Int64 := f1_2.toInt64 * f6.toInt64
  let f1f7_4 : Chk Int64 := f1_2.toInt64 * f7_2.toInt64
  let f1f8_2 : Chk Int64 := f1_2.toInt64 * f8.toInt64
  let f1f9_76 : Chk Int64 := f1_2.toInt64 * f9_38.toInt64
  let f2f2 : Chk Int64 := f2.toInt64 * f2.toInt64
  let f2f3_2 : Chk Int64 := f2_2.toInt64 * f3.toInt64
  let f2f4_2 : Chk Int64 := f2_2.toInt64 * f4.toInt64
  let f2f5_2 : Chk Int64 := f2_2.toInt64 * f5.toInt64
  let f2f6_2 : Chk Int64 := f2_2.toInt64 * f6.toInt64
  let f2f7_2 : Chk Int64 := f2_2.toInt64 * f7.toInt64
  let f2f8_38 : Chk Int64 := f2_2.toInt64 * f8_19.toInt64
  let f2f9_38 : Chk Int64 := f2.toInt64 * f9_38.toInt64
  let f3f3_2 : Chk Int64 := f3_2.toInt64 * f3.toInt64
  let f3f4_2 : Chk Int64 := f3_2.toInt64 * f4.toInt64
  let f3f5_4 : Chk Int64 := f3_2.toInt64 * f5_2.toInt64
  let f3f6_2 : Chk Int64 := f3_2.toInt64 * f6.toInt64
  let f3f7_76 : Chk Int64 := f3_2.toInt64 * f7_38.toInt64
  let f3f8_38 : Chk Int64 := f3_2.toInt64 * f8_19.toInt64
  let f3f9_76 : Chk Int64 := f3_2.toInt64 * f9_38.toInt64
  let f4f4 : Chk Int64 := f4.toInt64 * f4.toInt64
  let f4f5_2 : Chk Int64 := f4_2.toInt64 * f5.toInt64
  let f4f6_38 : Chk Int64 := f4_2.toInt64 * f6_19.toInt64
  let f4f7_38 : Chk Int64 := f4.toInt64 * f7_38.toInt64
  let f4f8_38 : Chk Int64 := f4_2.toInt64 * f8_19.toInt64
  let f4f9_38 : Chk Int64 := f4.toInt64 * f9_38.toInt64
  let f5f5_38 : Chk Int64 := f5.toInt64 * f5_38.toInt64
  let f5f6_38 : Chk Int64 := f5_2.toInt64 * f6_19.toInt64
  let f5f7_76 : Chk Int64 := f5_2.toInt64 * f7_38.toInt64
  let f5f8_38 : Chk Int64 := f5_2.toInt64 * f8_19.toInt64
  let f5f9_76 : Chk Int64 := f5_2.toInt64 * f9_38.toInt64
  let f6f6_19 : Chk Int64 := f6.toInt64 * f6_19.toInt64
  let f6f7_38 : Chk Int64 := f6.toInt64 * f7_38.toInt64
  let f6f8_38 : Chk Int64 := f6_2.toInt64 * f8_19.toInt64
  let f6f9_38 : Chk Int64 := f6.toInt64 * f9_38.toInt64
  let f7f7_38 : Chk Int64 := f7.toInt64 * f7_38.toInt64
  let f7f8_38 : Chk Int64 := f7_2.toInt64 * f8_19.toInt64
  let f7f9_76 : Chk Int64 := f7_2.toInt64 * f9_38.toInt64
  let f8f8_19 : Chk Int64 := f8.toInt64 * f8_19.toInt64
  let f8f9_38 : Chk Int64 := f8.toInt64 * f9_38.toInt64
  let f9f9_38 : Chk Int64 := f9.toInt64 * f9_38.toInt64
  let h0 : Chk Int64 := f0f0 + f1f9_76 + f2f8_38 + f3f7_76 + f4f6_38 + f5f5_38
  let h1 : Chk Int64 := f0f1_2 + f2f9_38 + f3f8_38 + f4f7_38 + f5f6_38
  let h2 : Chk Int64 := f0f2_2 + f1f1_2 + f3f9_76 + f4f8_38 + f5f7_76 + f6f6_19
  let h3 : Chk Int64 := f0f3_2 + f1f2_2 + f4f9_38 + f5f8_38 + f6f7_38
  let h4 : Chk Int64 := f0f4_2 + f1f3_4 + f2f2 + f5f9_76 + f6f8_38 + f7f7_38
  let h5 : Chk Int64 := f0f5_2 + f1f4_2 + f2f3_2 + f6f9_38 + f7f8_38
  let h6 : Chk Int64 := f0f6_2 + f1f5_4 + f2f4_2 + f3f3_2 + f7f9_76 + f8f8_19
  let h7 : Chk Int64 := f0f7_2 + f1f6_2 + f2f5_2 + f3f4_2 + f8f9_38
  let h8 : Chk Int64 := f0f8_2 + f1f7_4 + f2f6_2 + f3f5_4 + f4f4 + f9f9_38
  let h9 : Chk Int64 := f0f9_2 + f1f8_2 + f2f7_2 + f3f6_2 + f4f5_2
  let h0 : Chk Int64 := h0 + h0
  let h1 : Chk Int64 := h1 + h1
  let h2 : Chk Int64 := h2 + h2
  let h3 : Chk Int64 := h3 + h3
  let h4 : Chk Int64 := h4 + h4
  let h5 : Chk Int64 := h5 + h5
  let h6 : Chk Int64 := h6 + h6
  let h7 : Chk Int64 := h7 + h7
  let h8 : Chk Int64 := h8 + h8
  let h9 : Chk Int64 := h9 + h9
  let carry0 : Chk Int64 := (h0 + 33554432) >>> 26
  let h1 : Chk Int64 := h1 + carry0
  let h0 : Chk Int64 := h0 - (carry0 <<< 26)
  let carry4 : Chk Int64 := (h4 + 33554432) >>> 26
  let h5 : Chk Int64 := h5 + carry4
  let h4 : Chk Int64 := h4 - (carry4 <<< 26)
  let carry1 : Chk Int64 := (h1 + 16777216) >>> 25
  let h2 : Chk Int64 := h2 + carry1
  let h1 : Chk Int64 := h1 - (carry1 <<< 25)
  let carry5 : Chk Int64 := (h5 + 16777216) >>> 25
  let h6 : Chk Int64 := h6 + carry5
  let h5 : Chk Int64 := h5 - (carry5 <<< 25)
  let carry2 : Chk Int64 := (h2 + 33554432) >>> 26
  let h3 : Chk Int64 := h3 + carry2
  let h2 : Chk Int64 := h2 - (carry2 <<< 26)
  let carry6 : Chk Int64 := (h6 + 33554432) >>> 26
  let h7 : Chk Int64 := h7 + carry6
  let h6 : Chk Int64 := h6 - (carry6 <<< 26)
  let carry3 : Chk Int64 := (h3 + 16777216) >>> 25
  let h4 : Chk Int64 := h4 + carry3
  let h3 : Chk Int64 := h3 - (carry3 <<< 25)
  let carry7 : Chk Int64 := (h7 + 16777216) >>> 25
  let h8 : Chk Int64 := h8 + carry7
  let h7 : Chk Int64 := h7 - (carry7 <<< 25)
  let carry4 : Chk Int64 := (h4 + 33554432) >>> 26
  let h5 : Chk Int64 := h5 + carry4
  let h4 : Chk Int64 := h4 - (carry4 <<< 26)
  let carry8 : Chk Int64 := (h8 + 33554432) >>> 26
  let h9 : Chk Int64 := h9 + carry8
  let h8 : Chk Int64 := h8 - (carry8 <<< 26)
  let carry9 : Chk Int64 := (h9 + 16777216) >>> 25
  let h0 : Chk Int64 := h0 + carry9 * 19
  let h9 : Chk Int64 := h9 - (carry9 <<< 25)
  let carry0 : Chk Int64 := (h0 + 33554432) >>> 26
  let h1 : Chk Int64 := h1 + carry0
  let h0 : Chk Int64 := h0 - (carry0 <<< 26)
  ⟨h0.toInt32, h1.toInt32, h2.toInt32, h3.toInt32, h4.toInt32, h5.toInt32, h6.toInt32, h7.toInt32, h8.toInt32, h9.toInt32⟩

/-! ## Programs with checks -/

/-- A field element of a run that checks for overflow: `none` once an operation on the way to it overflowed.  When a
branch or an output depends on such a value, `junk` stands for the bytes the undefined behaviour produced. -/
def Checked (_junk : Bytes 32) : Type := Option Fe25

/-- The result of a checked function. -/
def ChkFe.get (f : ChkFe) : Option Fe25 := if f.ok then some f.val else none

namespace Checked
variable {junk : Bytes 32}

/-- A value that was computed without overflow. -/
def fine (a : Fe25) : Checked junk := some a

/-- Call a checked function. -/
def map (f : Fe25 → ChkFe) (a : Checked junk) : Checked junk := Option.bind a fun a => (f a).get
/-- Call a checked function. -/
def map₂ (f : Fe25 → Fe25 → ChkFe) (a b : Checked junk) : Checked junk :=
  Option.bind a fun a => Option.bind b fun b => (f a b).get

/-- Pack, or junk. -/
def pack (a : Checked junk) : Bytes 32 :=
  match (a : Option Fe25) with
  | none => junk
  | some a => if (packC a).all Chk.ok then Cref.pack a else junk

/-- The field functions of cref.c with checks (cref.c:602-1974, 2019-2021).  `fe25519_cmov` computes on unsigned
numbers; it is strict in both arguments here. -/
instance : CrefOps (Checked junk) where
  zero := fine CrefOps.zero
  one := fine CrefOps.one
  sqrtm1 := fine CrefOps.sqrtm1
  m1 := fine CrefOps.m1
  ecd := fine CrefOps.ecd
  ec2d := fine CrefOps.ec2d
  magic := fine CrefOps.magic
  add := map₂ addC
  sub := map₂ subC
  neg := map negC
  mul := map₂ mulC
  square := map squareC
  squareDouble := map squareDoubleC
  cmov a b c := Option.bind a fun a => Option.bind b fun b => some (Cref.cmov a b c)
  pack := pack
  unpack s := (unpackC s).get

/-- The points of cref.c. -/
def finePt (q : ExtPt Fe25) : ExtPt (Checked junk) := ⟨fine q.X, fine q.Y, fine q.Z, fine q.T⟩

instance : CrefTab (Checked junk) :=
  ⟨finePt CrefTab.base, CrefTab.tab.map fun e => ⟨fine e.x, fine e.y⟩⟩

/-- The variables before the first call. -/
def init (junk : Bytes 32) : CMem (Checked junk) :=
  ⟨fun k => fine (CMem.init.fes k), fun k => finePt (CMem.init.pts k), CMem.init.scs⟩

/-- No operation on the way to the value overflowed. -/
def isFine (a : Checked junk) : Bool := Option.isSome a

/-- No operation on the way to the coordinates overflowed. -/
def ptFine (q : ExtPt (Checked junk)) : Bool := q.X.isFine && q.Y.isFine && q.Z.isFine && q.T.isFine

end Checked

end Ristretto.Model.Cref
