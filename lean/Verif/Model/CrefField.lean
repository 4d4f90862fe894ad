import Verif.Model.Field25

/-!
# The field of the C reference implementation (cref/cref.c)

Package `cref` wraps a C implementation of the group.  Its field elements are ten limbs of alternately 26 and 25
bits in `crypto_int32`, with products in `crypto_int64`: the same type as `FieldElement` of field_generic.go, so the
structure `Fe25` is reused; all functions are modelled anew from the C text.  `crypto_int32`, `crypto_int64`,
`crypto_uint32` and `crypto_uint64` are Lean's fixed-width integers.  Signed overflow is undefined in C; here it wraps
around (C74 shows that it does not occur).  `>>` on signed numbers is the
arithmetic shift, as with every C compiler cgo supports.
-/

namespace Ristretto.Model.Cref

/-- The conversion of an `int` or `crypto_int32` to `unsigned char`. -/
def toByte (x : Int32) : UInt8 := x.toUInt32.toUInt8

/-- `load_3` (cref.c:618-625) of a buffer that starts with the given bytes. -/
def load3 (b0 b1 b2 : UInt8) : UInt64 :=
  let result : UInt64 := b0.toUInt64
  let result : UInt64 := result ||| (b1.toUInt64 <<< 8)
  let result : UInt64 := result ||| (b2.toUInt64 <<< 16)
  result

/-- `load_4` (cref.c:627-635) of a buffer that starts with the given bytes. -/
def load4 (b0 b1 b2 b3 : UInt8) : UInt64 :=
  let result : UInt64 := b0.toUInt64
  let result : UInt64 := result ||| (b1.toUInt64 <<< 8)
  let result : UInt64 := result ||| (b2.toUInt64 <<< 16)
  let result : UInt64 := result ||| (b3.toUInt64 <<< 24)
  result

/-- `fe25519_unpack` (cref.c:640-685). -/
def unpack (s : Bytes 32) : Fe25 :=
  let h0 : Int64 := (load4 s[0] s[1] s[2] s[3]).toInt64
  let h1 : Int64 := (load3 s[4] s[5] s[6] <<< 6).toInt64
  let h2 : Int64 := (load3 s[7] s[8] s[9] <<< 5).toInt64
  let h3 : Int64 := (load3 s[10] s[11] s[12] <<< 3).toInt64
  let h4 : Int64 := (load3 s[13] s[14] s[15] <<< 2).toInt64
  let h5 : Int64 := (load4 s[16] s[17] s[18] s[19]).toInt64
  let h6 : Int64 := (load3 s[20] s[21] s[22] <<< 7).toInt64
  let h7 : Int64 := (load3 s[23] s[24] s[25] <<< 5).toInt64
  let h8 : Int64 := (load3 s[26] s[27] s[28] <<< 4).toInt64
  let h9 : Int64 := ((load3 s[29] s[30] s[31] &&& 8388607) <<< 2).toInt64
  let carry9 : Int64 := (h9 + 16777216) >>> 25
  let h0 : Int64 := h0 + carry9 * 19
  let h9 : Int64 := h9 - (carry9 <<< 25)
  let carry1 : Int64 := (h1 + 16777216) >>> 25
  let h2 : Int64 := h2 + carry1
  let h1 : Int64 := h1 - (carry1 <<< 25)
  let carry3 : Int64 := (h3 + 16777216) >>> 25
  let h4 : Int64 := h4 + carry3
  let h3 : Int64 := h3 - (carry3 <<< 25)
  let carry5 : Int64 := (h5 + 16777216) >>> 25
  let h6 : Int64 := h6 + carry5
  let h5 : Int64 := h5 - (carry5 <<< 25)
  let carry7 : Int64 := (h7 + 16777216) >>> 25
  let h8 : Int64 := h8 + carry7
  let h7 : Int64 := h7 - (carry7 <<< 25)
  let carry0 : Int64 := (h0 + 33554432) >>> 26
  let h1 : Int64 := h1 + carry0
  let h0 : Int64 := h0 - (carry0 <<< 26)
  let carry2 : Int64 := (h2 + 33554432) >>> 26
  let h3 : Int64 := h3 + carry2
  let h2 : Int64 := h2 - (carry2 <<< 26)
  let carry4 : Int64 := (h4 + 33554432) >>> 26
  let h5 : Int64 := h5 + carry4
  let h4 : Int64 := h4 - (carry4 <<< 26)
  let carry6 : Int64 := (h6 + 33554432) >>> 26
  let h7 : Int64 := h7 + carry6
  let h6 : Int64 := h6 - (carry6 <<< 26)
  let carry8 : Int64 := (h8 + 33554432) >>> 26
  let h9 : Int64 := h9 + carry8
  let h8 : Int64 := h8 - (carry8 <<< 26)
  ⟨h0.toInt32, h1.toInt32, h2.toInt32, h3.toInt32, h4.toInt32, h5.toInt32, h6.toInt32, h7.toInt32, h8.toInt32, h9.toInt32⟩

/-- `fe25519_pack` (cref.c:713-804): the bytes written; the argument is not modified. -/
def pack (h : Fe25) : Bytes 32 :=
  let h0 : Int32 := h.l0
  let h1 : Int32 := h.l1
  let h2 : Int32 := h.l2
  let h3 : Int32 := h.l3
  let h4 : Int32 := h.l4
  let h5 : Int32 := h.l5
  let h6 : Int32 := h.l6
  let h7 : Int32 := h.l7
  let h8 : Int32 := h.l8
  let h9 : Int32 := h.l9
  let q : Int32 := (19 * h9 + 16777216) >>> 25
  let q : Int32 := (h0 + q) >>> 26
  let q : Int32 := (h1 + q) >>> 25
  let q : Int32 := (h2 + q) >>> 26
  let q : Int32 := (h3 + q) >>> 25
  let q : Int32 := (h4 + q) >>> 26
  let q : Int32 := (h5 + q) >>> 25
  let q : Int32 := (h6 + q) >>> 26
  let q : Int32 := (h7 + q) >>> 25
  let q : Int32 := (h8 + q) >>> 26
  let q : Int32 := (h9 + q) >>> 25
  let h0 : Int32 := h0 + 19 * q
  let carry0 : Int32 := h0 >>> 26
  let h1 : Int32 := h1 + carry0
  let h0 : Int32 := h0 - (carry0 <<< 26)
  let carry1 : Int32 := h1 >>> 25
  let h2 : Int32 := h2 + carry1
  let h1 : Int32 := h1 - (carry1 <<< 25)
  let carry2 : Int32 := h2 >>> 26
  let h3 : Int32 := h3 + carry2
  let h2 : Int32 := h2 - (carry2 <<< 26)
  let carry3 : Int32 := h3 >>> 25
  let h4 : Int32 := h4 + carry3
  let h3 : Int32 := h3 - (carry3 <<< 25)
  let carry4 : Int32 := h4 >>> 26
  let h5 : Int32 := h5 + carry4
  let h4 : Int32 := h4 - (carry4 <<< 26)
  let carry5 : Int32 := h5 >>> 25
  let h6 : Int32 := h6 + carry5
  let h5 : Int32 := h5 - (carry5 <<< 25)
  let carry6 : Int32 := h6 >>> 26
  let h7 : Int32 := h7 + carry6
  let h6 : Int32 := h6 - (carry6 <<< 26)
  let carry7 : Int32 := h7 >>> 25
  let h8 : Int32 := h8 + carry7
  let h7 : Int32 := h7 - (carry7 <<< 25)
  let carry8 : Int32 := h8 >>> 26
  let h9 : Int32 := h9 + carry8
  let h8 : Int32 := h8 - (carry8 <<< 26)
  let carry9 : Int32 := h9 >>> 25
  let h9 : Int32 := h9 - (carry9 <<< 25)
  #v[toByte (h0 >>> 0),
    toByte (h0 >>> 8),
    toByte (h0 >>> 16),
    toByte ((h0 >>> 24) ||| (h1 <<< 2)),
    toByte (h1 >>> 6),
    toByte (h1 >>> 14),
    toByte ((h1 >>> 22) ||| (h2 <<< 3)),
    toByte (h2 >>> 5),
    toByte (h2 >>> 13),
    toByte ((h2 >>> 21) ||| (h3 <<< 5)),
    toByte (h3 >>> 3),
    toByte (h3 >>> 11),
    toByte ((h3 >>> 19) ||| (h4 <<< 6)),
    toByte (h4 >>> 2),
    toByte (h4 >>> 10),
    toByte (h4 >>> 18),
    toByte (h5 >>> 0),
    toByte (h5 >>> 8),
    toByte (h5 >>> 16),
    toByte ((h5 >>> 24) ||| (h6 <<< 1)),
    toByte (h6 >>> 7),
    toByte (h6 >>> 15),
    toByte ((h6 >>> 23) ||| (h7 <<< 3)),
    toByte (h7 >>> 5),
    toByte (h7 >>> 13),
    toByte ((h7 >>> 21) ||| (h8 <<< 4)),
    toByte (h8 >>> 4),
    toByte (h8 >>> 12),
    toByte ((h8 >>> 20) ||| (h9 <<< 6)),
    toByte (h9 >>> 2),
    toByte (h9 >>> 10),
    toByte (h9 >>> 18)]

/-- One limb of `fe25519_cmov` (cref.c:868): `r ^= mask & (x ^ r)`, computed in `crypto_uint32`. -/
def cmovLimb (mask : UInt32) (r x : Int32) : Int32 :=
  (r.toUInt32 ^^^ (mask &&& (x.toUInt32 ^^^ r.toUInt32))).toInt32

/-- `fe25519_cmov` (cref.c:863-869). -/
def cmov (r x : Fe25) (b : UInt8) : Fe25 :=
  let mask : UInt32 := b.toUInt32
  let mask : UInt32 := -mask
  ⟨cmovLimb mask r.l0 x.l0, cmovLimb mask r.l1 x.l1, cmovLimb mask r.l2 x.l2, cmovLimb mask r.l3 x.l3, cmovLimb mask r.l4 x.l4, cmovLimb mask r.l5 x.l5, cmovLimb mask r.l6 x.l6, cmovLimb mask r.l7 x.l7, cmovLimb mask r.l8 x.l8, cmovLimb mask r.l9 x.l9⟩

/-- `fe25519_neg` (cref.c:919-951). -/
def neg (f : Fe25) : Fe25 :=
  let f0 : Int32 := f.l0
  let f1 : Int32 := f.l1
  let f2 : Int32 := f.l2
  let f3 : Int32 := f.l3
  let f4 : Int32 := f.l4
  let f5 : Int32 := f.l5
  let f6 : Int32 := f.l6
  let f7 : Int32 := f.l7
  let f8 : Int32 := f.l8
  let f9 : Int32 := f.l9
  let h0 : Int32 := -f0
  let h1 : Int32 := -f1
  let h2 : Int32 := -f2
  let h3 : Int32 := -f3
  let h4 : Int32 := -f4
  let h5 : Int32 := -f5
  let h6 : Int32 := -f6
  let h7 : Int32 := -f7
  let h8 : Int32 := -f8
  let h9 : Int32 := -f9
  ⟨h0, h1, h2, h3, h4, h5, h6, h7, h8, h9⟩

/-- `fe25519_add` (cref.c:971-1013). -/
def add (f g : Fe25) : Fe25 :=
  let f0 : Int32 := f.l0
  let f1 : Int32 := f.l1
  let f2 : Int32 := f.l2
  let f3 : Int32 := f.l3
  let f4 : Int32 := f.l4
  let f5 : Int32 := f.l5
  let f6 : Int32 := f.l6
  let f7 : Int32 := f.l7
  let f8 : Int32 := f.l8
  let f9 : Int32 := f.l9
  let g0 : Int32 := g.l0
  let g1 : Int32 := g.l1
  let g2 : Int32 := g.l2
  let g3 : Int32 := g.l3
  let g4 : Int32 := g.l4
  let g5 : Int32 := g.l5
  let g6 : Int32 := g.l6
  let g7 : Int32 := g.l7
  let g8 : Int32 := g.l8
  let g9 : Int32 := g.l9
  let h0 : Int32 := f0 + g0
  let h1 : Int32 := f1 + g1
  let h2 : Int32 := f2 + g2
  let h3 : Int32 := f3 + g3
  let h4 : Int32 := f4 + g4
  let h5 : Int32 := f5 + g5
  let h6 : Int32 := f6 + g6
  let h7 : Int32 := f7 + g7
  let h8 : Int32 := f8 + g8
  let h9 : Int32 := f9 + g9
  ⟨h0, h1, h2, h3, h4, h5, h6, h7, h8, h9⟩

/-- `fe25519_sub` (cref.c:1037-1079). -/
def sub (f g : Fe25) : Fe25 :=
  let f0 : Int32 := f.l0
  let f1 : Int32 := f.l1
  let f2 : Int32 := f.l2
  let f3 : Int32 := f.l3
  let f4 : Int32 := f.l4
  let f5 : Int32 := f.l5
  let f6 : Int32 := f.l6
  let f7 : Int32 := f.l7
  let f8 : Int32 := f.l8
  let f9 : Int32 := f.l9
  let g0 : Int32 := g.l0
  let g1 : Int32 := g.l1
  let g2 : Int32 := g.l2
  let g3 : Int32 := g.l3
  let g4 : Int32 := g.l4
  let g5 : Int32 := g.l5
  let g6 : Int32 := g.l6
  let g7 : Int32 := g.l7
  let g8 : Int32 := g.l8
  let g9 : Int32 := g.l9
  let h0 : Int32 := f0 - g0
  let h1 : Int32 := f1 - g1
  let h2 : Int32 := f2 - g2
  let h3 : Int32 := f3 - g3
  let h4 : Int32 := f4 - g4
  let h5 : Int32 := f5 - g5
  let h6 : Int32 := f6 - g6
  let h7 : Int32 := f7 - g7
  let h8 : Int32 := f8 - g8
  let h9 : Int32 := f9 - g9
  ⟨h0, h1, h2, h3, h4, h5, h6, h7, h8, h9⟩

/-- `fe25519_mul` (cref.c:1114-1331): `2 * f_i` and `19 * g_i` are computed in `crypto_int32`. -/
def mul (f g : Fe25) : Fe25 :=
  let f0 : Int32 := f.l0
  let f1 : Int32 := f.l1
  let f2 : Int32 := f.l2
  let f3 : Int32 := f.l3
  let f4 : Int32 := f.l4
  let f5 : Int32 := f.l5
  let f6 : Int32 := f.l6
  let f7 : Int32 := f.l7
  let f8 : Int32 := f.l8
  let f9 : Int32 := f.l9
  let g0 : Int32 := g.l0
  let g1 : Int32 := g.l1
  let g2 : Int32 := g.l2
  let g3 : Int32 := g.l3
  let g4 : Int32 := g.l4
  let g5 : Int32 := g.l5
  let g6 : Int32 := g.l6
  let g7 : Int32 := g.l7
  let g8 : Int32 := g.l8
  let g9 : Int32 := g.l9
  let g1_19 : Int32 := 19 * g1
  let g2_19 : Int32 := 19 * g2
  let g3_19 : Int32 := 19 * g3
  let g4_19 : Int32 := 19 * g4
  let g5_19 : Int32 := 19 * g5
  let g6_19 : Int32 := 19 * g6
  let g7_19 : Int32 := 19 * g7
  let g8_19 : Int32 := 19 * g8
  let g9_19 : Int32 := 19 * g9
  let f1_2 : Int32 := 2 * f1
  let f3_2 : Int32 := 2 * f3
  let f5_2 : Int32 := 2 * f5
  let f7_2 : Int32 := 2 * f7
  let f9_2 : Int32 := 2 * f9
  let f0g0 : Int64 := f0.toInt64 * g0.toInt64
  let f0g1 : Int64 := f0.toInt64 * g1.toInt64
  let f0g2 : Int64 := f0.toInt64 * g2.toInt64
  let f0g3 : Int64 := f0.toInt64 * g3.toInt64
  let f0g4 : Int64 := f0.toInt64 * g4.toInt64
  let f0g5 : Int64 := f0.toInt64 * g5.toInt64
  let f0g6 : Int64 := f0.toInt64 * g6.toInt64
  let f0g7 : Int64 := f0.toInt64 * g7.toInt64
  let f0g8 : Int64 := f0.toInt64 * g8.toInt64
  let f0g9 : Int64 := f0.toInt64 * g9.toInt64
  let f1g0 : Int64 := f1.toInt64 * g0.toInt64
  let f1g1_2 : Int64 := f1_2.toInt64 * g1.toInt64
  let f1g2 : Int64 := f1.toInt64 * g2.toInt64
  let f1g3_2 : Int64 := f1_2.toInt64 * g3.toInt64
  let f1g4 : Int64 := f1.toInt64 * g4.toInt64
  let f1g5_2 : Int64 := f1_2.toInt64 * g5.toInt64
  let f1g6 : Int64 := f1.toInt64 * g6.toInt64
  let f1g7_2 : Int64 := f1_2.toInt64 * g7.toInt64
  let f1g8 : Int64 := f1.toInt64 * g8.toInt64
  let f1g9_38 : Int64 := f1_2.toInt64 * g9_19.toInt64
  let f2g0 : Int64 := f2.toInt64 * g0.toInt64
  let f2g1 : Int64 := f2.toInt64 * g1.toInt64
  let f2g2 : Int64 := f2.toInt64 * g2.toInt64
  let f2g3 : Int64 := f2.toInt64 * g3.toInt64
  let f2g4 : Int64 := f2.toInt64 * g4.toInt64
  let f2g5 : Int64 := f2.toInt64 * g5.toInt64
  let f2g6 : Int64 := f2.toInt64 * g6.toInt64
  let f2g7 : Int64 := f2.toInt64 * g7.toInt64
  let f2g8_19 : Int64 := f2.toInt64 * g8_19.toInt64
  let f2g9_19 : Int64 := f2.toInt64 * g9_19.toInt64
  let f3g0 : Int64 := f3.toInt64 * g0.toInt64
  let f3g1_2 : Int64 := f3_2.toInt64 * g1.toInt64
  let f3g2 : Int64 := f3.toInt64 * g2.toInt64
  let f3g3_2 : Int64 := f3_2.toInt64 * g3.toInt64
  let f3g4 : Int64 := f3.toInt64 * g4.toInt64
  let f3g5_2 : Int64 := f3_2.toInt64 * g5.toInt64
  let f3g6 : Int64 := f3.toInt64 * g6.toInt64
  let f3g7_38 : Int64 := f3_2.toInt64 * g7_19.toInt64
  let f3g8_19 : Int64 := f3.toInt64 * g8_19.toInt64
  let f3g9_38 : Int64 := f3_2.toInt64 * g9_19.toInt64
  let f4g0 : Int64 := f4.toInt64 * g0.toInt64
  let f4g1 : Int64 := f4.toInt64 * g1.toInt64
  let f4g2 : Int64 := f4.toInt64 * g2.toInt64
  let f4g3 : Int64 := f4.toInt64 * g3.toInt64
  let f4g4 : Int64 := f4.toInt64 * g4.toInt64
  let f4g5 : Int64 := f4.toInt64 * g5.toInt64
  let f4g6_19 : Int64 := f4.toInt64 * g6_19.toInt64
  let f4g7_19 : Int64 := f4.toInt64 * g7_19.toInt64
  let f4g8_19 : Int64 := f4.toInt64 * g8_19.toInt64
  let f4g9_19 : Int64 := f4.toInt64 * g9_19.toInt64
  let f5g0 : Int64 := f5.toInt64 * g0.toInt64
  let f5g1_2 : Int64 := f5_2.toInt64 * g1.toInt64
  let f5g2 : Int64 := f5.toInt64 * g2.toInt64
  let f5g3_2 : Int64 := f5_2.toInt64 * g3.toInt64
  let f5g4 : Int64 := f5.toInt64 * g4.toInt64
  let f5g5_38 : Int64 := f5_2.toInt64 * g5_19.toInt64
  let f5g6_19 : Int64 := f5.toInt64 * g6_19.toInt64
  let f5g7_38 : Int64 := f5_2.toInt64 * g7_19.toInt64
  let f5g8_19 : Int64 := f5.toInt64 * g8_19.toInt64
  let f5g9_38 : Int64 := f5_2.toInt64 * g9_19.toInt64
  let f6g0 : Int64 := f6.toInt64 * g0.toInt64
  let f6g1 : Int64 := f6.toInt64 * g1.toInt64
  let f6g2 : Int64 := f6.toInt64 * g2.toInt64
  let f6g3 : Int64 := f6.toInt64 * g3.toInt64
  let f6g4_19 : Int64 := f6.toInt64 * g4_19.toInt64
  let f6g5_19 : Int64 := f6.toInt64 * g5_19.toInt64
  let f6g6_19 : Int64 := f6.toInt64 * g6_19.toInt64
  let f6g7_19 : Int64 := f6.toInt64 * g7_19.toInt64
  let f6g8_19 : Int64 := f6.toInt64 * g8_19.toInt64
  let f6g9_19 : Int64 := f6.toInt64 * g9_19.toInt64
  let f7g0 : Int64 := f7.toInt64 * g0.toInt64
  let f7g1_2 : Int64 := f7_2.toInt64 * g1.toInt64
  let f7g2 : Int64 := f7.toInt64 * g2.toInt64
  let f7g3_38 : Int64 := f7_2.toInt64 * g3_19.toInt64
  let f7g4_19 : Int64 := f7.toInt64 * g4_19.toInt64
  let f7g5_38 : Int64 := f7_2.toInt64 * g5_19.toInt64
  let f7g6_19 : Int64 := f7.toInt64 * g6_19.toInt64
  let f7g7_38 : Int64 := f7_2.toInt64 * g7_19.toInt64
  let f7g8_19 : Int64 := f7.toInt64 * g8_19.toInt64
  let f7g9_38 : Int64 := f7_2.toInt64 * g9_19.toInt64
  let f8g0 : Int64 := f8.toInt64 * g0.toInt64
  let f8g1 : Int64 := f8.toInt64 * g1.toInt64
  let f8g2_19 : Int64 := f8.toInt64 * g2_19.toInt64
  let f8g3_19 : Int64 := f8.toInt64 * g3_19.toInt64
  let f8g4_19 : Int64 := f8.toInt64 * g4_19.toInt64
  let f8g5_19 : Int64 := f8.toInt64 * g5_19.toInt64
  let f8g6_19 : Int64 := f8.toInt64 * g6_19.toInt64
  let f8g7_19 : Int64 := f8.toInt64 * g7_19.toInt64
  let f8g8_19 : Int64 := f8.toInt64 * g8_19.toInt64
  let f8g9_19 : Int64 := f8.toInt64 * g9_19.toInt64
  let f9g0 : Int64 := f9.toInt64 * g0.toInt64
  let f9g1_38 : Int64 := f9_2.toInt64 * g1_19.toInt64
  let f9g2_19 : Int64 := f9.toInt64 * g2_19.toInt64
  let f9g3_38 : Int64 := f9_2.toInt64 * g3_19.toInt64
  let f9g4_19 : Int64 := f9.toInt64 * g4_19.toInt64
  let f9g5_38 : Int64 := f9_2.toInt64 * g5_19.toInt64
  let f9g6_19 : Int64 := f9.toInt64 * g6_19.toInt64
  let f9g7_38 : Int64 := f9_2.toInt64 * g7_19.toInt64
  let f9g8_19 : Int64 := f9.toInt64 * g8_19.toInt64
  let f9g9_38 : Int64 := f9_2.toInt64 * g9_19.toInt64
  let h0 : Int64 := f0g0 + f1g9_38 + f2g8_19 + f3g7_38 + f4g6_19 + f5g5_38 + f6g4_19 + f7g3_38 + f8g2_19 + f9g1_38
  let h1 : Int64 := f0g1 + f1g0 + f2g9_19 + f3g8_19 + f4g7_19 + f5g6_19 + f6g5_19 + f7g4_19 + f8g3_19 + f9g2_19
  let h2 : Int64 := f0g2 + f1g1_2 + f2g0 + f3g9_38 + f4g8_19 + f5g7_38 + f6g6_19 + f7g5_38 + f8g4_19 + f9g3_38
  let h3 : Int64 := f0g3 + f1g2 + f2g1 + f3g0 + f4g9_19 + f5g8_19 + f6g7_19 + f7g6_19 + f8g5_19 + f9g4_19
  let h4 : Int64 := f0g4 + f1g3_2 + f2g2 + f3g1_2 + f4g0 + f5g9_38 + f6g8_19 + f7g7_38 + f8g6_19 + f9g5_38
  let h5 : Int64 := f0g5 + f1g4 + f2g3 + f3g2 + f4g1 + f5g0 + f6g9_19 + f7g8_19 + f8g7_19 + f9g6_19
  let h6 : Int64 := f0g6 + f1g5_2 + f2g4 + f3g3_2 + f4g2 + f5g1_2 + f6g0 + f7g9_38 + f8g8_19 + f9g7_38
  let h7 : Int64 := f0g7 + f1g6 + f2g5 + f3g4 + f4g3 + f5g2 + f6g1 + f7g0 + f8g9_19 + f9g8_19
  let h8 : Int64 := f0g8 + f1g7_2 + f2g6 + f3g5_2 + f4g4 + f5g3_2 + f6g2 + f7g1_2 + f8g0 + f9g9_38
  let h9 : Int64 := f0g9 + f1g8 + f2g7 + f3g6 + f4g5 + f5g4 + f6g3 + f7g2 + f8g1 + f9g0
  let carry0 : Int64 := (h0 + 33554432) >>> 26
  let h1 : Int64 := h1 + carry0
  let h0 : Int64 := h0 - (carry0 <<< 26)
  let carry4 : Int64 := (h4 + 33554432) >>> 26
  let h5 : Int64 := h5 + carry4
  let h4 : Int64 := h4 - (carry4 <<< 26)
  let carry1 : Int64 := (h1 + 16777216) >>> 25
  let h2 : Int64 := h2 + carry1
  let h1 : Int64 := h1 - (carry1 <<< 25)
  let carry5 : Int64 := (h5 + 16777216) >>> 25
  let h6 : Int64 := h6 + carry5
  let h5 : Int64 := h5 - (carry5 <<< 25)
  let carry2 : Int64 := (h2 + 33554432) >>> 26
  let h3 : Int64 := h3 + carry2
  let h2 : Int64 := h2 - (carry2 <<< 26)
  let carry6 : Int64 := (h6 + 33554432) >>> 26
  let h7 : Int64 := h7 + carry6
  let h6 : Int64 := h6 - (carry6 <<< 26)
  let carry3 : Int64 := (h3 + 16777216) >>> 25
  let h4 : Int64 := h4 + carry3
  let h3 : Int64 := h3 - (carry3 <<< 25)
  let carry7 : Int64 := (h7 + 16777216) >>> 25
  let h8 : Int64 := h8 + carry7
  let h7 : Int64 := h7 - (carry7 <<< 25)
  let carry4 : Int64 := (h4 + 33554432) >>> 26
  let h5 : Int64 := h5 + carry4
  let h4 : Int64 := h4 - (carry4 <<< 26)
  let carry8 : Int64 := (h8 + 33554432) >>> 26
  let h9 : Int64 := h9 + carry8
  let h8 : Int64 := h8 - (carry8 <<< 26)
  let carry9 : Int64 := (h9 + 16777216) >>> 25
  let h0 : Int64 := h0 + carry9 * 19
  let h9 : Int64 := h9 - (carry9 <<< 25)
  let carry0 : Int64 := (h0 + 33554432) >>> 26
  let h1 : Int64 := h1 + carry0
  let h0 : Int64 := h0 - (carry0 <<< 26)
  ⟨h0.toInt32, h1.toInt32, h2.toInt32, h3.toInt32, h4.toInt32, h5.toInt32, h6.toInt32, h7.toInt32, h8.toInt32, h9.toInt32⟩

/-- `fe25519_square` (cref.c:1343-1473): `2 * f_i`, `19 * f_i` and `38 * f_i` are computed in `crypto_int32`. -/
def square (f : Fe25) : Fe25 :=
  let f0 : Int32 := f.l0
  let f1 : Int32 := f.l1
  let f2 : Int32 := f.l2
  let f3 : Int32 := f.l3
  let f4 : Int32 := f.l4
  let f5 : Int32 := f.l5
  let f6 : Int32 := f.l6
  let f7 : Int32 := f.l7
  let f8 : Int32 := f.l8
  let f9 : Int32 := f.l9
  let f0_2 : Int32 := 2 * f0
  let f1_2 : Int32 := 2 * f1
  let f2_2 : Int32 := 2 * f2
  let f3_2 : Int32 := 2 * f3
  let f4_2 : Int32 := 2 * f4
  let f5_2 : Int32 := 2 * f5
  let f6_2 : Int32 := 2 * f6
  let f7_2 : Int32 := 2 * f7
  let f5_38 : Int32 := 38 * f5
  let f6_19 : Int32 := 19 * f6
  let f7_38 : Int32 := 38 * f7
  let f8_19 : Int32 := 19 * f8
  let f9_38 : Int32 := 38 * f9
  let f0f0 : Int64 := f0.toInt64 * f0.toInt64
  let f0f1_2 : Int64 := f0_2.toInt64 * f1.toInt64
  let f0f2_2 : Int64 := f0_2.toInt64 * f2.toInt64
  let f0f3_2 : Int64 := f0_2.toInt64 * f3.toInt64
  let f0f4_2 : Int64 := f0_2.toInt64 * f4.toInt64
  let f0f5_2 : Int64 := f0_2.toInt64 * f5.toInt64
  let f0f6_2 : Int64 := f0_2.toInt64 * f6.toInt64
  let f0f7_2 : Int64 := f0_2.toInt64 * f7.toInt64
  let f0f8_2 : Int64 := f0_2.toInt64 * f8.toInt64
  let f0f9_2 : Int64 := f0_2.toInt64 * f9.toInt64
  let f1f1_2 : Int64 := f1_2.toInt64 * f1.toInt64
  let f1f2_2 : Int64 := f1_2.toInt64 * f2.toInt64
  let f1f3_4 : Int64 := f1_2.toInt64 * f3_2.toInt64
  let f1f4_2 : Int64 := f1_2.toInt64 * f4.toInt64
  let f1f5_4 : Int64 := f1_2.toInt64 * f5_2.toInt64
  let f1f6_2 : Int64 := f1_2.toInt64 * f6.toInt64
  let f1f7_4 : Int64 := f1_2.toInt64 * f7_2.toInt64
  let f1f8_2 : Int64 := f1_2.toInt64 * f8.toInt64
  let f1f9_76 : Int64 := f1_2.toInt64 * f9_38.toInt64
  let f2f2 : Int64 := f2.toInt64 * f2.toInt64
  let f2f3_2 : Int64 := f2_2.toInt64 * f3.toInt64
  let f2f4_2 : Int64 := f2_2.toInt64 * f4.toInt64
  let f2f5_2 : Int64 := f2_2.toInt64 * f5.toInt64
  let f2f6_2 : Int64 := f2_2.toInt64 * f6.toInt64
  let f2f7_2 : Int64 := f2_2.toInt64 * f7.toInt64
  let f2f8_38 : Int64 := f2_2.toInt64 * f8_19.toInt64
  let f2f9_38 : Int64 := f2.toInt64 * f9_38.toInt64
  let f3f3_2 : Int64 := f3_2.toInt64 * f3.toInt64
  let f3f4_2 : Int64 := f3_2.toInt64 * f4.toInt64
  let f3f5_4 : Int64 := f3_2.toInt64 * f5_2.toInt64
  let f3f6_2 : Int64 := f3_2.toInt64 * f6.toInt64
  let f3f7_76 : Int64 := f3_2.toInt64 * f7_38.toInt64
  let f3f8_38 : Int64 := f3_2.toInt64 * f8_19.toInt64
  let f3f9_76 : Int64 := f3_2.toInt64 * f9_38.toInt64
  let f4f4 : Int64 := f4.toInt64 * f4.toInt64
  let f4f5_2 : Int64 := f4_2.toInt64 * f5.toInt64
  let f4f6_38 : Int64 := f4_2.toInt64 * f6_19.toInt64
  let f4f7_38 : Int64 := f4.toInt64 * f7_38.toInt64
  let f4f8_38 : Int64 := f4_2.toInt64 * f8_19.toInt64
  let f4f9_38 : Int64 := f4.toInt64 * f9_38.toInt64
  let f5f5_38 : Int64 := f5.toInt64 * f5_38.toInt64
  let f5f6_38 : Int64 := f5_2.toInt64 * f6_19.toInt64
  let f5f7_76 : Int64 := f5_2.toInt64 * f7_38.toInt64
  let f5f8_38 : Int64 := f5_2.toInt64 * f8_19.toInt64
  let f5f9_76 : Int64 := f5_2.toInt64 * f9_38.toInt64
  let f6f6_19 : Int64 := f6.toInt64 * f6_19.toInt64
  let f6f7_38 : Int64 := f6.toInt64 * f7_38.toInt64
  let f6f8_38 : Int64 := f6_2.toInt64 * f8_19.toInt64
  let f6f9_38 : Int64 := f6.toInt64 * f9_38.toInt64
  let f7f7_38 : Int64 := f7.toInt64 * f7_38.toInt64
  let f7f8_38 : Int64 := f7_2.toInt64 * f8_19.toInt64
  let f7f9_76 : Int64 := f7_2.toInt64 * f9_38.toInt64
  let f8f8_19 : Int64 := f8.toInt64 * f8_19.toInt64
  let f8f9_38 : Int64 := f8.toInt64 * f9_38.toInt64
  let f9f9_38 : Int64 := f9.toInt64 * f9_38.toInt64
  let h0 : Int64 := f0f0 + f1f9_76 + f2f8_38 + f3f7_76 + f4f6_38 + f5f5_38
  let h1 : Int64 := f0f1_2 + f2f9_38 + f3f8_38 + f4f7_38 + f5f6_38
  let h2 : Int64 := f0f2_2 + f1f1_2 + f3f9_76 + f4f8_38 + f5f7_76 + f6f6_19
  let h3 : Int64 := f0f3_2 + f1f2_2 + f4f9_38 + f5f8_38 + f6f7_38
  let h4 : Int64 := f0f4_2 + f1f3_4 + f2f2 + f5f9_76 + f6f8_38 + f7f7_38
  let h5 : Int64 := f0f5_2 + f1f4_2 + f2f3_2 + f6f9_38 + f7f8_38
  let h6 : Int64 := f0f6_2 + f1f5_4 + f2f4_2 + f3f3_2 + f7f9_76 + f8f8_19
  let h7 : Int64 := f0f7_2 + f1f6_2 + f2f5_2 + f3f4_2 + f8f9_38
  let h8 : Int64 := f0f8_2 + f1f7_4 + f2f6_2 + f3f5_4 + f4f4 + f9f9_38
  let h9 : Int64 := f0f9_2 + f1f8_2 + f2f7_2 + f3f6_2 + f4f5_2
  let carry0 : Int64 := (h0 + 33554432) >>> 26
  let h1 : Int64 := h1 + carry0
  let h0 : Int64 := h0 - (carry0 <<< 26)
  let carry4 : Int64 := (h4 + 33554432) >>> 26
  let h5 : Int64 := h5 + carry4
  let h4 : Int64 := h4 - (carry4 <<< 26)
  let carry1 : Int64 := (h1 + 16777216) >>> 25
  let h2 : Int64 := h2 + carry1
  let h1 : Int64 := h1 - (carry1 <<< 25)
  let carry5 : Int64 := (h5 + 16777216) >>> 25
  let h6 : Int64 := h6 + carry5
  let h5 : Int64 := h5 - (carry5 <<< 25)
  let carry2 : Int64 := (h2 + 33554432) >>> 26
  let h3 : Int64 := h3 + carry2
  let h2 : Int64 := h2 - (carry2 <<< 26)
  let carry6 : Int64 := (h6 + 33554432) >>> 26
  let h7 : Int64 := h7 + carry6
  let h6 : Int64 := h6 - (carry6 <<< 26)
  let carry3 : Int64 := (h3 + 16777216) >>> 25
  let h4 : Int64 := h4 + carry3
  let h3 : Int64 := h3 - (carry3 <<< 25)
  let carry7 : Int64 := (h7 + 16777216) >>> 25
  let h8 : Int64 := h8 + carry7
  let h7 : Int64 := h7 - (carry7 <<< 25)
  let carry4 : Int64 := (h4 + 33554432) >>> 26
  let h5 : Int64 := h5 + carry4
  let h4 : Int64 := h4 - (carry4 <<< 26)
  let carry8 : Int64 := (h8 + 33554432) >>> 26
  let h9 : Int64 := h9 + carry8
  let h8 : Int64 := h8 - (carry8 <<< 26)
  let carry9 : Int64 := (h9 + 16777216) >>> 25
  let h0 : Int64 := h0 + carry9 * 19
  let h9 : Int64 := h9 - (carry9 <<< 25)
  let carry0 : Int64 := (h0 + 33554432) >>> 26
  let h1 : Int64 := h1 + carry0
  let h0 : Int64 := h0 - (carry0 <<< 26)
  ⟨h0.toInt32, h1.toInt32, h2.toInt32, h3.toInt32, h4.toInt32, h5.toInt32, h6.toInt32, h7.toInt32, h8.toInt32, h9.toInt32⟩

/-- `fe25519_square_double` (cref.c:1833-1974). -/
def squareDouble (f : Fe25) : Fe25 :=
  let f0 : Int32 := f.l0
  let f1 : Int32 := f.l1
  let f2 : Int32 := f.l2
  let f3 : Int32 := f.l3
  let f4 : Int32 := f.l4
  let f5 : Int32 := f.l5
  let f6 : Int32 := f.l6
  let f7 : Int32 := f.l7
  let f8 : Int32 := f.l8
  let f9 : Int32 := f.l9
  let f0_2 : Int32 := 2 * f0
  let f1_2 : Int32 := 2 * f1
  let f2_2 : Int32 := 2 * f2
  let f3_2 : Int32 := 2 * f3
  let f4_2 : Int32 := 2 * f4
  let f5_2 : Int32 := 2 * f5
  let f6_2 : Int32 := 2 * f6
  let f7_2 : Int32 := 2 * f7
  let f5_38 : Int32 := 38 * f5
  let f6_19 : Int32 := 19 * f6
  let f7_38 : Int32 := 38 * f7
  let f8_19 : Int32 := 19 * f8
  let f9_38 : Int32 := 38 * f9
  let f0f0 : Int64 := f0.toInt64 * f0.toInt64
  let f0f1_2 : Int64 := f0_2.toInt64 * f1.toInt64
  let f0f2_2 : Int64 := f0_2.toInt64 * f2.toInt64
  let f0f3_2 : Int64 := f0_2.toInt64 * f3.toInt64
  let f0f4_2 : Int64 := f0_2.toInt64 * f4.toInt64
  let f0f5_2 : Int64 := f0_2.toInt64 * f5.toInt64
  let f0f6_2 : Int64 := f0_2.toInt64 * f6.toInt64
  let f0f7_2 : Int64 := f0_2.toInt64 * f7.toInt64
  let f0f8_2 : Int64 := f0_2.toInt64 * f8.toInt64
  let f0f9_2 : Int64 := f0_2.toInt64 * f9.toInt64
  let f1f1_2 : Int64 := f1_2.toInt64 * f1.toInt64
  let f1f2_2 : Int64 := f1_2.toInt64 * f2.toInt64
  let f1f3_4 : Int64 := f1_2.toInt64 * f3_2.toInt64
  let f1f4_2 : Int64 := f1_2.toInt64 * f4.toInt64
  let f1f5_4 : Int64 := f1_2.toInt64 * f5_2.toInt64
  let f1f6_2 : Int64 := f1_2.toInt64 * f6.toInt64
  let f1f7_4 : Int64 := f1_2.toInt64 * f7_2.toInt64
  let f1f8_2 : Int64 := f1_2.toInt64 * f8.toInt64
  let f1f9_76 : Int64 := f1_2.toInt64 * f9_38.toInt64
  let f2f2 : Int64 := f2.toInt64 * f2.toInt64
  let f2f3_2 : Int64 := f2_2.toInt64 * f3.toInt64
  let f2f4_2 : Int64 := f2_2.toInt64 * f4.toInt64
  let f2f5_2 : Int64 := f2_2.toInt64 * f5.toInt64
  let f2f6_2 : Int64 := f2_2.toInt64 * f6.toInt64
  let f2f7_2 : Int64 := f2_2.toInt64 * f7.toInt64
  let f2f8_38 : Int64 := f2_2.toInt64 * f8_19.toInt64
  let f2f9_38 : Int64 := f2.toInt64 * f9_38.toInt64
  let f3f3_2 : Int64 := f3_2.toInt64 * f3.toInt64
  let f3f4_2 : Int64 := f3_2.toInt64 * f4.toInt64
  let f3f5_4 : Int64 := f3_2.toInt64 * f5_2.toInt64
  let f3f6_2 : Int64 := f3_2.toInt64 * f6.toInt64
  let f3f7_76 : Int64 := f3_2.toInt64 * f7_38.toInt64
  let f3f8_38 : Int64 := f3_2.toInt64 * f8_19.toInt64
  let f3f9_76 : Int64 := f3_2.toInt64 * f9_38.toInt64
  let f4f4 : Int64 := f4.toInt64 * f4.toInt64
  let f4f5_2 : Int64 := f4_2.toInt64 * f5.toInt64
  let f4f6_38 : Int64 := f4_2.toInt64 * f6_19.toInt64
  let f4f7_38 : Int64 := f4.toInt64 * f7_38.toInt64
  let f4f8_38 : Int64 := f4_2.toInt64 * f8_19.toInt64
  let f4f9_38 : Int64 := f4.toInt64 * f9_38.toInt64
  let f5f5_38 : Int64 := f5.toInt64 * f5_38.toInt64
  let f5f6_38 : Int64 := f5_2.toInt64 * f6_19.toInt64
  let f5f7_76 : Int64 := f5_2.toInt64 * f7_38.toInt64
  let f5f8_38 : Int64 := f5_2.toInt64 * f8_19.toInt64
  let f5f9_76 : Int64 := f5_2.toInt64 * f9_38.toInt64
  let f6f6_19 : Int64 := f6.toInt64 * f6_19.toInt64
  let f6f7_38 : Int64 := f6.toInt64 * f7_38.toInt64
  let f6f8_38 : Int64 := f6_2.toInt64 * f8_19.toInt64
  let f6f9_38 : Int64 := f6.toInt64 * f9_38.toInt64
  let f7f7_38 : Int64 := f7.toInt64 * f7_38.toInt64
  let f7f8_38 : Int64 := f7_2.toInt64 * f8_19.toInt64
  let f7f9_76 : Int64 := f7_2.toInt64 * f9_38.toInt64
  let f8f8_19 : Int64 := f8.toInt64 * f8_19.toInt64
  let f8f9_38 : Int64 := f8.toInt64 * f9_38.toInt64
  let f9f9_38 : Int64 := f9.toInt64 * f9_38.toInt64
  let h0 : Int64 := f0f0 + f1f9_76 + f2f8_38 + f3f7_76 + f4f6_38 + f5f5_38
  let h1 : Int64 := f0f1_2 + f2f9_38 + f3f8_38 + f4f7_38 + f5f6_38
  let h2 : Int64 := f0f2_2 + f1f1_2 + f3f9_76 + f4f8_38 + f5f7_76 + f6f6_19
  let h3 : Int64 := f0f3_2 + f1f2_2 + f4f9_38 + f5f8_38 + f6f7_38
  let h4 : Int64 := f0f4_2 + f1f3_4 + f2f2 + f5f9_76 + f6f8_38 + f7f7_38
  let h5 : Int64 := f0f5_2 + f1f4_2 + f2f3_2 + f6f9_38 + f7f8_38
  let h6 : Int64 := f0f6_2 + f1f5_4 + f2f4_2 + f3f3_2 + f7f9_76 + f8f8_19
  let h7 : Int64 := f0f7_2 + f1f6_2 + f2f5_2 + f3f4_2 + f8f9_38
  let h8 : Int64 := f0f8_2 + f1f7_4 + f2f6_2 + f3f5_4 + f4f4 + f9f9_38
  let h9 : Int64 := f0f9_2 + f1f8_2 + f2f7_2 + f3f6_2 + f4f5_2
  let h0 : Int64 := h0 + h0
  let h1 : Int64 := h1 + h1
  let h2 : Int64 := h2 + h2
  let h3 : Int64 := h3 + h3
  let h4 : Int64 := h4 + h4
  let h5 : Int64 := h5 + h5
  let h6 : Int64 := h6 + h6
  let h7 : Int64 := h7 + h7
  let h8 : Int64 := h8 + h8
  let h9 : Int64 := h9 + h9
  let carry0 : Int64 := (h0 + 33554432) >>> 26
  let h1 : Int64 := h1 + carry0
  let h0 : Int64 := h0 - (carry0 <<< 26)
  let carry4 : Int64 := (h4 + 33554432) >>> 26
  let h5 : Int64 := h5 + carry4
  let h4 : Int64 := h4 - (carry4 <<< 26)
  let carry1 : Int64 := (h1 + 16777216) >>> 25
  let h2 : Int64 := h2 + carry1
  let h1 : Int64 := h1 - (carry1 <<< 25)
  let carry5 : Int64 := (h5 + 16777216) >>> 25
  let h6 : Int64 := h6 + carry5
  let h5 : Int64 := h5 - (carry5 <<< 25)
  let carry2 : Int64 := (h2 + 33554432) >>> 26
  let h3 : Int64 := h3 + carry2
  let h2 : Int64 := h2 - (carry2 <<< 26)
  let carry6 : Int64 := (h6 + 33554432) >>> 26
  let h7 : Int64 := h7 + carry6
  let h6 : Int64 := h6 - (carry6 <<< 26)
  let carry3 : Int64 := (h3 + 16777216) >>> 25
  let h4 : Int64 := h4 + carry3
  let h3 : Int64 := h3 - (carry3 <<< 25)
  let carry7 : Int64 := (h7 + 16777216) >>> 25
  let h8 : Int64 := h8 + carry7
  let h7 : Int64 := h7 - (carry7 <<< 25)
  let carry4 : Int64 := (h4 + 33554432) >>> 26
  let h5 : Int64 := h5 + carry4
  let h4 : Int64 := h4 - (carry4 <<< 26)
  let carry8 : Int64 := (h8 + 33554432) >>> 26
  let h9 : Int64 := h9 + carry8
  let h8 : Int64 := h8 - (carry8 <<< 26)
  let carry9 : Int64 := (h9 + 16777216) >>> 25
  let h0 : Int64 := h0 + carry9 * 19
  let h9 : Int64 := h9 - (carry9 <<< 25)
  let carry0 : Int64 := (h0 + 33554432) >>> 26
  let h1 : Int64 := h1 + carry0
  let h0 : Int64 := h0 - (carry0 <<< 26)
  ⟨h0.toInt32, h1.toInt32, h2.toInt32, h3.toInt32, h4.toInt32, h5.toInt32, h6.toInt32, h7.toInt32, h8.toInt32, h9.toInt32⟩

end Ristretto.Model.Cref
