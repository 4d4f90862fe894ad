import Verif.Model.Api

/-!
# The straight-line code on words that nobody knows

`Model/Leak.lean` takes it for granted which functions have no branches and no array indices that depend on data.  Here the same
functions are written over *expressions* instead of words: a word of type `t` is an element of `Sx t`, built from variables and
constants by the operations Go has on words, `bits.Mul64`, `bits.Add64`, shifts by constants and conversions.  There is no way to
compare two expressions' values, to branch on one or to use one as an index: the code below decides what to do without
knowing any value, so it does the same for all values.  (It may follow the public length of a list, and loop counters.)
`Props/Oblivious.lean` proves that the value of the resulting expressions is, for all values of the variables, what the model of the
code computes.

The field arithmetic here is that of the radix-2^51 backend; `Model/Oblivious25.lean` has the other one, and the code above the
field is for both.  Sharing is not visible in expressions: a variable of the Go code that is used twice is a
subexpression that occurs twice.
-/

namespace Ristretto.Model.Obl
set_option autoImplicit false

/-- The word types in use. -/
inductive Ty where
  | u8 | u16 | u32 | u64 | i8 | i32 | i64

/-- Their values. -/
@[reducible] def Ty.Val : Ty → Type
  | .u8 => UInt8
  | .u16 => UInt16
  | .u32 => UInt32
  | .u64 => UInt64
  | .i8 => Int8
  | .i32 => Int32
  | .i64 => Int64

/-- The operations of a word type: those of Go, as in the rest of the model. -/
structure Ops (α : Type) where
  ofNat : Nat → α
  add : α → α → α
  sub : α → α → α
  mul : α → α → α
  and : α → α → α
  or : α → α → α
  xor : α → α → α
  neg : α → α
  shl : α → Nat → α
  shr : α → Nat → α

/-- The operations of each word type. -/
@[reducible] def Ty.ops : (t : Ty) → Ops t.Val
  | .u8 => ⟨UInt8.ofNat, (· + ·), (· - ·), (· * ·), (· &&& ·), (· ||| ·), (· ^^^ ·), (- ·), fun a n => a <<< UInt8.ofNat n,
    fun a n => a >>> UInt8.ofNat n⟩
  | .u16 => ⟨UInt16.ofNat, (· + ·), (· - ·), (· * ·), (· &&& ·), (· ||| ·), (· ^^^ ·), (- ·), fun a n => a <<< UInt16.ofNat n,
    fun a n => a >>> UInt16.ofNat n⟩
  | .u32 => ⟨UInt32.ofNat, (· + ·), (· - ·), (· * ·), (· &&& ·), (· ||| ·), (· ^^^ ·), (- ·), fun a n => a <<< UInt32.ofNat n,
    fun a n => a >>> UInt32.ofNat n⟩
  | .u64 => ⟨UInt64.ofNat, (· + ·), (· - ·), (· * ·), (· &&& ·), (· ||| ·), (· ^^^ ·), (- ·), fun a n => a <<< UInt64.ofNat n,
    fun a n => a >>> UInt64.ofNat n⟩
  | .i8 => ⟨Int8.ofNat, (· + ·), (· - ·), (· * ·), (· &&& ·), (· ||| ·), (· ^^^ ·), (- ·), fun a n => a <<< Int8.ofNat n,
    fun a n => a >>> Int8.ofNat n⟩
  | .i32 => ⟨Int32.ofNat, (· + ·), (· - ·), (· * ·), (· &&& ·), (· ||| ·), (· ^^^ ·), (- ·), fun a n => a <<< Int32.ofNat n,
    fun a n => a >>> Int32.ofNat n⟩
  | .i64 => ⟨Int64.ofNat, (· + ·), (· - ·), (· * ·), (· &&& ·), (· ||| ·), (· ^^^ ·), (- ·), fun a n => a <<< Int64.ofNat n,
    fun a n => a >>> Int64.ofNat n⟩

/-- The conversions in use. -/
inductive Conv : Ty → Ty → Type where
  | u8u32 : Conv .u8 .u32
  | u8u64 : Conv .u8 .u64
  | u8i8 : Conv .u8 .i8
  | u16u32 : Conv .u16 .u32
  | u32u8 : Conv .u32 .u8
  | u32u16 : Conv .u32 .u16
  | u32u64 : Conv .u32 .u64
  | u32i32 : Conv .u32 .i32
  | u64u8 : Conv .u64 .u8
  | u64u32 : Conv .u64 .u32
  | u64i64 : Conv .u64 .i64
  | i8i32 : Conv .i8 .i32
  | i32u32 : Conv .i32 .u32
  | i32i64 : Conv .i32 .i64
  | i64u64 : Conv .i64 .u64
  | i64i32 : Conv .i64 .i32

/-- What they do. -/
@[reducible] def Conv.fn : {s t : Ty} → Conv s t → s.Val → t.Val
  | _, _, .u8u32 => UInt8.toUInt32
  | _, _, .u8u64 => UInt8.toUInt64
  | _, _, .u8i8 => UInt8.toInt8
  | _, _, .u16u32 => UInt16.toUInt32
  | _, _, .u32u8 => UInt32.toUInt8
  | _, _, .u32u16 => UInt32.toUInt16
  | _, _, .u32u64 => UInt32.toUInt64
  | _, _, .u32i32 => UInt32.toInt32
  | _, _, .u64u8 => UInt64.toUInt8
  | _, _, .u64u32 => UInt64.toUInt32
  | _, _, .u64i64 => UInt64.toInt64
  | _, _, .i8i32 => Int8.toInt32
  | _, _, .i32u32 => Int32.toUInt32
  | _, _, .i32i64 => Int32.toInt64
  | _, _, .i64u64 => Int64.toUInt64
  | _, _, .i64i32 => Int64.toInt32

/-- There is a conversion. -/
class HasConv (s t : Ty) where
  conv : Conv s t
instance : HasConv .u8 .u32 := ⟨.u8u32⟩
instance : HasConv .u8 .u64 := ⟨.u8u64⟩
instance : HasConv .u8 .i8 := ⟨.u8i8⟩
instance : HasConv .u16 .u32 := ⟨.u16u32⟩
instance : HasConv .u32 .u8 := ⟨.u32u8⟩
instance : HasConv .u32 .u16 := ⟨.u32u16⟩
instance : HasConv .u32 .u64 := ⟨.u32u64⟩
instance : HasConv .u32 .i32 := ⟨.u32i32⟩
instance : HasConv .u64 .u8 := ⟨.u64u8⟩
instance : HasConv .u64 .u32 := ⟨.u64u32⟩
instance : HasConv .u64 .i64 := ⟨.u64i64⟩
instance : HasConv .i8 .i32 := ⟨.i8i32⟩
instance : HasConv .i32 .u32 := ⟨.i32u32⟩
instance : HasConv .i32 .i64 := ⟨.i32i64⟩
instance : HasConv .i64 .u64 := ⟨.i64u64⟩
instance : HasConv .i64 .i32 := ⟨.i64i32⟩

/-- Binary operations. -/
inductive Bin where
  | add | sub | mul | and | or | xor

/-- What they do. -/
@[reducible] def Bin.fn {α : Type} (o : Ops α) : Bin → α → α → α
  | .add => o.add
  | .sub => o.sub
  | .mul => o.mul
  | .and => o.and
  | .or => o.or
  | .xor => o.xor

/-- Names for the words nobody knows: those of the points, the scalars and the tables a program starts from, and those of the arguments of
its calls. -/
inductive Name where
  /-- limb `l` of coordinate `c` of point `p` -/
  | pt (p c l : Nat)
  /-- word `w` of scalar `s` -/
  | sc (s w : Nat)
  /-- limb `l` of coordinate `c` of entry `j` of row `i` of table `t` -/
  | tab (t i j c l : Nat)
  /-- byte `j` of the argument of call `k`, or that argument if it is one word -/
  | arg (k j : Nat)

/-- Expressions. -/
inductive Sx : Ty → Type where
  /-- a word nobody knows -/
  | var (t : Ty) (i : Name) : Sx t
  /-- a constant of the program -/
  | lit {t : Ty} (v : t.Val) : Sx t
  | bin {t : Ty} (o : Bin) (a b : Sx t) : Sx t
  | neg {t : Ty} (a : Sx t) : Sx t
  /-- shifts by constants -/
  | shl {t : Ty} (a : Sx t) (n : Nat) : Sx t
  | shr {t : Ty} (a : Sx t) (n : Nat) : Sx t
  | conv {s t : Ty} (c : Conv s t) (a : Sx s) : Sx t
  /-- the first result of `bits.Mul64`; the second one is the product -/
  | mulHi (a b : Sx .u64) : Sx .u64
  /-- the second result of `bits.Add64`; the first one is the sum -/
  | carry (a b c : Sx .u64) : Sx .u64

/-- The value of an expression when the variables have the values `ρ`. -/
def ev (ρ : (t : Ty) → Name → t.Val) : {t : Ty} → Sx t → t.Val
  | t, .var _ i => ρ t i
  | _, .lit v => v
  | t, .bin o a b => o.fn t.ops (ev ρ a) (ev ρ b)
  | t, .neg a => t.ops.neg (ev ρ a)
  | t, .shl a n => t.ops.shl (ev ρ a) n
  | t, .shr a n => t.ops.shr (ev ρ a) n
  | _, .conv c a => c.fn (ev ρ a)
  | _, .mulHi a b => (bitsMul64 (ev ρ a) (ev ρ b)).1
  | _, .carry a b c => (bitsAdd64 (ev ρ a) (ev ρ b) (ev ρ c)).2

section
variable {t : Ty}
instance (n : Nat) : OfNat (Sx t) n := ⟨.lit (t.ops.ofNat n)⟩
instance : Add (Sx t) := ⟨.bin .add⟩
instance : Sub (Sx t) := ⟨.bin .sub⟩
instance : Mul (Sx t) := ⟨.bin .mul⟩
instance : HAnd (Sx t) (Sx t) (Sx t) := ⟨.bin .and⟩
instance : HOr (Sx t) (Sx t) (Sx t) := ⟨.bin .or⟩
instance : HXor (Sx t) (Sx t) (Sx t) := ⟨.bin .xor⟩
instance : Neg (Sx t) := ⟨.neg⟩
instance : HShiftLeft (Sx t) Nat (Sx t) := ⟨.shl⟩
instance : HShiftRight (Sx t) Nat (Sx t) := ⟨.shr⟩
end

abbrev U8 := Sx .u8
abbrev U16 := Sx .u16
abbrev U32 := Sx .u32
abbrev U64 := Sx .u64
abbrev I8 := Sx .i8
abbrev I32 := Sx .i32
abbrev I64 := Sx .i64

namespace Sx
variable {s : Ty}
def toUInt8 [HasConv s .u8] (x : Sx s) : U8 := .conv (HasConv.conv (s := s) (t := .u8)) x
def toUInt16 [HasConv s .u16] (x : Sx s) : U16 := .conv (HasConv.conv (s := s) (t := .u16)) x
def toUInt32 [HasConv s .u32] (x : Sx s) : U32 := .conv (HasConv.conv (s := s) (t := .u32)) x
def toUInt64 [HasConv s .u64] (x : Sx s) : U64 := .conv (HasConv.conv (s := s) (t := .u64)) x
def toInt8 [HasConv s .i8] (x : Sx s) : I8 := .conv (HasConv.conv (s := s) (t := .i8)) x
def toInt32 [HasConv s .i32] (x : Sx s) : I32 := .conv (HasConv.conv (s := s) (t := .i32)) x
def toInt64 [HasConv s .i64] (x : Sx s) : I64 := .conv (HasConv.conv (s := s) (t := .i64)) x
end Sx

/-- A byte array nobody knows. -/
abbrev SBytes (n : Nat) := Vector U8 n

/-- `bits.Mul64` (see `Model.bitsMul64`). -/
def bitsMul64 (x y : U64) : U64 × U64 := (.mulHi x y, x * y)
/-- `bits.Add64` (see `Model.bitsAdd64`). -/
def bitsAdd64 (x y c : U64) : U64 × U64 := (x + y + c, .carry x y c)

/-- The three-line pattern repeated throughout edwards25519/field_mul64.go (e.g. lines 32-34):
```
h, l = bits.Mul64(x, y)
cl, carry = bits.Add64(cl, l, 0)
ch, _ = bits.Add64(ch, h, carry)
```
on the accumulator `(ch, cl)`. -/
def mulAcc (acc : U64 × U64) (x y : U64) : U64 × U64 :=
  let hl := bitsMul64 x y
  let s := bitsAdd64 acc.2 hl.2 0
  let s' := bitsAdd64 acc.1 hl.1 s.2
  (s'.1, s.1)

/-- The two-line pattern of edwards25519/field_mul64.go, e.g. lines 59-60:
```
c1l, carry = bits.Add64((c0l>>51)|(c0h<<13), c1l, 0)
c1h, _ = bits.Add64(c1h, 0, carry)
```
with `(c0h, c0l) = prev` and `(c1h, c1l) = acc`. -/
def carryAcc (prev acc : U64 × U64) : U64 × U64 :=
  let s := bitsAdd64 ((prev.2 >>> 51) ||| (prev.1 <<< 13)) acc.2 0
  let s' := bitsAdd64 acc.1 0 s.2
  (s'.1, s.1)

/-- `uint64(1-b) - 1` for `b int32`: conversion sign-extends
(edwards25519/field_radix51.go:198). -/
def maskOf (b : I32) : U64 := (1 - b).toInt64.toUInt64 - 1


/-- `type FieldElement [5]uint64` (edwards25519/field_radix51.go:8). -/
structure FeS where
  l0 : U64
  l1 : U64
  l2 : U64
  l3 : U64
  l4 : U64

namespace FeS

/-- The carry chain that occurs verbatim in `Neg` (field_radix51.go:106-115),
`sub` (:131-140) and `setReduced` (:170-179). -/
def carryChain (t : FeS) : FeS :=
  let t1 := t.l1 + (t.l0 >>> 51)
  let t0 := t.l0 &&& 0x7ffffffffffff
  let t2 := t.l2 + (t1 >>> 51)
  let t1 := t1 &&& 0x7ffffffffffff
  let t3 := t.l3 + (t2 >>> 51)
  let t2 := t2 &&& 0x7ffffffffffff
  let t4 := t.l4 + (t3 >>> 51)
  let t3 := t3 &&& 0x7ffffffffffff
  let t0 := t0 + (t4 >>> 51) * 19
  let t4 := t4 &&& 0x7ffffffffffff
  ⟨t0, t1, t2, t3, t4⟩

/-- `FieldElement.Neg` (field_radix51.go:102-124). -/
def neg (a : FeS) : FeS :=
  let t := carryChain a
  ⟨0xfffffffffffda - t.l0, 0xffffffffffffe - t.l1, 0xffffffffffffe - t.l2,
    0xffffffffffffe - t.l3, 0xffffffffffffe - t.l4⟩

/-- `FieldElement.sub` (field_radix51.go:127-149). -/
def sub (a b : FeS) : FeS :=
  let t := carryChain b
  ⟨(a.l0 + 0xfffffffffffda) - t.l0, (a.l1 + 0xffffffffffffe) - t.l1,
    (a.l2 + 0xffffffffffffe) - t.l2, (a.l3 + 0xffffffffffffe) - t.l3,
    (a.l4 + 0xffffffffffffe) - t.l4⟩

/-- `FieldElement.add` (field_radix51.go:152-159). -/
def add (a b : FeS) : FeS :=
  ⟨a.l0 + b.l0, a.l1 + b.l1, a.l2 + b.l2, a.l3 + b.l3, a.l4 + b.l4⟩

/-- `FieldElement.setReduced` (field_radix51.go:167-200). -/
def setReduced (a : FeS) : FeS :=
  let f := carryChain a
  let c := (f.l0 + 19) >>> 51
  let c := (f.l1 + c) >>> 51
  let c := (f.l2 + c) >>> 51
  let c := (f.l3 + c) >>> 51
  let c := (f.l4 + c) >>> 51
  let f0 := f.l0 + 19 * c
  let f1 := f.l1 + (f0 >>> 51)
  let f0 := f0 &&& 0x7ffffffffffff
  let f2 := f.l2 + (f1 >>> 51)
  let f1 := f1 &&& 0x7ffffffffffff
  let f3 := f.l3 + (f2 >>> 51)
  let f2 := f2 &&& 0x7ffffffffffff
  let f4 := f.l4 + (f3 >>> 51)
  let f3 := f3 &&& 0x7ffffffffffff
  let f4 := f4 &&& 0x7ffffffffffff
  ⟨f0, f1, f2, f3, f4⟩

/-- `FieldElement.normalize` (field_radix51.go:162-164). -/
def normalize (fe : FeS) : FeS := setReduced fe

/-- `FieldElement.ConditionalSet` (field_radix51.go:203-210). -/
def condSet (fe a : FeS) (b : I32) : FeS :=
  let b2 := maskOf b
  ⟨fe.l0 ^^^ (b2 &&& (fe.l0 ^^^ a.l0)), fe.l1 ^^^ (b2 &&& (fe.l1 ^^^ a.l1)),
    fe.l2 ^^^ (b2 &&& (fe.l2 ^^^ a.l2)), fe.l3 ^^^ (b2 &&& (fe.l3 ^^^ a.l3)),
    fe.l4 ^^^ (b2 &&& (fe.l4 ^^^ a.l4))⟩

/-- `FieldElement.BytesInto` (field_radix51.go:213-254); works on a local copy, the receiver is
not changed. -/
def bytes (fe : FeS) : SBytes 32 :=
  let t := setReduced fe
  #v[(t.l0 &&& 0xff).toUInt8,
    ((t.l0 >>> 8) &&& 0xff).toUInt8,
    ((t.l0 >>> 16) &&& 0xff).toUInt8,
    ((t.l0 >>> 24) &&& 0xff).toUInt8,
    ((t.l0 >>> 32) &&& 0xff).toUInt8,
    ((t.l0 >>> 40) &&& 0xff).toUInt8,
    (t.l0 >>> 48).toUInt8 ^^^ ((t.l1 <<< 3) &&& 0xf8).toUInt8,
    ((t.l1 >>> 5) &&& 0xff).toUInt8,
    ((t.l1 >>> 13) &&& 0xff).toUInt8,
    ((t.l1 >>> 21) &&& 0xff).toUInt8,
    ((t.l1 >>> 29) &&& 0xff).toUInt8,
    ((t.l1 >>> 37) &&& 0xff).toUInt8,
    (t.l1 >>> 45).toUInt8 ^^^ ((t.l2 <<< 6) &&& 0xc0).toUInt8,
    ((t.l2 >>> 2) &&& 0xff).toUInt8,
    ((t.l2 >>> 10) &&& 0xff).toUInt8,
    ((t.l2 >>> 18) &&& 0xff).toUInt8,
    ((t.l2 >>> 26) &&& 0xff).toUInt8,
    ((t.l2 >>> 34) &&& 0xff).toUInt8,
    ((t.l2 >>> 42) &&& 0xff).toUInt8,
    (t.l2 >>> 50).toUInt8 ^^^ ((t.l3 <<< 1) &&& 0xfe).toUInt8,
    ((t.l3 >>> 7) &&& 0xff).toUInt8,
    ((t.l3 >>> 15) &&& 0xff).toUInt8,
    ((t.l3 >>> 23) &&& 0xff).toUInt8,
    ((t.l3 >>> 31) &&& 0xff).toUInt8,
    ((t.l3 >>> 39) &&& 0xff).toUInt8,
    (t.l3 >>> 47).toUInt8 ^^^ ((t.l4 <<< 4) &&& 0xf0).toUInt8,
    ((t.l4 >>> 4) &&& 0xff).toUInt8,
    ((t.l4 >>> 12) &&& 0xff).toUInt8,
    ((t.l4 >>> 20) &&& 0xff).toUInt8,
    ((t.l4 >>> 28) &&& 0xff).toUInt8,
    ((t.l4 >>> 36) &&& 0xff).toUInt8,
    (t.l4 >>> 44).toUInt8]

/-- `FieldElement.SetBytes` (field_radix51.go:258-279). -/
def setBytes (buf : SBytes 32) : FeS :=
  ⟨buf[0].toUInt64 ||| (buf[1].toUInt64 <<< 8) ||| (buf[2].toUInt64 <<< 16) |||
      (buf[3].toUInt64 <<< 24) ||| (buf[4].toUInt64 <<< 32) |||
      (buf[5].toUInt64 <<< 40) ||| ((buf[6] &&& 7).toUInt64 <<< 48),
    (buf[6].toUInt64 >>> 3) ||| (buf[7].toUInt64 <<< 5) |||
      (buf[8].toUInt64 <<< 13) ||| (buf[9].toUInt64 <<< 21) |||
      (buf[10].toUInt64 <<< 29) ||| (buf[11].toUInt64 <<< 37) |||
      ((buf[12] &&& 63).toUInt64 <<< 45),
    (buf[12].toUInt64 >>> 6) ||| (buf[13].toUInt64 <<< 2) |||
      (buf[14].toUInt64 <<< 10) ||| (buf[15].toUInt64 <<< 18) |||
      (buf[16].toUInt64 <<< 26) ||| (buf[17].toUInt64 <<< 34) |||
      (buf[18].toUInt64 <<< 42) ||| ((buf[19] &&& 1).toUInt64 <<< 50),
    (buf[19].toUInt64 >>> 1) ||| (buf[20].toUInt64 <<< 7) |||
      (buf[21].toUInt64 <<< 15) ||| (buf[22].toUInt64 <<< 23) |||
      (buf[23].toUInt64 <<< 31) ||| (buf[24].toUInt64 <<< 39) |||
      ((buf[25] &&& 15).toUInt64 <<< 47),
    (buf[25].toUInt64 >>> 4) ||| (buf[26].toUInt64 <<< 4) |||
      (buf[27].toUInt64 <<< 12) ||| (buf[28].toUInt64 <<< 20) |||
      (buf[29].toUInt64 <<< 28) ||| (buf[30].toUInt64 <<< 36) |||
      ((buf[31] &&& 127).toUInt64 <<< 44)⟩

/-- `FieldElement.Mul` (field_mul64.go:11-129).  Every `ckh, ckl` pair is `(ck.1, ck.2)`. -/
def mul (a b : FeS) : FeS :=
  let a0 := a.l0
  let a1 := a.l1
  let a2 := a.l2
  let a3 := a.l3
  let a4 := a.l4
  let b0 := b.l0
  let b1 := b.l1
  let b2 := b.l2
  let b3 := b.l3
  let b4 := b.l4
  let b1_19 := b1 * 19
  let b2_19 := b2 * 19
  let b3_19 := b3 * 19
  let b4_19 := b4 * 19
  let c0 := mulAcc (mulAcc (mulAcc (mulAcc (bitsMul64 b0 a0) b1_19 a4) b2_19 a3) b3_19 a2) b4_19 a1
  let c1 := mulAcc (mulAcc (mulAcc (mulAcc (bitsMul64 b0 a1) b1 a0) b2_19 a4) b3_19 a3) b4_19 a2
  let c1 := carryAcc c0 c1
  let c0l := c0.2 &&& 0x7ffffffffffff
  let c2 := mulAcc (mulAcc (mulAcc (mulAcc (bitsMul64 b0 a2) b1 a1) b2 a0) b3_19 a4) b4_19 a3
  let c2 := carryAcc c1 c2
  let c1l := c1.2 &&& 0x7ffffffffffff
  let c3 := mulAcc (mulAcc (mulAcc (mulAcc (bitsMul64 b0 a3) b1 a2) b2 a1) b3 a0) b4_19 a4
  let c3 := carryAcc c2 c3
  let c2l := c2.2 &&& 0x7ffffffffffff
  let c4 := mulAcc (mulAcc (mulAcc (mulAcc (bitsMul64 b0 a4) b1 a3) b2 a2) b3 a1) b4 a0
  let c4 := carryAcc c3 c4
  let c3l := c3.2 &&& 0x7ffffffffffff
  let carry := (c4.2 >>> 51) ||| (c4.1 <<< 13)
  let c4l := c4.2 &&& 0x7ffffffffffff
  let c0l := c0l + carry * 19
  let c1l := c1l + (c0l >>> 51)
  let c0l := c0l &&& 0x7ffffffffffff
  ⟨c0l, c1l, c2l, c3l, c4l⟩

/-- `FieldElement.Square` (field_mul64.go:132-211). -/
def square (a : FeS) : FeS :=
  let a0 := a.l0
  let a1 := a.l1
  let a2 := a.l2
  let a3 := a.l3
  let a4 := a.l4
  let a4_38 := a4 * 38
  let c0 := mulAcc (mulAcc (bitsMul64 a0 a0) (a4 * 38) a1) (a2 * 38) a3
  let c1 := mulAcc (mulAcc (bitsMul64 (2 * a0) a1) a2 a4_38) (a3 * 19) a3
  let c1 := carryAcc c0 c1
  let c0l := c0.2 &&& 0x7ffffffffffff
  let c2 := mulAcc (mulAcc (bitsMul64 a0 (2 * a2)) a1 a1) a4_38 a3
  let c2 := carryAcc c1 c2
  let c1l := c1.2 &&& 0x7ffffffffffff
  let c3 := mulAcc (mulAcc (bitsMul64 a0 (2 * a3)) (2 * a1) a2) (a4 * 19) a4
  let c3 := carryAcc c2 c3
  let c2l := c2.2 &&& 0x7ffffffffffff
  let c4 := mulAcc (mulAcc (bitsMul64 a0 (2 * a4)) a2 a2) a3 (2 * a1)
  let c4 := carryAcc c3 c4
  let c3l := c3.2 &&& 0x7ffffffffffff
  let carry := (c4.2 >>> 51) ||| (c4.1 <<< 13)
  let c0l := c0l + carry * 19
  let c4l := c4.2 &&& 0x7ffffffffffff
  let c1l := c1l + (c0l >>> 51)
  let c0l := c0l &&& 0x7ffffffffffff
  ⟨c0l, c1l, c2l, c3l, c4l⟩

/-- `FieldElement.DoubledSquare` (field_mul64.go:214-297). -/
def doubledSquare (a : FeS) : FeS :=
  let a0 := a.l0
  let a1 := a.l1
  let a2 := a.l2
  let a3 := a.l3
  let a4 := a.l4
  let a0_2 := a0 * 2
  let a1_2 := a1 * 2
  let a2_2 := a2 * 2
  let a3_38 := a3 * 38
  let a4_38 := a4 * 38
  let c0 := mulAcc (mulAcc (bitsMul64 a0 a0_2) a4_38 a1_2) a2_2 a3_38
  let c1 := mulAcc (mulAcc (bitsMul64 a0_2 a1_2) a2_2 a4_38) a3_38 a3
  let c1 := carryAcc c0 c1
  let c0l := c0.2 &&& 0x7ffffffffffff
  let c2 := mulAcc (mulAcc (bitsMul64 a0_2 a2_2) a1_2 a1) a4_38 (a3 * 2)
  let c2 := carryAcc c1 c2
  let c1l := c1.2 &&& 0x7ffffffffffff
  let c3 := mulAcc (mulAcc (bitsMul64 a0_2 (2 * a3)) a1_2 a2_2) a4_38 a4
  let c3 := carryAcc c2 c3
  let c2l := c2.2 &&& 0x7ffffffffffff
  let c4 := mulAcc (mulAcc (bitsMul64 a0_2 (2 * a4)) a2_2 a2) (2 * a3) a1_2
  let c4 := carryAcc c3 c4
  let c3l := c3.2 &&& 0x7ffffffffffff
  let carry := (c4.2 >>> 51) ||| (c4.1 <<< 13)
  let c0l := c0l + carry * 19
  let c4l := c4.2 &&& 0x7ffffffffffff
  let c1l := c1l + (c0l >>> 51)
  let c0l := c0l &&& 0x7ffffffffffff
  ⟨c0l, c1l, c2l, c3l, c4l⟩

end FeS

/-! ## The field constants, and the operations without flags and bytes

The functions of `Model/Field.lean`, `Model/Curve.lean` and `Model/Elligator.lean` that use neither flags nor bytes are used
as they are, on this backend. -/

/-- A constant field element. -/
def FeS.const (c : Fe51) : FeS := ⟨.lit c.l0, .lit c.l1, .lit c.l2, .lit c.l3, .lit c.l4⟩

/-- Field elements nobody knows as a backend (field_radix51.go, field_mul64.go).  `condSet` and `setBytes` are for flags and bytes that are
constants of the program, and `bytes`, which would have to know the element, is not available (it returns zeroes): the functions
below use `FeS.condSet`, `FeS.setBytes` and `FeS.bytes` instead. -/
instance : FieldOps FeS where
  feZero := .const FieldOps.feZero
  feOne := .const FieldOps.feOne
  feMinusOne := .const FieldOps.feMinusOne
  feI := .const FieldOps.feI
  feMinusI := .const FieldOps.feMinusI
  feD := .const FieldOps.feD
  fe2D := .const FieldOps.fe2D
  feInvSqrtMinusDMinusOne := .const FieldOps.feInvSqrtMinusDMinusOne
  feDoubleInvSqrtMinusDMinusOne := .const FieldOps.feDoubleInvSqrtMinusDMinusOne
  feDoubleIInvSqrtMinusDMinusOne := .const FieldOps.feDoubleIInvSqrtMinusDMinusOne
  feDMinusOneSquared := .const FieldOps.feDMinusOneSquared
  feOneMinusDSquared := .const FieldOps.feOneMinusDSquared
  feDp1OverDm1 := .const FieldOps.feDp1OverDm1
  feSqrtID := .const FieldOps.feSqrtID
  feInvSqrt1pD := .const FieldOps.feInvSqrt1pD
  epBaseX := .const FieldOps.epBaseX
  epBaseY := .const FieldOps.epBaseY
  epBaseT := .const FieldOps.epBaseT
  add := FeS.add
  sub := FeS.sub
  neg := FeS.neg
  normalize := FeS.normalize
  mul := FeS.mul
  square := FeS.square
  doubledSquare := FeS.doubledSquare
  condSet := fun a b c => FeS.condSet a b (.lit c)
  bytes := fun _ => Vector.replicate 32 0
  touch := id
  setBytes := fun b => FeS.setBytes (b.map .lit)

/-- A backend for field elements nobody knows: the operations of `FieldOps` that need neither flags nor bytes, and those that
do, with expressions for flags and bytes. -/
class SymOps (K : Type) extends FieldOps K where
  /-- `FieldElement.ConditionalSet` -/
  condSetS : K → K → I32 → K
  /-- `FieldElement.BytesInto` -/
  bytesS : K → SBytes 32
  /-- `FieldElement.SetBytes` -/
  setBytesS : SBytes 32 → K
  /-- a field element whose limbs are variables -/
  vars : (Nat → Name) → K

/-- field_radix51.go, field_mul64.go. -/
instance : SymOps FeS where
  condSetS := FeS.condSet
  bytesS := FeS.bytes
  setBytesS := FeS.setBytes
  vars := fun f => ⟨.var _ (f 0), .var _ (f 1), .var _ (f 2), .var _ (f 3), .var _ (f 4)⟩

section
variable {K : Type} [SymOps K]
open SymOps

open FieldOps

/-! ## edwards25519/field.go -/

/-- `FieldElement.IsNegativeI` (field.go:121-125). -/
def isNegativeI (fe : K) : I32 :=
  let buf := bytesS fe
  (buf[0] &&& 1).toUInt32.toInt32

/-- `binary.LittleEndian.Uint64(b[0:8])` (Go standard library). -/
def leUint64 (b0 b1 b2 b3 b4 b5 b6 b7 : U8) : U64 :=
  b0.toUInt64 ||| (b1.toUInt64 <<< 8) ||| (b2.toUInt64 <<< 16) ||| (b3.toUInt64 <<< 24) |||
    (b4.toUInt64 <<< 32) ||| (b5.toUInt64 <<< 40) ||| (b6.toUInt64 <<< 48) |||
    (b7.toUInt64 <<< 56)

/-- `FieldElement.IsNonZeroI` (field.go:128-142). -/
def isNonZeroI (fe : K) : I32 :=
  let buf := bytesS fe
  let ret := leUint64 buf[0] buf[1] buf[2] buf[3] buf[4] buf[5] buf[6] buf[7] |||
    leUint64 buf[8] buf[9] buf[10] buf[11] buf[12] buf[13] buf[14] buf[15] |||
    leUint64 buf[16] buf[17] buf[18] buf[19] buf[20] buf[21] buf[22] buf[23] |||
    leUint64 buf[24] buf[25] buf[26] buf[27] buf[28] buf[29] buf[30] buf[31]
  let ret := ret ||| (ret >>> 32)
  let ret := ret ||| (ret >>> 16)
  let ret := ret ||| (ret >>> 8)
  let ret := ret ||| (ret >>> 4)
  let ret := ret ||| (ret >>> 2)
  let ret := ret ||| (ret >>> 1)
  (ret &&& 1).toUInt32.toInt32

/-- `FieldElement.IsOneI` (field.go:145-148). -/
def isOneI (fe : K) : I32 := 1 - isNonZeroI (sub fe feOne)

/-- `FieldElement.EqualsI` (field.go:151-154). -/
def feEqualsI (fe a : K) : I32 := 1 - isNonZeroI (sub fe a)

/-- `FieldElement.Abs` with distinct receiver and argument (field.go:112-118); returns the value
written to the receiver.  (The argument is left as `touch x`.) -/
def feAbs (x : K) : K :=
  let xNeg := neg x
  condSetS x xNeg (isNegativeI x)

/-- `x.Abs(&x)`, receiver and argument the same variable (field.go:112-118): the argument of
`ConditionalSet` is evaluated first, so the in-place effect of `IsNegativeI` is on the receiver. -/
def feAbsSelf (x : K) : K :=
  let xNeg := neg x
  condSetS (touch x) xNeg (isNegativeI x)

/-- `FieldElement.InvSqrt` (field.go:269-286). -/
def invSqrt (a : K) : K :=
  let den2 := square a
  let den3 := mul den2 a
  let den4 := square den2
  let den6 := mul den2 den4
  let t := mul den6 a
  let t := exp22523 t
  let t := mul t den3
  let t2 := mul t feI
  let chk := square t
  let chk := mul chk a
  condSetS t t2 (1 - isOneI chk)

/-- `FieldElement.Sqrt` (field.go:289-299). -/
def feSqrt (a : K) : K :=
  let fe := invSqrt a
  let fe := mul fe a
  let feNeg := neg fe
  condSetS (touch fe) feNeg (isNegativeI fe)

/-- `FieldElement.InvSqrtI` (field.go:303-335): the value written and the flag returned. -/
def invSqrtI (a : K) : K × I32 :=
  let den2 := square a
  let den3 := mul den2 a
  let den4 := square den2
  let den6 := mul den2 den4
  let t := mul den6 a
  let t := exp22523 t
  let t := mul t den3
  let chk := square t
  let chk := mul chk a
  let inCaseA := isOneI chk
  let inCaseD := feEqualsI chk feI
  let chk := neg chk
  let inCaseB := isOneI chk
  let corr := condSetS feOne feI (inCaseB + inCaseD)
  let t := mul t corr
  (t, inCaseA + inCaseB)

/-- `equal30` (field.go:338-342). -/
def equal30 (b c : I32) : I32 :=
  let x := (b ^^^ c).toUInt32
  let x := x - 1
  (x >>> 31).toInt32

/-- `equal15` (field.go:345-351): the conversions keep the low 16 bits. -/
def equal15 (b c : I32) : I32 :=
  let ub := b.toUInt32.toUInt16
  let uc := c.toUInt32.toUInt16
  let x := (ub ^^^ uc).toUInt32
  let x := x - 1
  (x >>> 31).toInt32

/-- `negative` (field.go:354-356): `>>` on `int32` is an arithmetic shift. -/
def negative (b : I32) : I32 := (b >>> 31) &&& 1

/-! ## edwards25519/curve.go, table.go -/

/-- `ExtendedPoint.ConditionalSet` (curve.go:85-91). -/
def ptCondSet (p q : ExtPt K) (b : I32) : ExtPt K :=
  ⟨condSetS p.X q.X b, condSetS p.Y q.Y b, condSetS p.Z q.Z b,
   condSetS p.T q.T b⟩

/-- `NielsPoint.ConditionalSet` (table.go:27-32). -/
def nielsCondSet (p q : NielsPt K) (b : I32) : NielsPt K :=
  ⟨condSetS p.YPlusX q.YPlusX b, condSetS p.YMinusX q.YMinusX b,
   condSetS p.XY2D q.XY2D b⟩

/-- `subtle.ConstantTimeCompare` on slices of the same length (Go standard library): `v |= x[i] ^ y[i]` for all `i`, then
`int((uint32(v) - 1) >> 31)`. -/
def constantTimeCompare {n : Nat} (x y : SBytes n) : I32 :=
  let v := (List.zip x.toList y.toList).foldl (fun v xy => v ||| (xy.1 ^^^ xy.2)) (0 : U8)
  ((v.toUInt32 - 1) >>> 31).toInt32

/-- `ExtendedPoint.RistrettoEqualsI` (curve.go:419-426). -/
def ristrettoEqualsI (p q : ExtPt K) : I32 :=
  let x1y2 := mul p.X q.Y
  let x2y1 := mul q.X p.Y
  let x1x2 := mul p.X q.X
  let y1y2 := mul p.Y q.Y
  1 - ((1 - feEqualsI x1y2 x2y1) &&& (1 - feEqualsI x1x2 y1y2))

/-- `ExtendedPoint.SetRistretto` (curve.go:224-268): the point written and the value of
`ret`; the Go method returns `ret == 0`. -/
def setRistrettoI (buf : SBytes 32) : ExtPt K × I32 :=
  let s : K := setBytesS buf
  let buf2 := bytesS s
  let s := touch s
  let ret : I32 := 1 - constantTimeCompare buf buf2
  let ret := ret ||| (buf2[0] &&& 1).toUInt32.toInt32
  let s2 := square s
  let yDen := FieldOps.add feOne s2
  let yNum := FieldOps.sub feOne s2
  let yDen2 := square yDen
  let xDen2 := square yNum
  let xDen2 := mul xDen2 feD
  let xDen2 := FieldOps.add xDen2 yDen2
  let xDen2 := FieldOps.neg xDen2
  let t := mul xDen2 yDen2
  let isr := invSqrt t
  let chk := square isr
  let chk := mul chk t
  let ret := ret ||| (1 - isOneI chk)
  let xDenInv := mul isr yDen
  let yDenInv := mul xDenInv isr
  let yDenInv := mul yDenInv xDen2
  let X := mul s xDenInv
  let X := FieldOps.add X X
  let b := isNegativeI X
  let X := touch X
  let t := FieldOps.neg X
  let X := condSetS X t b
  let Y := mul yNum yDenInv
  let Z : K := feOne
  let T := mul X Y
  let ret := ret ||| isNegativeI T
  let T := touch T
  let ret := ret ||| (1 - isNonZeroI Y)
  let Y := touch Y
  (⟨condSetS X feZero ret, condSetS Y feZero ret, condSetS Z feZero ret,
    condSetS T feZero ret⟩, ret)

/-- `ExtendedPoint.RistrettoInto` (curve.go:280-325), and `Ristretto` (curve.go:272-276). -/
def ristretto (p : ExtPt K) : SBytes 32 :=
  let d := FieldOps.add p.Z p.Y
  let u1 := FieldOps.sub p.Z p.Y
  let u1 := mul u1 d
  let u2 := mul p.X p.Y
  let isr := square u2
  let isr := mul isr u1
  let isr := invSqrt isr
  let i1 := mul isr u1
  let i2 := mul isr u2
  let zInv := mul i1 i2
  let zInv := mul zInv p.T
  let d := mul zInv p.T
  let nx := mul p.Y feI
  let ny := mul p.X feI
  let denInv := mul feInvSqrtMinusDMinusOne i1
  let b := 1 - isNegativeI d
  let nx := condSetS nx p.X b
  let ny := condSetS ny p.Y b
  let denInv := condSetS denInv i2 b
  let d := mul nx zInv
  let b := isNegativeI d
  let d := FieldOps.neg ny
  let ny := condSetS ny d b
  let s := FieldOps.sub p.Z ny
  let s := mul s denInv
  let b := isNegativeI s
  let s := touch s
  let d := FieldOps.neg s
  let s := condSetS s d b
  bytesS s

/-- `int8(b)` for a byte `b`. -/
abbrev i8 (b : U8) : I8 := b.toInt8

/-- One round `i` of the first loop of `computeScalarWindow5` (curve.go:330-343): eight digits
from bytes `s[5i..5i+4]`. -/
def window5Chunk (a b c d e : U8) : List I8 :=
  [ i8 (a &&& 31),
    i8 ((a >>> 5) &&& 31) ^^^ i8 ((b <<< 3) &&& 31),
    i8 ((b >>> 2) &&& 31),
    i8 ((b >>> 7) &&& 31) ^^^ i8 ((c <<< 1) &&& 31),
    i8 ((c >>> 4) &&& 31) ^^^ i8 ((d <<< 4) &&& 31),
    i8 ((d >>> 1) &&& 31),
    i8 ((d >>> 6) &&& 31) ^^^ i8 ((e <<< 2) &&& 31),
    i8 ((e >>> 3) &&& 31) ]

/-- The unsigned digits `computeScalarWindow5` starts from (curve.go:329-347). -/
def window5Raw (s : SBytes 32) : List I8 :=
  window5Chunk s[0] s[1] s[2] s[3] s[4] ++
  window5Chunk s[5] s[6] s[7] s[8] s[9] ++
  window5Chunk s[10] s[11] s[12] s[13] s[14] ++
  window5Chunk s[15] s[16] s[17] s[18] s[19] ++
  window5Chunk s[20] s[21] s[22] s[23] s[24] ++
  window5Chunk s[25] s[26] s[27] s[28] s[29] ++
  [ i8 (s[30] &&& 31),
    i8 ((s[30] >>> 5) &&& 31) ^^^ i8 ((s[31] <<< 3) &&& 31),
    i8 ((s[31] >>> 2) &&& 31) ]

/-- "Making it signed" (curve.go:349-357): the loop over `w[0..49]` and the final `w[50] += carry`.
`a` is the current value of `w[i]` and the list holds `w[i+1..50]`. -/
def window5Sign : I8 → I8 → List I8 → List I8
  | carry, a, [] => [a + carry]
  | carry, a, b :: rest =>
    let a := a + carry
    let b := b + (a >>> 5)
    let a := a &&& 31
    let carry := a >>> 4
    let a := a - (carry <<< 5)
    a :: window5Sign carry b rest

/-- `computeScalarWindow5` (curve.go:328-358). -/
def computeScalarWindow5 (s : SBytes 32) : List I8 :=
  match window5Raw s with
  | [] => []
  | a :: rest => window5Sign 0 a rest

/-- The selection loop `for j := 1; j <= 16; j++` (curve.go:392-395); `rest` is `lut[j..16]`. -/
def scalarMultSelectLoop (b : I32) : I32 → List (ExtPt K) → ExtPt K → ExtPt K
  | _, [], t => t
  | j, e :: rest, t =>
    let c := equal15 b (-j) ||| equal15 b j
    scalarMultSelectLoop b (j + 1) rest (ptCondSet t e c)

/-- Select `lut[|b|]` with the sign of `b` (curve.go:390-401). -/
def scalarMultSelect (lut : List (ExtPt K)) (b : I32) : ExtPt K :=
  let t := scalarMultSelectLoop b 1 lut.tail (lut.headD ExtPt.zero)
  let c := negative b
  let v := neg t.X
  let X := condSetS t.X v c
  let v := neg t.T
  let T := condSetS t.T v c
  ⟨X, t.Y, t.Z, T⟩

/-- One iteration of the main loop of `ScalarMult` (curve.go:380-403) with digit `w`. -/
def scalarMultStep (lut : List (ExtPt K)) (p : ExtPt K) (w : I8) : ExtPt K :=
  let cp := ComplPt.doubleExtended p
  let cp := ComplPt.doubleProjective cp.toProjective
  let cp := ComplPt.doubleProjective cp.toProjective
  let cp := ComplPt.doubleProjective cp.toProjective
  let cp := ComplPt.doubleProjective cp.toProjective
  let p := cp.toExtended
  ExtPt.add p (scalarMultSelect lut w.toInt32)

/-- `ExtendedPoint.ScalarMult` (curve.go:361-406). -/
def scalarMult (q : ExtPt K) (s : SBytes 32) : ExtPt K :=
  let window := computeScalarWindow5 s
  let lut := scalarMultLut q
  window.reverse.foldl (scalarMultStep lut) ExtPt.zero

/-- The first loop of `computeScalarWindow4` (table.go:117-120). -/
def window4Raw (s : SBytes 32) : List I8 :=
  s.toList.flatMap fun b => [i8 (b &&& 15), i8 ((b >>> 4) &&& 15)]

/-- The second loop of `computeScalarWindow4` (table.go:121-127).
`a` is the current value of `w[i]` and the list holds `w[i+1..63]`. -/
def window4Sign : I8 → I8 → List I8 → List I8
  | carry, a, [] => [a + carry]
  | carry, a, b :: rest =>
    let a := a + carry
    let carry := (a + 8) >>> 4
    let a := a - (carry <<< 4)
    a :: window4Sign carry b rest

/-- `computeScalarWindow4` (table.go:116-128). -/
def computeScalarWindow4 (s : SBytes 32) : List I8 :=
  match window4Raw s with
  | [] => []
  | a :: rest => window4Sign 0 a rest

/-- The loop of `selectPoint` (table.go:199-201). -/
def selectLoop (bAbs : I32) : I32 → List (NielsPt K) → NielsPt K → NielsPt K
  | _, [], p => p
  | i, e :: rest, p => selectLoop bAbs (i + 1) rest (nielsCondSet p e (equal30 bAbs (i + 1)))

/-- `ScalarMultTable.selectPoint` on row `t[pos]` (table.go:195-205). -/
def selectPoint (row : List (NielsPt K)) (b : I32) : NielsPt K :=
  let bNegative := negative b
  let bAbs := b - (((-bNegative) &&& b) <<< 1)
  let p := selectLoop bAbs 0 row NielsPt.zero
  let negP := p.neg
  nielsCondSet p negP bNegative

/-- One of the two addition loops of `ScalarMultTable.ScalarMult` (table.go:140-144,155-159). -/
def tableAddLoop : List (List (NielsPt K)) → List I8 → ExtPt K → ExtPt K
  | row :: rows, w :: ws, p =>
    tableAddLoop rows ws (ComplPt.addExtendedNiels p (selectPoint row w.toInt32)).toExtended
  | _, _, p => p

/-- `ScalarMultTable.ScalarMult` (table.go:131-160). -/
def tableScalarMult (t : Table K) (s : SBytes 32) : ExtPt K :=
  let w := computeScalarWindow4 s
  let p := tableAddLoop t (odds w) ExtPt.zero
  let p := double4 p
  tableAddLoop t (evens w) p

/-! ## edwards25519/elligator.go -/

/-- `ExtendedPoint.ToJacobiQuarticRistretto` (elligator.go:57-135): the four points written.
(`IsNonZeroI` on `p.X` and `p.Y` also replaces them by `touch` of themselves.) -/
def toJacobiQuarticRistretto (p : ExtPt K) : JacPt K × JacPt K × JacPt K × JacPt K :=
  let X2 := square p.X
  let Y2 := square p.Y
  let Y4 := square Y2
  let Z2 := square p.Z
  let ZmY := sub p.Z p.Y
  let ZpY := add p.Z p.Y
  let Z2mY2 := sub Z2 Y2
  let gamma := mul Y4 X2
  let gamma := mul gamma Z2mY2
  let gamma := invSqrt gamma
  let den := mul gamma Y2
  let sOverX := mul den ZmY
  let spOverXp := mul den ZpY
  let s0 := mul sOverX p.X
  let tmp := mul spOverXp p.X
  let s1 := neg tmp
  let tmp := mul feDoubleInvSqrtMinusDMinusOne p.Z
  let t0 := mul tmp sOverX
  let t1 := mul tmp spOverXp
  let den := neg Z2mY2
  let den := mul den feInvSqrt1pD
  let den := mul den gamma
  let iZ := mul feI p.Z
  let iZmX := sub iZ p.X
  let iZpX := add iZ p.X
  let sOverY := mul den iZmX
  let spOverYp := mul den iZpX
  let s2 := mul sOverY p.Y
  let tmp := mul spOverYp p.Y
  let s3 := neg tmp
  let tmp := mul feDoubleInvSqrtMinusDMinusOne iZ
  let t2 := mul tmp sOverY
  let t3 := mul tmp spOverYp
  let XorYisZero := 1 - (isNonZeroI p.X &&& isNonZeroI p.Y)
  let t0 := condSetS t0 feOne XorYisZero
  let t1 := condSetS t1 feOne XorYisZero
  let t2 := condSetS t2 feDoubleIInvSqrtMinusDMinusOne XorYisZero
  let t3 := condSetS t3 feDoubleIInvSqrtMinusDMinusOne XorYisZero
  let s2 := condSetS s2 feOne XorYisZero
  let s3 := condSetS s3 feMinusOne XorYisZero
  (⟨s0, t0⟩, ⟨s1, t1⟩, ⟨s2, t2⟩, ⟨s3, t3⟩)

/-- `JacobiPoint.elligator2Inverse` (elligator.go:151-192): the field element written and the
value returned (an `int` that is 0 or 1). -/
def elligator2Inverse (p : JacPt K) : K × I32 :=
  let sNonZero := isNonZeroI p.S
  let pS := touch p.S
  let tEqualsOne := feEqualsI p.T feOne
  let out : K := feZero
  let out := condSetS out feSqrtID tEqualsOne
  let ret := 1 - sNonZero
  let done := 1 - sNonZero
  let a := add p.T feOne
  let a := mul a feDp1OverDm1
  let a2 := square a
  let S2 := square pS
  let S4 := square S2
  let invSqiY := sub S4 a2
  let r := invSqrtI invSqiY
  let y := r.1
  let sq := r.2
  let ret := ret ||| (1 - sq)
  let done := done ||| sq
  let negS2 := neg S2
  let S2 := condSetS S2 negS2 (isNegativeI pS)
  let x := add a S2
  let x := mul x y
  let x := feAbsSelf x
  let out := condSetS out x (1 - done)
  (out, ret)

/-- `ExtendedPoint.RistrettoElligator2Inverse` (elligator.go:17-50): the eight entries of `fes`,
each with its bit of the mask. -/
def ristrettoElligator2Inverse (p : ExtPt K) : List (K × I32) :=
  let jcs := toJacobiQuarticRistretto p
  [jcs.1, jcs.2.1, jcs.2.2.1, jcs.2.2.2].flatMap fun j =>
    [elligator2Inverse j, elligator2Inverse (elligator2InverseRecv j).dual]

/-- The point on the Jacobi quartic computed by `SetRistrettoElligator2` (elligator.go:216-264). -/
def elligator2Jacobi (r0 : K) : JacPt K :=
  let r0i := mul r0 feI
  let r := mul r0 r0i
  let rPlusD := add feD r
  let D := mul feD r
  let D := add D feOne
  let D := mul D rPlusD
  let D := neg D
  let rPlusOne := add r feOne
  let N := mul feOneMinusDSquared rPlusOne
  let ND := mul N D
  let rb := invSqrtI ND
  let sqrt := rb.1
  let b := rb.2
  let sqrt := feAbsSelf sqrt
  let twiddle : K := feOne
  let twiddle := condSetS twiddle r0i (1 - b)
  let sgn : K := feOne
  let sgn := condSetS sgn feMinusOne (1 - b)
  let sqrt := mul sqrt twiddle
  let S := mul sqrt N
  let T := neg sgn
  let T := mul sqrt T
  let T := mul S T
  let T := mul feDMinusOneSquared T
  let rSubOne := sub r feOne
  let T := mul rSubOne T
  let T := sub T feOne
  let sNeg := neg S
  let S := condSetS (touch S) sNeg (equal30 (isNegativeI S) b)
  ⟨S, T⟩

/-- `CompletedPoint.SetRistrettoElligator2` (elligator.go:216-266). -/
def setRistrettoElligator2 (r0 : K) : ComplPt K := setJacobiQuartic (elligator2Jacobi r0)

end

/-! ## scalar.go -/

/-- A scalar nobody knows. -/
abbrev SScalar := Vector U32 8

/-- The constant `scZero` (scalar.go:23). -/
def scZero : SScalar := Model.scZero.map .lit
/-- The constant `scL` (scalar.go:27-30). -/
def scL : SScalar := Model.scL.map .lit

namespace Sc
open Model.Scalar (RedOp InvOp setReg reduceHead reduceTail invProg)

/-- `Scalar.BytesInto` / `Scalar.Bytes` / `Scalar.MarshalBinary` (scalar.go:34-75,1052-1056). -/
def bytes (s : SScalar) : SBytes 32 :=
  #v[s[0].toUInt8, (s[0] >>> 8).toUInt8, (s[0] >>> 16).toUInt8, (s[0] >>> 24).toUInt8,
     s[1].toUInt8, (s[1] >>> 8).toUInt8, (s[1] >>> 16).toUInt8, (s[1] >>> 24).toUInt8,
     s[2].toUInt8, (s[2] >>> 8).toUInt8, (s[2] >>> 16).toUInt8, (s[2] >>> 24).toUInt8,
     s[3].toUInt8, (s[3] >>> 8).toUInt8, (s[3] >>> 16).toUInt8, (s[3] >>> 24).toUInt8,
     s[4].toUInt8, (s[4] >>> 8).toUInt8, (s[4] >>> 16).toUInt8, (s[4] >>> 24).toUInt8,
     s[5].toUInt8, (s[5] >>> 8).toUInt8, (s[5] >>> 16).toUInt8, (s[5] >>> 24).toUInt8,
     s[6].toUInt8, (s[6] >>> 8).toUInt8, (s[6] >>> 16).toUInt8, (s[6] >>> 24).toUInt8,
     s[7].toUInt8, (s[7] >>> 8).toUInt8, (s[7] >>> 16).toUInt8, (s[7] >>> 24).toUInt8]

/-- `load4u32` (scalar.go:1106-1109). -/
def load4u32 (b0 b1 b2 b3 : U8) : U32 :=
  b0.toUInt32 ||| (b1.toUInt32 <<< 8) ||| (b2.toUInt32 <<< 16) ||| (b3.toUInt32 <<< 24)

/-- One step of the borrow chain of `Sub`: `uint64(a[i]) - uint64(b[i]) - (borrow >> 63)`
(scalar.go:144-158; the first step has no borrow, modelled by a zero one). -/
def subStep (a b : U32) (borrow : U64) : U64 := a.toUInt64 - b.toUInt64 - (borrow >>> 63)

/-- One step of the carry chain of `Sub`: `uint64(si) + (carry >> 32) + (ufMask & li)`
(scalar.go:163-178; the first step has no carry, modelled by a zero one; words 4 to 6 have no `li`,
modelled by zero). -/
def addBackStep (x : U32) (carry mask li : U64) : U64 :=
  x.toUInt64 + (carry >>> 32) + (mask &&& li)

/-- `Scalar.Sub` (scalar.go:143-190). -/
def sub (a b : SScalar) : SScalar :=
  let w0 := subStep a[0] b[0] 0
  let w1 := subStep a[1] b[1] w0
  let w2 := subStep a[2] b[2] w1
  let w3 := subStep a[3] b[3] w2
  let w4 := subStep a[4] b[4] w3
  let w5 := subStep a[5] b[5] w4
  let w6 := subStep a[6] b[6] w5
  let w7 := subStep a[7] b[7] w6
  let ufMask := ((w7 >>> 63) ^^^ 1) - 1
  let c0 := addBackStep w0.toUInt32 0 ufMask 0x5CF5D3ED
  let c1 := addBackStep w1.toUInt32 c0 ufMask 0x5812631A
  let c2 := addBackStep w2.toUInt32 c1 ufMask 0xA2F79CD6
  let c3 := addBackStep w3.toUInt32 c2 ufMask 0x14DEF9DE
  let c4 := addBackStep w4.toUInt32 c3 ufMask 0
  let c5 := addBackStep w5.toUInt32 c4 ufMask 0
  let c6 := addBackStep w6.toUInt32 c5 ufMask 0
  let c7 := addBackStep w7.toUInt32 c6 ufMask 0x10000000
  #v[c0.toUInt32, c1.toUInt32, c2.toUInt32, c3.toUInt32, c4.toUInt32, c5.toUInt32, c6.toUInt32,
     c7.toUInt32]

/-- One step of the carry chain of `Add`: `uint64(a[i]) + uint64(b[i]) + (carry >> 32)`
(scalar.go:123-137; the first step has no carry, modelled by a zero one). -/
def addStep (a b : U32) (carry : U64) : U64 := a.toUInt64 + b.toUInt64 + (carry >>> 32)

/-- The carry chain of `Add` (scalar.go:123-138). -/
def addRaw (a b : SScalar) : SScalar :=
  let c0 := addStep a[0] b[0] 0
  let c1 := addStep a[1] b[1] c0
  let c2 := addStep a[2] b[2] c1
  let c3 := addStep a[3] b[3] c2
  let c4 := addStep a[4] b[4] c3
  let c5 := addStep a[5] b[5] c4
  let c6 := addStep a[6] b[6] c5
  let c7 := addStep a[7] b[7] c6
  #v[c0.toUInt32, c1.toUInt32, c2.toUInt32, c3.toUInt32, c4.toUInt32, c5.toUInt32, c6.toUInt32,
     c7.toUInt32]

/-- `Scalar.Add` (scalar.go:122-140). -/
def add (a b : SScalar) : SScalar := sub (addRaw a b) scL

/-- `Scalar.Neg` (scalar.go:117-119). -/
def neg (a : SScalar) : SScalar := sub scZero a

/-- The eight words of a byte string (scalar.go:96-103; also lines 80-86). -/
def words (x : SBytes 32) : SScalar :=
  #v[load4u32 x[0] x[1] x[2] x[3], load4u32 x[4] x[5] x[6] x[7],
     load4u32 x[8] x[9] x[10] x[11], load4u32 x[12] x[13] x[14] x[15],
     load4u32 x[16] x[17] x[18] x[19], load4u32 x[20] x[21] x[22] x[23],
     load4u32 x[24] x[25] x[26] x[27], load4u32 x[28] x[29] x[30] x[31]]

/-- `Scalar.SetBytes` (scalar.go:79-89). -/
def setBytes (x : SBytes 32) : SScalar :=
  let w := words x
  sub #v[w[0], w[1], w[2], w[3], w[4], w[5], w[6], w[7] &&& 0x1fffffff] scL

/-- The 24 local variables `s0 ... s23` of `reduceAfterMul` (or `t0 ... t23` of `SetReduced`). -/
abbrev Limbs := Nat → I64

/-- Assignment to one of the variables. -/
def Limbs.set (s : Limbs) (i : Nat) (v : I64) : Limbs := fun k => if k = i then v else s k

/-- The variables initialised from an argument list; the others are zero (scalar.go:1116). -/
def Limbs.ofList (l : List I64) : Limbs := fun i => l.getD i 0

/-- Execution of one statement group (the statements are quoted at `RedOp`). -/
def redExec : RedOp → Limbs → Limbs
  | .carryR i, s =>
    let c := (s i + ((1 : I64) <<< 20)) >>> 21
    let s := Limbs.set s (i + 1) (s (i + 1) + c)
    Limbs.set s i (s i - (c <<< 21))
  | .carryF i, s =>
    let c := s i >>> 21
    let s := Limbs.set s (i + 1) (s (i + 1) + c)
    Limbs.set s i (s i - (c <<< 21))
  | .fold j, s =>
    let s := Limbs.set s (j - 12) (s (j - 12) + s j * 666643)
    let s := Limbs.set s (j - 11) (s (j - 11) + s j * 470296)
    let s := Limbs.set s (j - 10) (s (j - 10) + s j * 654183)
    let s := Limbs.set s (j - 9) (s (j - 9) - s j * 997805)
    let s := Limbs.set s (j - 8) (s (j - 8) + s j * 136657)
    let s := Limbs.set s (j - 7) (s (j - 7) - s j * 683901)
    Limbs.set s j 0

/-- Execution of a sequence of statement groups. -/
def execAll (ops : List RedOp) (s : Limbs) : Limbs := ops.foldl (fun s o => redExec o s) s

/-- Go's `uint32(x)` for `x int64`. -/
def u32 (x : I64) : U32 := x.toUInt64.toUInt32

/-- The final packing (scalar.go:1446-1453 and 690-697). -/
def pack (s : Limbs) : SScalar :=
  #v[u32 (s 0) ||| u32 (s 1 <<< 21),
     u32 (s 1 >>> 11) ||| u32 (s 2 <<< 10) ||| u32 (s 3 <<< 31),
     u32 (s 3 >>> 1) ||| u32 (s 4 <<< 20),
     u32 (s 4 >>> 12) ||| u32 (s 5 <<< 9) ||| u32 (s 6 <<< 30),
     u32 (s 6 >>> 2) ||| u32 (s 7 <<< 19),
     u32 (s 7 >>> 13) ||| u32 (s 8 <<< 8) ||| u32 (s 9 <<< 29),
     u32 (s 9 >>> 3) ||| u32 (s 10 <<< 18),
     u32 (s 10 >>> 14) ||| u32 (s 11 <<< 7)]

/-- `Scalar.reduceAfterMul` (scalar.go:1113-1455) on its 23 arguments. -/
def reduceAfterMul (args : List I64) : SScalar :=
  pack (execAll reduceTail (execAll reduceHead (Limbs.ofList args)))

/-- `int64(x)` for `x uint32`. -/
def i64 (x : U32) : I64 := x.toUInt64.toInt64

/-- The 21-bit pieces `a0 ... a11` of a scalar (scalar.go:754-765; the same twelve statements open
`Square`, `MulAdd` and `MulSub` and treat `b` and `c` likewise). -/
def unpack (a : SScalar) : Nat → I64
  | 0 => i64 (a[0] &&& 0x1fffff)
  | 1 => i64 (((a[0] >>> 21) ||| (a[1] <<< 11)) &&& 0x1fffff)
  | 2 => i64 ((a[1] >>> 10) &&& 0x1fffff)
  | 3 => i64 (((a[1] >>> 31) ||| (a[2] <<< 1)) &&& 0x1fffff)
  | 4 => i64 (((a[2] >>> 20) ||| (a[3] <<< 12)) &&& 0x1fffff)
  | 5 => i64 ((a[3] >>> 9) &&& 0x1fffff)
  | 6 => i64 (((a[3] >>> 30) ||| (a[4] <<< 2)) &&& 0x1fffff)
  | 7 => i64 (((a[4] >>> 19) ||| (a[5] <<< 13)) &&& 0x1fffff)
  | 8 => i64 ((a[5] >>> 8) &&& 0x1fffff)
  | 9 => i64 (((a[5] >>> 29) ||| (a[6] <<< 3)) &&& 0x1fffff)
  | 10 => i64 (((a[6] >>> 18) ||| (a[7] <<< 14)) &&& 0x1fffff)
  | 11 => i64 (a[7] >>> 7)
  | _ => 0

/-- The arguments `Mul` passes to `reduceAfterMul` (scalar.go:780-803). -/
def mulArgs (a b : Nat → I64) : List I64 :=
  [a 0 * b 0,
   a 0 * b 1 + a 1 * b 0,
   a 0 * b 2 + a 1 * b 1 + a 2 * b 0,
   a 0 * b 3 + a 1 * b 2 + a 2 * b 1 + a 3 * b 0,
   a 0 * b 4 + a 1 * b 3 + a 2 * b 2 + a 3 * b 1 + a 4 * b 0,
   a 0 * b 5 + a 1 * b 4 + a 2 * b 3 + a 3 * b 2 + a 4 * b 1 + a 5 * b 0,
   a 0 * b 6 + a 1 * b 5 + a 2 * b 4 + a 3 * b 3 + a 4 * b 2 + a 5 * b 1 + a 6 * b 0,
   a 0 * b 7 + a 1 * b 6 + a 2 * b 5 + a 3 * b 4 + a 4 * b 3 + a 5 * b 2 + a 6 * b 1 + a 7 * b 0,
   a 0 * b 8 + a 1 * b 7 + a 2 * b 6 + a 3 * b 5 + a 4 * b 4 + a 5 * b 3 + a 6 * b 2 + a 7 * b 1 + a 8 * b 0,
   a 0 * b 9 + a 1 * b 8 + a 2 * b 7 + a 3 * b 6 + a 4 * b 5 + a 5 * b 4 + a 6 * b 3 + a 7 * b 2 + a 8 * b 1 + a 9 * b 0,
   a 0 * b 10 + a 1 * b 9 + a 2 * b 8 + a 3 * b 7 + a 4 * b 6 + a 5 * b 5 + a 6 * b 4 + a 7 * b 3 + a 8 * b 2 + a 9 * b 1 + a 10 * b 0,
   a 0 * b 11 + a 1 * b 10 + a 2 * b 9 + a 3 * b 8 + a 4 * b 7 + a 5 * b 6 + a 6 * b 5 + a 7 * b 4 + a 8 * b 3 + a 9 * b 2 + a 10 * b 1 + a 11 * b 0,
   a 1 * b 11 + a 2 * b 10 + a 3 * b 9 + a 4 * b 8 + a 5 * b 7 + a 6 * b 6 + a 7 * b 5 + a 8 * b 4 + a 9 * b 3 + a 10 * b 2 + a 11 * b 1,
   a 2 * b 11 + a 3 * b 10 + a 4 * b 9 + a 5 * b 8 + a 6 * b 7 + a 7 * b 6 + a 8 * b 5 + a 9 * b 4 + a 10 * b 3 + a 11 * b 2,
   a 3 * b 11 + a 4 * b 10 + a 5 * b 9 + a 6 * b 8 + a 7 * b 7 + a 8 * b 6 + a 9 * b 5 + a 10 * b 4 + a 11 * b 3,
   a 4 * b 11 + a 5 * b 10 + a 6 * b 9 + a 7 * b 8 + a 8 * b 7 + a 9 * b 6 + a 10 * b 5 + a 11 * b 4,
   a 5 * b 11 + a 6 * b 10 + a 7 * b 9 + a 8 * b 8 + a 9 * b 7 + a 10 * b 6 + a 11 * b 5,
   a 6 * b 11 + a 7 * b 10 + a 8 * b 9 + a 9 * b 8 + a 10 * b 7 + a 11 * b 6,
   a 7 * b 11 + a 8 * b 10 + a 9 * b 9 + a 10 * b 8 + a 11 * b 7,
   a 8 * b 11 + a 9 * b 10 + a 10 * b 9 + a 11 * b 8,
   a 9 * b 11 + a 10 * b 10 + a 11 * b 9,
   a 10 * b 11 + a 11 * b 10,
   a 11 * b 11]

/-- The arguments `Square` passes to `reduceAfterMul` (scalar.go:726-749). -/
def squareArgs (a : Nat → I64) : List I64 :=
  [a 0 * a 0,
   2 * a 0 * a 1,
   2 * a 0 * a 2 + a 1 * a 1,
   2 * (a 0 * a 3 + a 1 * a 2),
   2 * (a 0 * a 4 + a 1 * a 3) + a 2 * a 2,
   2 * (a 0 * a 5 + a 1 * a 4 + a 2 * a 3),
   2 * (a 0 * a 6 + a 1 * a 5 + a 2 * a 4) + a 3 * a 3,
   2 * (a 0 * a 7 + a 1 * a 6 + a 2 * a 5 + a 3 * a 4),
   2 * (a 0 * a 8 + a 1 * a 7 + a 2 * a 6 + a 3 * a 5) + a 4 * a 4,
   2 * (a 0 * a 9 + a 1 * a 8 + a 2 * a 7 + a 3 * a 6 + a 4 * a 5),
   2 * (a 0 * a 10 + a 1 * a 9 + a 2 * a 8 + a 3 * a 7 + a 4 * a 6) + a 5 * a 5,
   2 * (a 0 * a 11 + a 1 * a 10 + a 2 * a 9 + a 3 * a 8 + a 4 * a 7 + a 5 * a 6),
   2 * (a 1 * a 11 + a 2 * a 10 + a 3 * a 9 + a 4 * a 8 + a 5 * a 7) + a 6 * a 6,
   2 * (a 2 * a 11 + a 3 * a 10 + a 4 * a 9 + a 5 * a 8 + a 6 * a 7),
   2 * (a 3 * a 11 + a 4 * a 10 + a 5 * a 9 + a 6 * a 8) + a 7 * a 7,
   2 * (a 4 * a 11 + a 5 * a 10 + a 6 * a 9 + a 7 * a 8),
   2 * (a 5 * a 11 + a 6 * a 10 + a 7 * a 9) + a 8 * a 8,
   2 * (a 6 * a 11 + a 7 * a 10 + a 8 * a 9),
   2 * (a 7 * a 11 + a 8 * a 10) + a 9 * a 9,
   2 * (a 8 * a 11 + a 9 * a 10),
   2 * a 9 * a 11 + a 10 * a 10,
   2 * a 10 * a 11,
   a 11 * a 11]

/-- The arguments `MulAdd` passes to `reduceAfterMul` (scalar.go:353-376). -/
def mulAddArgs (a b c : Nat → I64) : List I64 :=
  [c 0 + a 0 * b 0,
   c 1 + a 0 * b 1 + a 1 * b 0,
   c 2 + a 0 * b 2 + a 1 * b 1 + a 2 * b 0,
   c 3 + a 0 * b 3 + a 1 * b 2 + a 2 * b 1 + a 3 * b 0,
   c 4 + a 0 * b 4 + a 1 * b 3 + a 2 * b 2 + a 3 * b 1 + a 4 * b 0,
   c 5 + a 0 * b 5 + a 1 * b 4 + a 2 * b 3 + a 3 * b 2 + a 4 * b 1 + a 5 * b 0,
   c 6 + a 0 * b 6 + a 1 * b 5 + a 2 * b 4 + a 3 * b 3 + a 4 * b 2 + a 5 * b 1 + a 6 * b 0,
   c 7 + a 0 * b 7 + a 1 * b 6 + a 2 * b 5 + a 3 * b 4 + a 4 * b 3 + a 5 * b 2 + a 6 * b 1 + a 7 * b 0,
   c 8 + a 0 * b 8 + a 1 * b 7 + a 2 * b 6 + a 3 * b 5 + a 4 * b 4 + a 5 * b 3 + a 6 * b 2 + a 7 * b 1 + a 8 * b 0,
   c 9 + a 0 * b 9 + a 1 * b 8 + a 2 * b 7 + a 3 * b 6 + a 4 * b 5 + a 5 * b 4 + a 6 * b 3 + a 7 * b 2 + a 8 * b 1 + a 9 * b 0,
   c 10 + a 0 * b 10 + a 1 * b 9 + a 2 * b 8 + a 3 * b 7 + a 4 * b 6 + a 5 * b 5 + a 6 * b 4 + a 7 * b 3 + a 8 * b 2 + a 9 * b 1 + a 10 * b 0,
   c 11 + a 0 * b 11 + a 1 * b 10 + a 2 * b 9 + a 3 * b 8 + a 4 * b 7 + a 5 * b 6 + a 6 * b 5 + a 7 * b 4 + a 8 * b 3 + a 9 * b 2 + a 10 * b 1 + a 11 * b 0,
   a 1 * b 11 + a 2 * b 10 + a 3 * b 9 + a 4 * b 8 + a 5 * b 7 + a 6 * b 6 + a 7 * b 5 + a 8 * b 4 + a 9 * b 3 + a 10 * b 2 + a 11 * b 1,
   a 2 * b 11 + a 3 * b 10 + a 4 * b 9 + a 5 * b 8 + a 6 * b 7 + a 7 * b 6 + a 8 * b 5 + a 9 * b 4 + a 10 * b 3 + a 11 * b 2,
   a 3 * b 11 + a 4 * b 10 + a 5 * b 9 + a 6 * b 8 + a 7 * b 7 + a 8 * b 6 + a 9 * b 5 + a 10 * b 4 + a 11 * b 3,
   a 4 * b 11 + a 5 * b 10 + a 6 * b 9 + a 7 * b 8 + a 8 * b 7 + a 9 * b 6 + a 10 * b 5 + a 11 * b 4,
   a 5 * b 11 + a 6 * b 10 + a 7 * b 9 + a 8 * b 8 + a 9 * b 7 + a 10 * b 6 + a 11 * b 5,
   a 6 * b 11 + a 7 * b 10 + a 8 * b 9 + a 9 * b 8 + a 10 * b 7 + a 11 * b 6,
   a 7 * b 11 + a 8 * b 10 + a 9 * b 9 + a 10 * b 8 + a 11 * b 7,
   a 8 * b 11 + a 9 * b 10 + a 10 * b 9 + a 11 * b 8,
   a 9 * b 11 + a 10 * b 10 + a 11 * b 9,
   a 10 * b 11 + a 11 * b 10,
   a 11 * b 11]

/-- The arguments `MulSub` passes to `reduceAfterMul` (scalar.go:286-309). -/
def mulSubArgs (a b c : Nat → I64) : List I64 :=
  [-c 0 + a 0 * b 0,
   -c 1 + a 0 * b 1 + a 1 * b 0,
   -c 2 + a 0 * b 2 + a 1 * b 1 + a 2 * b 0,
   -c 3 + a 0 * b 3 + a 1 * b 2 + a 2 * b 1 + a 3 * b 0,
   -c 4 + a 0 * b 4 + a 1 * b 3 + a 2 * b 2 + a 3 * b 1 + a 4 * b 0,
   -c 5 + a 0 * b 5 + a 1 * b 4 + a 2 * b 3 + a 3 * b 2 + a 4 * b 1 + a 5 * b 0,
   -c 6 + a 0 * b 6 + a 1 * b 5 + a 2 * b 4 + a 3 * b 3 + a 4 * b 2 + a 5 * b 1 + a 6 * b 0,
   -c 7 + a 0 * b 7 + a 1 * b 6 + a 2 * b 5 + a 3 * b 4 + a 4 * b 3 + a 5 * b 2 + a 6 * b 1 + a 7 * b 0,
   -c 8 + a 0 * b 8 + a 1 * b 7 + a 2 * b 6 + a 3 * b 5 + a 4 * b 4 + a 5 * b 3 + a 6 * b 2 + a 7 * b 1 + a 8 * b 0,
   -c 9 + a 0 * b 9 + a 1 * b 8 + a 2 * b 7 + a 3 * b 6 + a 4 * b 5 + a 5 * b 4 + a 6 * b 3 + a 7 * b 2 + a 8 * b 1 + a 9 * b 0,
   -c 10 + a 0 * b 10 + a 1 * b 9 + a 2 * b 8 + a 3 * b 7 + a 4 * b 6 + a 5 * b 5 + a 6 * b 4 + a 7 * b 3 + a 8 * b 2 + a 9 * b 1 + a 10 * b 0,
   -c 11 + a 0 * b 11 + a 1 * b 10 + a 2 * b 9 + a 3 * b 8 + a 4 * b 7 + a 5 * b 6 + a 6 * b 5 + a 7 * b 4 + a 8 * b 3 + a 9 * b 2 + a 10 * b 1 + a 11 * b 0,
   a 1 * b 11 + a 2 * b 10 + a 3 * b 9 + a 4 * b 8 + a 5 * b 7 + a 6 * b 6 + a 7 * b 5 + a 8 * b 4 + a 9 * b 3 + a 10 * b 2 + a 11 * b 1,
   a 2 * b 11 + a 3 * b 10 + a 4 * b 9 + a 5 * b 8 + a 6 * b 7 + a 7 * b 6 + a 8 * b 5 + a 9 * b 4 + a 10 * b 3 + a 11 * b 2,
   a 3 * b 11 + a 4 * b 10 + a 5 * b 9 + a 6 * b 8 + a 7 * b 7 + a 8 * b 6 + a 9 * b 5 + a 10 * b 4 + a 11 * b 3,
   a 4 * b 11 + a 5 * b 10 + a 6 * b 9 + a 7 * b 8 + a 8 * b 7 + a 9 * b 6 + a 10 * b 5 + a 11 * b 4,
   a 5 * b 11 + a 6 * b 10 + a 7 * b 9 + a 8 * b 8 + a 9 * b 7 + a 10 * b 6 + a 11 * b 5,
   a 6 * b 11 + a 7 * b 10 + a 8 * b 9 + a 9 * b 8 + a 10 * b 7 + a 11 * b 6,
   a 7 * b 11 + a 8 * b 10 + a 9 * b 9 + a 10 * b 8 + a 11 * b 7,
   a 8 * b 11 + a 9 * b 10 + a 10 * b 9 + a 11 * b 8,
   a 9 * b 11 + a 10 * b 10 + a 11 * b 9,
   a 10 * b 11 + a 11 * b 10,
   a 11 * b 11]

/-- `Scalar.Mul` (scalar.go:753-804). -/
def mul (a b : SScalar) : SScalar := reduceAfterMul (mulArgs (unpack a) (unpack b))

/-- `Scalar.Square` (scalar.go:712-750). -/
def square (a : SScalar) : SScalar := reduceAfterMul (squareArgs (unpack a))

/-- `Scalar.MulAdd` (scalar.go:313-377). -/
def mulAdd (a b c : SScalar) : SScalar := reduceAfterMul (mulAddArgs (unpack a) (unpack b) (unpack c))

/-- `Scalar.MulSub` (scalar.go:246-310). -/
def mulSub (a b c : SScalar) : SScalar := reduceAfterMul (mulSubArgs (unpack a) (unpack b) (unpack c))

/-- Byte `i` of a byte string as an `int64`. -/
def byteAt (t : SBytes 64) (i : Nat) : I64 := (t.toList.getD i 0).toUInt64.toInt64

/-- `load3(t[o:])` (scalar.go:1087-1093). -/
def load3 (t : SBytes 64) (o : Nat) : I64 :=
  byteAt t o ||| (byteAt t (o + 1) <<< 8) ||| (byteAt t (o + 2) <<< 16)

/-- `load4(t[o:])` (scalar.go:1096-1103). -/
def load4 (t : SBytes 64) (o : Nat) : I64 :=
  byteAt t o ||| (byteAt t (o + 1) <<< 8) ||| (byteAt t (o + 2) <<< 16) ||| (byteAt t (o + 3) <<< 24)

/-- The variables `t0 ... t23` of `SetReduced` (scalar.go:407-430). -/
def unpack64 (t : SBytes 64) : List I64 :=
  [(0x1FFFFF : I64) &&& load3 t 0,
   (0x1FFFFF : I64) &&& (load4 t 2 >>> 5),
   (0x1FFFFF : I64) &&& (load3 t 5 >>> 2),
   (0x1FFFFF : I64) &&& (load4 t 7 >>> 7),
   (0x1FFFFF : I64) &&& (load4 t 10 >>> 4),
   (0x1FFFFF : I64) &&& (load3 t 13 >>> 1),
   (0x1FFFFF : I64) &&& (load4 t 15 >>> 6),
   (0x1FFFFF : I64) &&& (load3 t 18 >>> 3),
   (0x1FFFFF : I64) &&& load3 t 21,
   (0x1FFFFF : I64) &&& (load4 t 23 >>> 5),
   (0x1FFFFF : I64) &&& (load3 t 26 >>> 2),
   (0x1FFFFF : I64) &&& (load4 t 28 >>> 7),
   (0x1FFFFF : I64) &&& (load4 t 31 >>> 4),
   (0x1FFFFF : I64) &&& (load3 t 34 >>> 1),
   (0x1FFFFF : I64) &&& (load4 t 36 >>> 6),
   (0x1FFFFF : I64) &&& (load3 t 39 >>> 3),
   (0x1FFFFF : I64) &&& load3 t 42,
   (0x1FFFFF : I64) &&& (load4 t 44 >>> 5),
   (0x1FFFFF : I64) &&& (load3 t 47 >>> 2),
   (0x1FFFFF : I64) &&& (load4 t 49 >>> 7),
   (0x1FFFFF : I64) &&& (load4 t 52 >>> 4),
   (0x1FFFFF : I64) &&& (load3 t 55 >>> 1),
   (0x1FFFFF : I64) &&& (load4 t 57 >>> 6),
   load4 t 60 >>> 3]

/-- `Scalar.SetReduced` (scalar.go:406-700). -/
def setReduced (t : SBytes 64) : SScalar :=
  pack (execAll reduceTail (Limbs.ofList (unpack64 t)))

/-- `Scalar.Inverse` (scalar.go:807-1011). -/
def inverse (t : SScalar) : SScalar :=
  let r := invProg.foldl (fun r o => o.exec mul square r) (fun k => if k = 6 then t else scZero)
  let t0 := Nat.repeat square 126 (r 0)
  mul (r 3) t0

/-- `Scalar.IsNonZeroI` (scalar.go:1014-1022). -/
def isNonZeroI (s : SScalar) : I32 :=
  let ret := s[0] ||| s[1] ||| s[2] ||| s[3] ||| s[4] ||| s[5] ||| s[6] ||| s[7]
  let ret := ret ||| (ret >>> 16)
  let ret := ret ||| (ret >>> 8)
  let ret := ret ||| (ret >>> 4)
  let ret := ret ||| (ret >>> 2)
  let ret := ret ||| (ret >>> 1)
  (ret &&& 1).toInt32

/-- `Scalar.EqualsI` (scalar.go:1025-1028). -/
def equalsI (s a : SScalar) : I32 := 1 - isNonZeroI (sub s a)

/-- `Scalar.ConditionalSet` (scalar.go:1458-1468). -/
def condSet (s t : SScalar) (b : I32) : SScalar :=
  let m := (-b).toUInt32
  #v[s[0] ^^^ (m &&& (s[0] ^^^ t[0])), s[1] ^^^ (m &&& (s[1] ^^^ t[1])),
     s[2] ^^^ (m &&& (s[2] ^^^ t[2])), s[3] ^^^ (m &&& (s[3] ^^^ t[3])),
     s[4] ^^^ (m &&& (s[4] ^^^ t[4])), s[5] ^^^ (m &&& (s[5] ^^^ t[5])),
     s[6] ^^^ (m &&& (s[6] ^^^ t[6])), s[7] ^^^ (m &&& (s[7] ^^^ t[7]))]

/-- `Scalar.SetUint64` (scalar.go:223-227). -/
def setUint64 (x : U64) : SScalar :=
  setBytes (Vector.ofFn fun (i : Fin 32) =>
    if i.val < 8 then (x >>> (8 * i.val)).toUInt8 else 0)

/-- `Scalar.DeriveShort` (scalar.go:383-394); `h` is the SHA-512 digest of the argument. -/
def deriveShort (h : SBytes 64) : SScalar :=
  #v[load4u32 h[0] h[1] h[2] h[3], load4u32 h[4] h[5] h[6] h[7],
     load4u32 h[8] h[9] h[10] h[11], load4u32 h[12] h[13] h[14] h[15], 0, 0, 0, 0]

end Sc

/-! ## ristretto.go -/

section
variable {K : Type} [SymOps K]
open SymOps

/-- The bytes `v[a : a+n]` of an array. -/
def slice {m : Nat} (v : SBytes m) (a n : Nat) : SBytes n := Vector.ofFn fun i => v.toList.getD (a + i.val) 0

/-- `Point.SetElligator` (ristretto.go:120-127). -/
def setElligator (buf : SBytes 32) : ExtPt K :=
  (setRistrettoElligator2 (setBytesS buf : K)).toExtended

/-- `Point.ScalarMultTable` (ristretto.go:131-136). -/
def scalarMultTable (t : Table K) (s : SScalar) : ExtPt K := tableScalarMult t (Sc.bytes s)

/-- `Point.ScalarMult` (ristretto.go:151-156). -/
def pointScalarMult (q : ExtPt K) (s : SScalar) : ExtPt K := scalarMult q (Sc.bytes s)

/-- The buffer built from 16 bytes in `SetLizard` (ristretto.go:251-254) and again in `LizardInto`
(ristretto.go:288-291). -/
def lizardBuf (sha256 : List U8 → SBytes 32) (data : SBytes 16) : SBytes 32 :=
  let h := sha256 data.toList
  Vector.ofFn fun i =>
    if 8 ≤ i.val ∧ i.val < 24 then data.toList.getD (i.val - 8) 0
    else if i.val = 0 then h[0] &&& 254
    else if i.val = 31 then h[31] &&& 63
    else h[i]

/-- `Point.SetLizard` (ristretto.go:248-259). -/
def setLizard (sha256 : List U8 → SBytes 32) (data : SBytes 16) : ExtPt K :=
  (setRistrettoElligator2 (setBytesS (lizardBuf sha256 data) : K)).toExtended

/-- The mask `RistrettoElligator2Inverse` returns (elligator.go:43-49): bit `j` is the value
returned for entry `j`. -/
def inverseMask : Nat → List (K × I32) → U8
  | _, [] => 0
  | j, e :: es => (e.2.toUInt32.toUInt8 <<< j) ||| inverseMask (j + 1) es

/-- `subtle.ConstantTimeCopy(v, x, y)` on slices of the same length (Go standard library):
`x[i] = x[i]&xmask | y[i]&ymask` where `xmask := byte(v - 1)` and `ymask := byte(^(v - 1))`. -/
def constantTimeCopy {n : Nat} (v : U8) (x y : SBytes n) : SBytes n :=
  Vector.ofFn fun i => (x[i] &&& (v - 1)) ||| (y[i] &&& ((v - 1) ^^^ 255))

/-- One iteration of the loop in `LizardInto` (ristretto.go:285-296) on `(buf, nFound)`. -/
def lizardStep (sha256 : List U8 → SBytes 32) (mask : U8) (fe : K) (j : Nat) (st : SBytes 16 × U8) : SBytes 16 × U8 :=
  let ok := (mask >>> j) &&& 1
  let buf2 := bytesS fe
  let h := lizardBuf sha256 (slice buf2 8 16)
  let ok := ok &&& (constantTimeCompare h buf2).toUInt32.toUInt8
  (constantTimeCopy ok st.1 (slice buf2 8 16), st.2 + ok)

/-- The loop in `LizardInto` (ristretto.go:285-296) from entry `j` on. -/
def lizardLoop (sha256 : List U8 → SBytes 32) (mask : U8) : Nat → List K → SBytes 16 × U8 → SBytes 16 × U8
  | _, [], st => st
  | j, fe :: fes, st => lizardLoop sha256 mask (j + 1) fes (lizardStep sha256 mask fe j st)

/-- `Point.LizardInto` (ristretto.go:278-303) up to the tests on `nFound` at the end: the new contents of `buf`, and `nFound`. -/
def lizardInto (sha256 : List U8 → SBytes 32) (p : ExtPt K) (buf : SBytes 16) : SBytes 16 × U8 :=
  let fes := ristrettoElligator2Inverse p
  let mask := inverseMask 0 fes
  lizardLoop sha256 mask 0 (fes.map (·.1)) (buf, 0)

end
end Ristretto.Model.Obl
