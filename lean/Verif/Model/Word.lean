/-!
# Machine words and byte strings

Go's `uint8/uint32/uint64/int32/int64` are Lean's fixed-width `UInt8/UInt32/UInt64/Int32/Int64`
(all wrap around, as in Go).  `math/bits.Mul64` and `math/bits.Add64` are library functions used by
edwards25519/field_mul64.go; they are modelled by their documentation.
-/

namespace Ristretto

/-- A Go array `[n]byte`. -/
abbrev Bytes (n : Nat) := Vector UInt8 n

/-- The number a little-endian byte list stands for. -/
def leNat : List UInt8 → Nat
  | [] => 0
  | b :: bs => b.toNat + 256 * leNat bs

/-- The number a little-endian byte array stands for. -/
def leVal {n : Nat} (v : Bytes n) : Nat := leNat v.toList

namespace Model

/-- `bits.Mul64(x, y)` (Go standard library `math/bits`): the 128-bit product as `(hi, lo)`. -/
def bitsMul64 (x y : UInt64) : UInt64 × UInt64 :=
  (UInt64.ofNat (x.toNat * y.toNat / 2 ^ 64), x * y)

/-- `bits.Add64(x, y, carry)` (Go standard library `math/bits`): sum with carry as
`(sum, carryOut)`; the carry input must be 0 or 1. -/
def bitsAdd64 (x y c : UInt64) : UInt64 × UInt64 :=
  (x + y + c, UInt64.ofNat ((x.toNat + y.toNat + c.toNat) / 2 ^ 64))

/-- The three-line pattern repeated throughout edwards25519/field_mul64.go (e.g. lines 32-34):
```
h, l = bits.Mul64(x, y)
cl, carry = bits.Add64(cl, l, 0)
ch, _ = bits.Add64(ch, h, carry)
```
on the accumulator `(ch, cl)`. -/
def mulAcc (acc : UInt64 × UInt64) (x y : UInt64) : UInt64 × UInt64 :=
  let hl := bitsMul64 x y
  let s := bitsAdd64 acc.2 hl.2 0
  let s' := bitsAdd64 acc.1 hl.1 s.2
  (s'.1, s.1)

/-- The two-line pattern of edwards25519/field_mul64.go, e.g. lines 59-60:
```
c1l, carry = bits.Add64((c0l>>51)|(c0h<<13), c1l, 0)
c1h, _ = bits.Add64(c1h, 0, carry)
```
with `(c0h, c0l) = prev` and `(c1h, c1l) = acc`. -/
def carryAcc (prev acc : UInt64 × UInt64) : UInt64 × UInt64 :=
  let s := bitsAdd64 ((prev.2 >>> 51) ||| (prev.1 <<< 13)) acc.2 0
  let s' := bitsAdd64 acc.1 0 s.2
  (s'.1, s.1)

/-- `uint64(1-b) - 1` for `b int32`: conversion sign-extends
(edwards25519/field_radix51.go:198). -/
def maskOf (b : Int32) : UInt64 := (1 - b).toInt64.toUInt64 - 1

end Model
end Ristretto
