import Verif.Model.Cref
import Verif.Model.Scalar

/-!
# Scalars of the C reference implementation

The functions of the first part of `cref.c` that `cref.go` does not call: arithmetic modulo the group order with Barrett
reduction, tests, windows.  An array of `crypto_uint32` is a list; its length is that of the C array.  `int` variables that
hold a carry are `UInt32` here: the carries are below 2^24.
-/

namespace Ristretto.Model.Cref
open Scalar (InvOp)
set_option autoImplicit false

/-- The constant `mu` (cref.c:12-13). -/
def muBarrett : List UInt32 :=
  [0x1B, 0x13, 0x2C, 0x0A, 0xA3, 0xE5, 0x9C, 0xED, 0xA7, 0x29, 0x63, 0x08, 0x5D, 0x21, 0x06, 0x21,
   0xEB, 0xFF, 0xFF, 0xFF, 0xFF, 0xFF, 0xFF, 0xFF, 0xFF, 0xFF, 0xFF, 0xFF, 0xFF, 0xFF, 0xFF, 0xFF, 0x0F]

/-- `a[k] += x` (for `k` within the array, as always here). -/
def addAt (a : List UInt32) (k : Nat) (x : UInt32) : List UInt32 := a.set k (a.getD k 0 + x)

/-- The loop `for(i=0;i<n;i++) { carry = a[i] >> 8; a[i+1] += carry; a[i] &= 0xff; }` (cref.c:74-79, 145-150, 188-193). -/
def carryLoop : Nat → List UInt32 → List UInt32
  | n + 1, a :: b :: r => (a &&& 0xff) :: carryLoop n ((b + (a >>> 8)) :: r)
  | _, a => a

/-- The loop over `i` and `j` that adds `f i j` to `a[i+j]` where `c i j` (cref.c:60-62, 69-71, 183-185). -/
def columns (n k : Nat) (c : Nat → Nat → Bool) (f : Nat → Nat → UInt32) (a : List UInt32) : List UInt32 :=
  (List.range n).foldl (fun a i =>
    (List.range k).foldl (fun a j => if c i j then addAt a (i + j) (f i j) else a) a) a

/-- The subtraction with borrow in `barrett_reduce` (cref.c:81-87), on the digits of `r1` and `r2`. -/
def borrowLoop : UInt32 → List (UInt32 × UInt32) → List UInt32
  | _, [] => []
  | pb, (r1, r2) :: rest =>
    let pb := pb + r2
    let b := lt r1 pb
    let r := r1 - pb + (b <<< 8)
    r :: borrowLoop b rest

/-- 32 digits. -/
def Sc.ofList (a : List UInt32) : Sc := Vector.ofFn fun i => a.getD i 0

/-- `barrett_reduce` (cref.c:46-94); `x` has 64 digits. -/
def barrettReduce (x : List UInt32) : Sc :=
  let q2 : List UInt32 := List.replicate 66 0
  let r2 : List UInt32 := List.replicate 33 0
  let q2 := columns 33 33 (fun i j => decide (i + j ≥ 31)) (fun i j => muBarrett.getD i 0 * x.getD (j + 31) 0) q2
  let carry := q2.getD 31 0 >>> 8
  let q2 := addAt q2 32 carry
  let carry := q2.getD 32 0 >>> 8
  let q2 := addAt q2 33 carry
  let q3 := q2.drop 33
  let r1 := x.take 33
  let r2 := columns 32 33 (fun i j => decide (i + j < 33)) (fun i j => mOrder.getD i 0 * q3.getD j 0) r2
  let r2 := carryLoop 32 r2
  let r := Sc.ofList (borrowLoop 0 ((r1.take 32).zip (r2.take 32)))
  reduceAddSub (reduceAddSub r)

/-- `group_scalar_setzero` (cref.c:113-118). -/
def scSetZero : Sc := Vector.replicate 32 0

/-- `group_scalar_setone` (cref.c:120-126). -/
def scSetOne : Sc := Sc.ofList (1 :: List.replicate 31 0)

/-- `group_scalar_add` (cref.c:141-152). -/
def scAdd (x y : Sc) : Sc :=
  let r := List.zipWith (· + ·) x.toList y.toList
  reduceAddSub (Sc.ofList (carryLoop 31 r))

/-- The loop of `group_scalar_sub` (cref.c:161-166), on the digits of `m` and `y`. -/
def subFromLoop : UInt32 → List (UInt32 × UInt32) → List UInt32
  | _, [] => []
  | b, (mi, yi) :: rest =>
    let t := mi - yi - b
    let d := t &&& 255
    let b := (t >>> 8) &&& 1
    d :: subFromLoop b rest

/-- `group_scalar_sub` (cref.c:154-168). -/
def scSub (x y : Sc) : Sc :=
  let d := Sc.ofList (subFromLoop 0 (mOrder.zip y.toList))
  scAdd x d

/-- `group_scalar_negate` (cref.c:170-175). -/
def scNegate (x : Sc) : Sc :=
  let t := scSetZero
  scSub t x

/-- `group_scalar_mul` (cref.c:177-196). -/
def scMul (x y : Sc) : Sc :=
  let t : List UInt32 := List.replicate 64 0
  let t := columns 32 32 (fun _ _ => true) (fun i j => x.toList.getD i 0 * y.toList.getD j 0) t
  let t := carryLoop 63 t
  barrettReduce t

/-- `group_scalar_square` (cref.c:198-201). -/
def scSquare (x : Sc) : Sc := scMul x x

/-- The straight-line part of `group_scalar_invert` (cref.c:208-403). Register 6 is `x`. -/
def scInvProg : List InvOp :=
  [.sq 1 6, .mul 2 6 1, .mul 0 1 2, .sq 1 0, .sq 3 1, .mul 1 2 3, .sq 2 1, .mul 3 0 2, .sq 0 3, .mul 2 1 0, .sq 0 2,
   .mul 1 2 0, .sq 0 1, .mul 1 3 0, .sq 0 1, .sq 3 0, .mul 0 1 3, .mul 3 2 0, .sq 0 3, .mul 2 1 0, .sq 0 2,
   .mul 1 3 0, .sq 0 1, .mul 3 1 0, .mul 0 2 3, .mul 2 1 0, .sq 1 2, .sq 3 1, .sq 4 3, .mul 3 1 4, .mul 1 0 3,
   .mul 0 2 1, .mul 2 1 0, .sq 1 2, .sq 3 1, .mul 1 0 3, .sq 0 1, .sq 3 0, .mul 0 1 3, .mul 3 2 0, .sq 0 3,
   .mul 2 1 0, .sq 0 2, .sq 1 0, .mul 0 2 1, .mul 1 3 0, .sq 0 1, .sq 3 0, .sq 0 3, .sq 3 0, .sq 0 3, .sq 3 0,
   .mul 0 1 3, .mul 3 2 0, .sq 0 3, .mul 2 1 0, .sq 0 2, .mul 1 2 0, .sq 0 1, .mul 4 2 0, .sq 0 4, .sq 4 0,
   .mul 0 1 4, .mul 1 3 0, .sq 0 1, .mul 3 1 0, .sq 0 3, .sq 4 0, .mul 0 3 4, .mul 3 2 0, .sq 0 3, .sq 2 0, .sq 0 2,
   .mul 2 1 0, .sq 0 2, .mul 1 3 0, .mul 0 2 1, .mul 2 1 0, .sq 1 2, .sq 3 1, .mul 1 0 3, .sq 0 1, .mul 3 2 0,
   .mul 0 1 3, .sq 1 0, .sq 2 1, .mul 1 0 2, .mul 2 3 1, .mul 1 0 2, .mul 0 2 1, .sq 2 0, .mul 3 0 2, .sq 2 3,
   .mul 3 1 2, .mul 1 0 3, .sq 0 1, .mul 2 1 0, .sq 0 2, .mul 4 2 0, .sq 0 4, .sq 4 0, .sq 5 4, .sq 4 5, .sq 5 4,
   .sq 4 5, .mul 5 0 4, .mul 0 2 5, .mul 2 3 0, .mul 0 1 2, .sq 1 0, .mul 3 0 1, .sq 1 3, .mul 4 0 1, .sq 1 4,
   .sq 4 1, .sq 1 4, .mul 4 3 1, .mul 1 2 4, .sq 2 1, .sq 3 2, .sq 4 3, .mul 3 2 4, .mul 2 1 3, .mul 3 0 2, .sq 0 3,
   .sq 2 0, .sq 0 2, .mul 2 1 0, .mul 0 3 2, .sq 1 0, .sq 3 1, .mul 4 1 3, .sq 3 4, .sq 4 3, .mul 3 1 4, .mul 1 2 3,
   .sq 2 1, .sq 3 2, .mul 2 0 3, .sq 0 2, .mul 3 1 0, .sq 0 3, .mul 1 2 0, .mul 0 3 1, .sq 2 0, .sq 3 2, .sq 2 3,
   .sq 3 2, .mul 2 1 3, .mul 1 0 2, .sq 0 1, .sq 3 0, .sq 4 3, .mul 3 0 4, .mul 0 1 3, .mul 3 2 0, .sq 0 3, .sq 2 0,
   .mul 0 1 2, .sq 1 0, .mul 2 3 1, .mul 1 0 2, .sq 0 1, .mul 3 2 0, .sq 0 3, .sq 2 0, .mul 0 1 2, .mul 1 3 0,
   .sq 2 1, .mul 3 0 2, .mul 0 1 3, .sq 1 0, .sq 2 1, .sq 4 2, .mul 2 1 4, .sq 4 2, .sq 2 4, .sq 4 2, .mul 2 1 4,
   .mul 1 3 2, .sq 2 1, .sq 3 2, .mul 2 1 3, .sq 3 2, .sq 2 3, .mul 3 1 2, .mul 2 0 3, .sq 0 2, .mul 3 2 0, .sq 0 3,
   .sq 4 0, .mul 0 3 4, .mul 3 1 0, .sq 0 3, .mul 1 3 0, .mul 0 2 1]

/-- `group_scalar_invert` (cref.c:203-407). The local variables start as zero here; they are written before they are
read. -/
def scInvert (x : Sc) : Sc :=
  let r := scInvProg.foldl (fun r o => o.exec scMul scSquare r) (fun k => if k = 6 then x else scSetZero)
  let t0 := Nat.repeat scSquare 126 (r 0)
  scMul (r 3) t0

/-- `1-((-r)>>63)` for an `unsigned long long` (cref.c:416, 425, 434), as `int`. -/
def isZeroU64 (r : UInt64) : Int32 := ((1 : UInt64) - ((-r) >>> 63)).toUInt32.toInt32

/-- `group_scalar_isone` (cref.c:409-417). -/
def scIsOne (x : Sc) : Int32 :=
  let r := ((1 : UInt32) - x[0]).toUInt64
  let r := (x.toList.drop 1).foldl (fun r v => r ||| v.toUInt64) r
  isZeroU64 r

/-- `group_scalar_iszero` (cref.c:419-426). -/
def scIsZero (x : Sc) : Int32 :=
  let r := x.toList.foldl (fun r v => r ||| v.toUInt64) 0
  isZeroU64 r

/-- `group_scalar_equals` (cref.c:428-435). -/
def scEquals (x y : Sc) : Int32 :=
  let r := (x.toList.zip y.toList).foldl (fun r v => r ||| (v.1 ^^^ v.2).toUInt64) 0
  isZeroU64 r

/-- `scalar_tstbit` (cref.c:439-442), for positions within the scalar. -/
def tstbit (x : Sc) (pos : Fin 256) : Int32 :=
  let k := UInt64.ofNat (pos.val % 8)
  (((x[pos.val / 8]'(by omega)).toUInt64 &&& ((1 : UInt64) <<< k)) >>> k).toUInt32.toInt32

/-- One round of the inner loop of `scalar_bitlen` (cref.c:452-459) for the bit `mask` of the digit `v`. -/
def bitlenStep (v : UInt32) (st : Int32 × Int32) (mask : UInt64) : Int32 × Int32 :=
  let found : Int32 := if st.2 ≠ 0 ∨ mask &&& v.toUInt64 ≠ 0 then 1 else 0
  let t := st.1 - 1
  ((found * st.1) ^^^ ((1 - found) * t), found)

/-- `scalar_bitlen` (cref.c:444-461). -/
def bitlen (x : Sc) : Int32 :=
  (x.toList.reverse.foldl (fun st v => [128, 64, 32, 16, 8, 4, 2, 1].foldl (bitlenStep v) st) ((256, 0) : Int32 × Int32)).1

/-- `scalar_from64bytes` (cref.c:590-596). -/
def from64bytes (h : Bytes 64) : Sc := barrettReduce (h.toList.map UInt8.toUInt32)

end Ristretto.Model.Cref
