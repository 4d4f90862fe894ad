import Verif.Model.CrefApi
import Verif.Model.CrefSlide
import Verif.Model.Loops

/-!
# The arrays of cref.c

In the other models of cref.c an array is a list or a vector that a function works off, so that an index cannot be out of range, a
variable cannot be read before it has been set, and an output cannot be mistaken for an input.  In C all three are possible and undefined or
wrong.  Here the functions of cref.c that index arrays are written once more, statement by statement: a cell of an array is a value or not
initialised, scalars live at addresses, and a read or write outside an array, or a read of a cell that is not initialised, is `none`.

`int` loop variables are integers: they stay below 2^9.  Accesses with constant indices (`r->v[31]` apart, those of `fe25519_pack`,
`fe25519_unpack`, `fe25519_mul` and so on) are accesses to fields of structures or to vectors in the other models, which Lean's types check.
-/

set_option autoImplicit false

namespace Ristretto.Model.CrefLoops
open Ristretto.Model.Cref
open Ristretto.Model.Loops (iter forLt forDown)
open Ristretto.Model.Scalar (InvOp)

/-! ## Arrays -/

/-- An array in C (ISO C, 6.5.6 and 6.7.9): a cell holds a value or is not initialised. -/
abbrev Arr (α : Type) := List (Option α)

/-- `T a[n];` -/
def uninit {α : Type} (n : Nat) : Arr α := List.replicate n none

/-- An array whose cells are all initialised. -/
def full {α : Type} (a : List α) : Arr α := a.map some

/-- The value of `a[i]`. -/
def rd {α : Type} (a : Arr α) (i : Int) : Option α := (Loops.get a i).join

/-- `a[i] = v`. -/
def wr {α : Type} (a : Arr α) (i : Int) (v : α) : Option (Arr α) := Loops.put a i (some v)

/-- Addresses of scalars: variables of the caller, local variables of the functions below. -/
inductive SAddr
  | var (n : Nat)
  | loc (n : Nat)
deriving DecidableEq

/-- The scalars in memory (cref.h:23-26), by address. -/
abbrev SMem := SAddr → Arr UInt32

/-- Overwrite a scalar. -/
def SMem.upd (m : SMem) (p : SAddr) (a : Arr UInt32) : SMem := fun q => if q = p then a else m q

/-- `p->v[i] = v`. -/
def SMem.wr (m : SMem) (p : SAddr) (i : Int) (v : UInt32) : Option SMem := do
  let a ← CrefLoops.wr (m p) i v
  some (m.upd p a)

/-- A function whose only pointer to a scalar is `r`. -/
def SMem.onSc (m : SMem) (r : SAddr) (f : Arr UInt32 → Option (Arr UInt32)) : Option SMem := do
  let a ← f (m r)
  some (m.upd r a)

/-- `group_scalar t;` -/
def SMem.decl (m : SMem) (k : Nat) : SMem := m.upd (.loc k) (uninit 32)

/-! ## Scalars -/

/-- The first loop of `reduce_add_sub` (cref.c:33-39), on `pb`, `b` and `t`. -/
def subRound (r : Arr UInt32) (i : Int) (st : (UInt32 × Option UInt32) × Arr UInt8) :
    Option ((UInt32 × Option UInt32) × Arr UInt8) := do
  let pb := st.1.1 + (← Loops.get mOrder i)
  let b := lt (← rd r i) pb
  let t ← wr st.2 i ((← rd r i) - pb + (b <<< 8)).toUInt8
  let pb := b
  some ((pb, some b), t)

/-- The second loop of `reduce_add_sub` (cref.c:41-42). -/
def selRound (mask : UInt32) (t : Arr UInt8) (i : Int) (r : Arr UInt32) : Option (Arr UInt32) := do
  wr r i ((← rd r i) ^^^ (mask &&& ((← rd r i) ^^^ (← rd t i).toUInt32)))

/-- `reduce_add_sub` (cref.c:24-43). -/
def reduceAddSub (r : Arr UInt32) : Option (Arr UInt32) := do
  let st ← forLt 0 32 1 (subRound r) ((0, none), uninit 32)
  let b ← st.1.2
  let mask := b - 1
  forLt 0 32 1 (selRound mask st.2) r

/-- The body of the loops over `i` and `j` of `barrett_reduce` and `group_scalar_mul` (cref.c:62, 71, 185):
`if(c i j) a[i+j] += f i j;`. -/
def colRound (c : Int → Int → Bool) (f : Int → Int → Option UInt32) (i j : Int) (a : Arr UInt32) : Option (Arr UInt32) :=
  if c i j then do
    let x ← f i j
    wr a (i + j) ((← rd a (i + j)) + x)
  else some a

/-- The body of the carry loops (cref.c:75-78, 146-149, 189-192). -/
def carryRound (i : Int) (a : Arr UInt32) : Option (Arr UInt32) := do
  let carry := (← rd a i) >>> 8
  let a ← wr a (i + 1) ((← rd a (i + 1)) + carry)
  wr a i ((← rd a i) &&& 0xff)

/-- The loop of `barrett_reduce` that subtracts (cref.c:81-87), on `pb` and the digits of `r`. -/
def borrowRound (r1 r2 : Arr UInt32) (i : Int) (st : UInt32 × Arr UInt32) : Option (UInt32 × Arr UInt32) := do
  let pb := st.1 + (← rd r2 i)
  let b := lt (← rd r1 i) pb
  let r ← wr st.2 i ((← rd r1 i) - pb + (b <<< 8))
  some (b, r)

/-- `barrett_reduce` (cref.c:46-94).  `q3[j]` is `q2[33 + j]`. -/
def barrettReduce (x r : Arr UInt32) : Option (Arr UInt32) := do
  let q2 ← forLt 0 66 1 (fun i q2 => wr q2 i (0 : UInt32)) (uninit 66)
  let r2 ← forLt 0 33 1 (fun i r2 => wr r2 i (0 : UInt32)) (uninit 33)
  let q2 ← forLt 0 33 1 (fun i => forLt 0 33 1 (colRound (fun i j => decide (i + j ≥ 31))
    (fun i j => do some ((← Loops.get muBarrett i) * (← rd x (j + 31)))) i)) q2
  let carry := (← rd q2 31) >>> 8
  let q2 ← wr q2 32 ((← rd q2 32) + carry)
  let carry := (← rd q2 32) >>> 8
  let q2 ← wr q2 33 ((← rd q2 33) + carry)
  let r1 ← forLt 0 33 1 (fun i r1 => do wr r1 i (← rd x i)) (uninit 33)
  let r2 ← forLt 0 32 1 (fun i => forLt 0 33 1 (colRound (fun i j => decide (i + j < 33))
    (fun i j => do some ((← Loops.get mOrder i) * (← rd q2 (33 + j)))) i)) r2
  let r2 ← forLt 0 32 1 carryRound r2
  let st ← forLt 0 32 1 (borrowRound r1 r2) (0, r)
  let r ← reduceAddSub st.2
  reduceAddSub r

/-- `group_scalar_unpack` (cref.c:96-104). -/
def unpack (x : List UInt8) (r : Arr UInt32) : Option (Arr UInt32) := do
  let r ← forLt 0 32 1 (fun i r => do wr r i (← Loops.get x i).toUInt32) r
  let r ← wr r 31 ((← rd r 31) &&& 0x1f)
  reduceAddSub r

/-- `group_scalar_pack` (cref.c:106-111). -/
def pack (x : Arr UInt32) (r : Arr UInt8) : Option (Arr UInt8) :=
  forLt 0 32 1 (fun i r => do wr r i (← rd x i).toUInt8) r

/-- `group_scalar_setzero` (cref.c:113-118). -/
def setZero (r : Arr UInt32) : Option (Arr UInt32) := forLt 0 32 1 (fun i r => wr r i 0) r

/-- `group_scalar_setone` (cref.c:120-126). -/
def setOne (r : Arr UInt32) : Option (Arr UInt32) := do
  let r ← wr r 0 1
  forLt 1 32 1 (fun i r => wr r i 0) r

/-- `group_scalar_add` (cref.c:141-152). -/
def add (r x y : SAddr) (m : SMem) : Option SMem := do
  let m ← forLt 0 32 1 (fun i (m : SMem) => do m.wr r i ((← rd (m x) i) + (← rd (m y) i))) m
  let m ← m.onSc r (forLt 0 31 1 carryRound)
  m.onSc r reduceAddSub

/-- The loop of `group_scalar_sub` (cref.c:161-166), on `b` and the digits of `d`. -/
def subFromRound (y : SAddr) (d : SAddr) (i : Int) (st : UInt32 × SMem) : Option (UInt32 × SMem) := do
  let t := (← Loops.get mOrder i) - (← rd (st.2 y) i) - st.1
  let m ← st.2.wr d i (t &&& 255)
  some ((t >>> 8) &&& 1, m)

/-- `group_scalar_sub` (cref.c:154-168); the local variable `d` is at `loc 6`. -/
def sub (r x y : SAddr) (m : SMem) : Option SMem := do
  let m := m.decl 6
  let st ← forLt 0 32 1 (subFromRound y (.loc 6)) (0, m)
  add r x (.loc 6) st.2

/-- `group_scalar_negate` (cref.c:170-175); the local variable `t` is at `loc 7`. -/
def negate (r x : SAddr) (m : SMem) : Option SMem := do
  let m := m.decl 7
  let m ← m.onSc (.loc 7) setZero
  sub r (.loc 7) x m

/-- `group_scalar_mul` (cref.c:177-196). -/
def mul (r x y : SAddr) (m : SMem) : Option SMem := do
  let t ← forLt 0 64 1 (fun i t => wr t i (0 : UInt32)) (uninit 64)
  let t ← forLt 0 32 1 (fun i => forLt 0 32 1 (colRound (fun _ _ => true)
    (fun i j => do some ((← rd (m x) i) * (← rd (m y) j))) i)) t
  let t ← forLt 0 63 1 carryRound t
  m.onSc r (barrettReduce t)

/-- `group_scalar_square` (cref.c:198-201). -/
def square (r x : SAddr) (m : SMem) : Option SMem := mul r x x m

/-- A statement of `group_scalar_invert` (cref.c:208-403): `t0`, ..., `t5` are at `loc 0`, ..., `loc 5`, register 6 is `x`. -/
def invOp (x : SAddr) (m : SMem) : InvOp → Option SMem
  | .sq d a => square (reg d) (reg a) m
  | .mul d a b => mul (reg d) (reg a) (reg b) m
where reg (k : Nat) : SAddr := if k = 6 then x else .loc k

/-- `group_scalar_invert` (cref.c:203-407). -/
def invert (r x : SAddr) (m : SMem) : Option SMem := do
  let m := (((((m.decl 0).decl 1).decl 2).decl 3).decl 4).decl 5
  let m ← scInvProg.foldlM (invOp x) m
  let m ← forLt 0 126 1 (fun _ m => square (.loc 0) (.loc 0) m) m
  mul r (.loc 3) (.loc 0) m

/-- `group_scalar_isone` (cref.c:409-417). -/
def isOne (x : Arr UInt32) : Option Int32 := do
  let r := ((1 : UInt32) - (← rd x 0)).toUInt64
  let r ← forLt 1 32 1 (fun i r => do some (r ||| (← rd x i).toUInt64)) r
  some (isZeroU64 r)

/-- `group_scalar_iszero` (cref.c:419-426). -/
def isZero (x : Arr UInt32) : Option Int32 := do
  let r ← forLt 0 32 1 (fun i r => do some (r ||| (← rd x i).toUInt64)) 0
  some (isZeroU64 r)

/-- `group_scalar_equals` (cref.c:428-435). -/
def equals (x y : Arr UInt32) : Option Int32 := do
  let r ← forLt 0 32 1 (fun i r => do some (r ||| ((← rd x i) ^^^ (← rd y i)).toUInt64)) 0
  some (isZeroU64 r)

/-- `scalar_tstbit` (cref.c:439-442), for any position. -/
def tstbit (x : Arr UInt32) (pos : UInt32) : Option Int32 := do
  let v ← rd x (pos >>> 3).toNat
  let k := (pos &&& 7).toUInt64
  some ((v.toUInt64 &&& ((1 : UInt64) <<< k)) >>> k).toUInt32.toInt32

/-- `scalar_bitlen` (cref.c:444-461).  The inner loop (cref.c:453-458) has no index. -/
def bitlen (x : Arr UInt32) : Option Int32 := do
  let st ← forDown 31 (fun i st => do
    let v ← rd x i
    some ([128, 64, 32, 16, 8, 4, 2, 1].foldl (bitlenStep v) st)) ((256, 0) : Int32 × Int32)
  some st.1

/-- `scalar_from64bytes` (cref.c:590-596). -/
def from64bytes (h : List UInt8) (r : Arr UInt32) : Option (Arr UInt32) := do
  let t ← forLt 0 64 1 (fun i t => do wr t i (← Loops.get h i).toUInt32) (uninit 64)
  barrettReduce t r

/-! ## Windows -/

/-- One round of the first loop of `scalar_window3` (cref.c:469-478). -/
def window3Round (s : Arr UInt32) (i : Int) (r : Arr Int8) : Option (Arr Int8) := do
  let r ← wr r (8 * i + 0) (Cref.i8 ((← rd s (3 * i + 0)) &&& 7))
  let r ← wr r (8 * i + 1) (Cref.i8 (((← rd s (3 * i + 0)) >>> 3) &&& 7))
  let r ← wr r (8 * i + 2) (Cref.i8 (((← rd s (3 * i + 0)) >>> 6) &&& 7))
  let r ← wr r (8 * i + 2) ((← rd r (8 * i + 2)) ^^^ Cref.i8 (((← rd s (3 * i + 1)) <<< 2) &&& 7))
  let r ← wr r (8 * i + 3) (Cref.i8 (((← rd s (3 * i + 1)) >>> 1) &&& 7))
  let r ← wr r (8 * i + 4) (Cref.i8 (((← rd s (3 * i + 1)) >>> 4) &&& 7))
  let r ← wr r (8 * i + 5) (Cref.i8 (((← rd s (3 * i + 1)) >>> 7) &&& 7))
  let r ← wr r (8 * i + 5) ((← rd r (8 * i + 5)) ^^^ Cref.i8 (((← rd s (3 * i + 2)) <<< 1) &&& 7))
  let r ← wr r (8 * i + 6) (Cref.i8 (((← rd s (3 * i + 2)) >>> 2) &&& 7))
  wr r (8 * i + 7) (Cref.i8 (((← rd s (3 * i + 2)) >>> 5) &&& 7))

/-- The unsigned digits of `scalar_window3` (cref.c:467-485); after the loop `i` is 10. -/
def window3Raw (s : Arr UInt32) (r : Arr Int8) : Option (Arr Int8) := do
  let r ← forLt 0 10 1 (window3Round s) r
  let i : Int := 10
  let r ← wr r (8 * i + 0) (Cref.i8 ((← rd s (3 * i + 0)) &&& 7))
  let r ← wr r (8 * i + 1) (Cref.i8 (((← rd s (3 * i + 0)) >>> 3) &&& 7))
  let r ← wr r (8 * i + 2) (Cref.i8 (((← rd s (3 * i + 0)) >>> 6) &&& 7))
  let r ← wr r (8 * i + 2) ((← rd r (8 * i + 2)) ^^^ Cref.i8 (((← rd s (3 * i + 1)) <<< 2) &&& 7))
  let r ← wr r (8 * i + 3) (Cref.i8 (((← rd s (3 * i + 1)) >>> 1) &&& 7))
  wr r (8 * i + 4) (Cref.i8 (((← rd s (3 * i + 1)) >>> 4) &&& 7))

/-- One round of "Making it signed" in `scalar_window3` (cref.c:491-495), on `r` and `carry`. -/
def sign3Round (i : Int) (st : Arr Int8 × Int8) : Option (Arr Int8 × Int8) := do
  let r := st.1
  let r ← wr r i ((← rd r i) + st.2)
  let r ← wr r (i + 1) ((← rd r (i + 1)) + ((← rd r i) >>> 3))
  let r ← wr r i ((← rd r i) &&& 7)
  let carry := (← rd r i) >>> 2
  let r ← wr r i ((← rd r i) - (carry <<< 3))
  some (r, carry)

/-- `scalar_window3` (cref.c:463-498). -/
def window3 (s : Arr UInt32) (r : Arr Int8) : Option (Arr Int8) := do
  let r ← window3Raw s r
  let st ← forLt 0 84 1 sign3Round (r, 0)
  wr st.1 84 ((← rd st.1 84) + st.2)

/-- One round of the first loop of `scalar_window5` (cref.c:506-517). -/
def window5Round (s : Arr UInt32) (i : Int) (r : Arr Int8) : Option (Arr Int8) := do
  let r ← wr r (8 * i + 0) (Cref.i8 ((← rd s (5 * i + 0)) &&& 31))
  let r ← wr r (8 * i + 1) (Cref.i8 (((← rd s (5 * i + 0)) >>> 5) &&& 31))
  let r ← wr r (8 * i + 1) ((← rd r (8 * i + 1)) ^^^ Cref.i8 (((← rd s (5 * i + 1)) <<< 3) &&& 31))
  let r ← wr r (8 * i + 2) (Cref.i8 (((← rd s (5 * i + 1)) >>> 2) &&& 31))
  let r ← wr r (8 * i + 3) (Cref.i8 (((← rd s (5 * i + 1)) >>> 7) &&& 31))
  let r ← wr r (8 * i + 3) ((← rd r (8 * i + 3)) ^^^ Cref.i8 (((← rd s (5 * i + 2)) <<< 1) &&& 31))
  let r ← wr r (8 * i + 4) (Cref.i8 (((← rd s (5 * i + 2)) >>> 4) &&& 31))
  let r ← wr r (8 * i + 4) ((← rd r (8 * i + 4)) ^^^ Cref.i8 (((← rd s (5 * i + 3)) <<< 4) &&& 31))
  let r ← wr r (8 * i + 5) (Cref.i8 (((← rd s (5 * i + 3)) >>> 1) &&& 31))
  let r ← wr r (8 * i + 6) (Cref.i8 (((← rd s (5 * i + 3)) >>> 6) &&& 31))
  let r ← wr r (8 * i + 6) ((← rd r (8 * i + 6)) ^^^ Cref.i8 (((← rd s (5 * i + 4)) <<< 2) &&& 31))
  wr r (8 * i + 7) (Cref.i8 (((← rd s (5 * i + 4)) >>> 3) &&& 31))

/-- The unsigned digits of `scalar_window5` (cref.c:504-522); after the loop `i` is 6. -/
def window5Raw (s : Arr UInt32) (r : Arr Int8) : Option (Arr Int8) := do
  let r ← forLt 0 6 1 (window5Round s) r
  let i : Int := 6
  let r ← wr r (8 * i + 0) (Cref.i8 ((← rd s (5 * i + 0)) &&& 31))
  let r ← wr r (8 * i + 1) (Cref.i8 (((← rd s (5 * i + 0)) >>> 5) &&& 31))
  let r ← wr r (8 * i + 1) ((← rd r (8 * i + 1)) ^^^ Cref.i8 (((← rd s (5 * i + 1)) <<< 3) &&& 31))
  wr r (8 * i + 2) (Cref.i8 (((← rd s (5 * i + 1)) >>> 2) &&& 31))

/-- One round of "Making it signed" in `scalar_window5` (cref.c:529-533), on `r` and `carry`. -/
def sign5Round (i : Int) (st : Arr Int8 × Int8) : Option (Arr Int8 × Int8) := do
  let r := st.1
  let r ← wr r i ((← rd r i) + st.2)
  let r ← wr r (i + 1) ((← rd r (i + 1)) + ((← rd r i) >>> 5))
  let r ← wr r i ((← rd r i) &&& 31)
  let carry := (← rd r i) >>> 4
  let r ← wr r i ((← rd r i) - (carry <<< 5))
  some (r, carry)

/-- `scalar_window5` (cref.c:500-536). -/
def window5 (s : Arr UInt32) (r : Arr Int8) : Option (Arr Int8) := do
  let r ← window5Raw s r
  let st ← forLt 0 50 1 sign5Round (r, 0)
  wr st.1 50 ((← rd st.1 50) + st.2)

/-- One round of the first loop of `scalar_slide` (cref.c:544-551). -/
def slideBitsRound (s : Arr UInt32) (i : Int) (r : Arr Int8) : Option (Arr Int8) := do
  let r ← wr r (8 * i + 0) (Cref.i8 ((← rd s i) &&& 1))
  let r ← wr r (8 * i + 1) (Cref.i8 (((← rd s i) >>> 1) &&& 1))
  let r ← wr r (8 * i + 2) (Cref.i8 (((← rd s i) >>> 2) &&& 1))
  let r ← wr r (8 * i + 3) (Cref.i8 (((← rd s i) >>> 3) &&& 1))
  let r ← wr r (8 * i + 4) (Cref.i8 (((← rd s i) >>> 4) &&& 1))
  let r ← wr r (8 * i + 5) (Cref.i8 (((← rd s i) >>> 5) &&& 1))
  let r ← wr r (8 * i + 6) (Cref.i8 (((← rd s i) >>> 6) &&& 1))
  wr r (8 * i + 7) (Cref.i8 (((← rd s i) >>> 7) &&& 1))

/-- The loop over `k` of `scalar_slide` (cref.c:567-573); `n` is at least the number of rounds left. -/
def slideCarry : Nat → Int → Arr Int8 → Option (Arr Int8)
  | 0, _, r => some r
  | n + 1, k, r =>
    if k < 256 then do
      if (← rd r k) = 0 then wr r k 1
      else
        let r ← wr r k 0
        slideCarry n (k + 1) r
    else some r

/-- The loop over `b` of `scalar_slide` (cref.c:559-577): `for (b = 1; b < 256 - j && b <= 6; ++b)`; `n` is at least the number of rounds
left. -/
def slideInner (m : Int) (j : Int) : Nat → Nat → Arr Int8 → Option (Arr Int8)
  | 0, _, r => some r
  | n + 1, b, r =>
    if (b : Int) < 256 - j ∧ b ≤ 6 then do
      if (← rd r j).toInt + (← rd r (j + b)).toInt * 2 ^ b ≤ m then
        let r ← wr r j (Int8.ofInt ((← rd r j).toInt + (← rd r (j + b)).toInt * 2 ^ b))
        let r ← wr r (j + b) 0
        slideInner m j n (b + 1) r
      else if (← rd r j).toInt - (← rd r (j + b)).toInt * 2 ^ b ≥ -m then
        let r ← wr r j (Int8.ofInt ((← rd r j).toInt - (← rd r (j + b)).toInt * 2 ^ b))
        let r ← slideCarry 256 (j + b) r
        slideInner m j n (b + 1) r
      else if (← rd r (j + b)) ≠ 0 then some r
      else slideInner m j n (b + 1) r
    else some r

/-- One round of the loop over `j` of `scalar_slide` (cref.c:556-579). -/
def slideRound (m : Int) (j : Int) (r : Arr Int8) : Option (Arr Int8) := do
  if (← rd r j) ≠ 0 then slideInner m j 6 1 r else some r

/-- `scalar_slide` (cref.c:538-580). -/
def slide (s : Arr UInt32) (swindowsize : Nat) (r : Arr Int8) : Option (Arr Int8) := do
  let m : Int := 2 ^ (swindowsize - 1) - 1
  let r ← forLt 0 32 1 (slideBitsRound s) r
  forLt 0 256 1 (slideRound m) r

/-! ## Field elements -/

/-- `fe25519_cmov` (cref.c:863-869) on the arrays `r->v` and `x->v`. -/
def cmov (x : Arr Int32) (b : UInt8) (r : Arr Int32) : Option (Arr Int32) := do
  let mask : UInt32 := b.toUInt32
  let mask : UInt32 := -mask
  forLt 0 10 1 (fun i r => do wr r i (cmovLimb mask (← rd r i) (← rd x i))) r

/-- The array `v` of a field element (cref.h:79-83). -/
def limbs (x : Fe25) : List Int32 := [x.l0, x.l1, x.l2, x.l3, x.l4, x.l5, x.l6, x.l7, x.l8, x.l9]

section
variable {F : Type} [O : CrefOps F]

/-- `fe25519_iszero` (cref.c:815-823). -/
def iszero (f : F) : Option Int32 := do
  let s : Arr UInt8 := full (O.pack f).toList
  let r ← forLt 0 32 1 (fun i (r : Int32) => do
    some (r.toUInt32 ||| (1 - staticEqual ((← Loops.get (List.replicate 32 (0 : UInt8)) i).toUInt32) (← rd s i).toUInt32)).toInt32) 0
  some (1 - r)

/-! ## Scalar multiplication -/

/-- One round of the loop of `choose_t` (cref.c:2179-2183); `j` is a `signed char`. -/
def chooseRound (pre : Arr (ExtPt F)) (b : Int8) (j : Int) (t : ExtPt F) : Option (ExtPt F) := do
  let c := groupStaticEqual b (Int8.ofInt j) ||| groupStaticEqual (-b) (Int8.ofInt j)
  some (cmovPt t (← rd pre j) c)

/-- `choose_t` (cref.c:2169-2189). -/
def chooseT (pre : Arr (ExtPt F)) (b : Int8) : Option (ExtPt F) := do
  let t ← rd pre 0
  let t ← forLt 1 17 1 (chooseRound pre b) t
  let v := O.neg t.X
  let X := O.cmov t.X v (Cref.negative b)
  let v := O.neg t.T
  let T := O.cmov t.T v (Cref.negative b)
  some ⟨X, t.Y, t.Z, T⟩

/-- One round of the loop of the precomputation (cref.c:2436-2437). -/
def precompRound (i : Int) (pre : Arr (ExtPt F)) : Option (Arr (ExtPt F)) := do
  let pre ← wr pre i (geDouble (← rd pre (i / 2)))
  wr pre (i + 1) (geAdd (← rd pre i) (← rd pre 1))

/-- The precomputation of `group_ge_scalarmult` (cref.c:2431-2439). -/
def precomp (x : ExtPt F) : Option (Arr (ExtPt F)) := do
  let pre : Arr (ExtPt F) := uninit 17
  let pre ← wr pre 0 neutral
  let pre ← wr pre 1 x
  let pre ← forLt 2 16 2 precompRound pre
  wr pre 16 (geDouble (← rd pre 8))

/-- `group_ge_scalarmult` (cref.c:2423-2450). -/
def scalarMult (x : ExtPt F) (s : Arr UInt32) : Option (ExtPt F) := do
  let win5 ← window5 s (uninit 51)
  let pre ← precomp x
  let r := neutral
  forDown 50 (fun i r => do
    let r ← forLt 0 5 1 (fun _ r => some (geDouble r)) r
    let t ← chooseT pre (← rd win5 i)
    some (geAdd r t)) r

/-- `choose_t_aff` (cref.c:2156-2166). -/
def chooseTAff (tab : List (AffPt F)) (pos : Int) (b : Int8) : Option (AffPt F) := do
  let t ← Loops.get tab (5 * pos + 0)
  let t := cmovAff t (← Loops.get tab (5 * pos + 1)) (groupStaticEqual b 1 ||| groupStaticEqual b (-1))
  let t := cmovAff t (← Loops.get tab (5 * pos + 2)) (groupStaticEqual b 2 ||| groupStaticEqual b (-2))
  let t := cmovAff t (← Loops.get tab (5 * pos + 3)) (groupStaticEqual b 3 ||| groupStaticEqual b (-3))
  let t := cmovAff t (← Loops.get tab (5 * pos + 4)) (groupStaticEqual b (-4))
  let v := O.neg t.x
  some ⟨O.cmov t.x v (Cref.negative b), t.y⟩

/-- `group_ge_scalarmult_base` (cref.c:2452-2467) with the table `tab`. -/
def scalarMultBase (tab : List (AffPt F)) (s : Arr UInt32) : Option (ExtPt F) := do
  let b ← window3 s (uninit 85)
  let t ← chooseTAff tab 0 (← rd b 0)
  let r : ExtPt F := ⟨t.x, t.y, O.one, O.mul t.x t.y⟩
  forLt 1 85 1 (fun i r => do
    let t ← chooseTAff tab i (← rd b i)
    some (mixadd2 r t)) r

/-! ## Programs -/

/-- The variables of a program: those of `CMem`, but the scalars are arrays in memory. -/
structure LMem (F : Type) where
  fes : Nat → F
  pts : Nat → ExtPt F
  scs : SMem

/-- Set a point variable. -/
def LMem.setPt (l : LMem F) (g : Nat) (v : ExtPt F) : LMem F := { l with pts := fun k => if k = g then v else l.pts k }

/-- One round of the loop of `group_ge_multiscalarmult` (cref.c:2475-2479). -/
def multiStep (r : Nat) (l : LMem F) (xs : Nat × Nat) : Option (LMem F) := do
  let t ← scalarMult (l.pts xs.1) (l.scs (.var xs.2))
  some (l.setPt r (geAdd (l.pts r) t))

/-- The bytes of an output buffer, all of which must have been written. -/
def toBuf (a : Arr UInt8) : Option (Bytes 32) := do
  let b ← a.mapM id
  if h : b.length = 32 then some ⟨b.toArray, by simpa using h⟩ else none

variable [T : CrefTab F]

/-- One call: as `kexec`, with the functions above.  Calls that have no scalar argument are those of `kexec`. -/
def lexec (l : LMem F) : KCmd → Option (LMem F × COut)
  | .go (.geScalarMult g x s) => do
    let v ← scalarMult (l.pts x) (l.scs (.var s))
    some (l.setPt g v, .unit)
  | .go (.scUnpack s buf) => do
    let m ← l.scs.onSc (.var s) (unpack buf.toList)
    some ({ l with scs := m }, .unit)
  | .go (.scPack s) => do
    let b ← pack (l.scs (.var s)) (uninit 32)
    some (l, .bytes (← toBuf b))
  | .scSetZero r => do some ({ l with scs := ← l.scs.onSc (.var r) setZero }, .unit)
  | .scSetOne r => do some ({ l with scs := ← l.scs.onSc (.var r) setOne }, .unit)
  | .scAdd r x y => do some ({ l with scs := ← add (.var r) (.var x) (.var y) l.scs }, .unit)
  | .scSub r x y => do some ({ l with scs := ← sub (.var r) (.var x) (.var y) l.scs }, .unit)
  | .scNegate r x => do some ({ l with scs := ← negate (.var r) (.var x) l.scs }, .unit)
  | .scMul r x y => do some ({ l with scs := ← mul (.var r) (.var x) (.var y) l.scs }, .unit)
  | .scSquare r x => do some ({ l with scs := ← square (.var r) (.var x) l.scs }, .unit)
  | .scInvert r x => do some ({ l with scs := ← invert (.var r) (.var x) l.scs }, .unit)
  | .scFrom64 r h => do some ({ l with scs := ← l.scs.onSc (.var r) (from64bytes h.toList) }, .unit)
  | .scIsOne x => do some (l, .int (← isOne (l.scs (.var x))))
  | .scIsZero x => do some (l, .int (← isZero (l.scs (.var x))))
  | .scEquals x y => do some (l, .int (← equals (l.scs (.var x)) (l.scs (.var y))))
  | .scTstbit x pos => do some (l, .int (← tstbit (l.scs (.var x)) (UInt32.ofNat pos.val)))
  | .scBitlen x => do some (l, .int (← bitlen (l.scs (.var x))))
  | .geScalarMultBase r s => do
    let v ← scalarMultBase T.tab (l.scs (.var s))
    some (l.setPt r v, .unit)
  | .geMultiScalarMult r xs => do
    let l ← xs.foldlM (multiStep r) (l.setPt r neutral)
    some (l, .unit)
  | .feIsZero x => do some (l, .int (← iszero (l.fes x)))
  | c =>
    let m := kexec ⟨l.fes, l.pts, fun _ => scSetZero⟩ c
    some (⟨m.1.fes, m.1.pts, l.scs⟩, m.2)

/-- A program. -/
def lrun : LMem F → List KCmd → Option (LMem F × List COut)
  | l, [] => some (l, [])
  | l, c :: cs => do
    let r ← lexec l c
    let rs ← lrun r.1 cs
    some (rs.1, r.2 :: rs.2)

end

end Ristretto.Model.CrefLoops
