import Verif.Model.Scalar

/-!
# Scalar multiplication and reduction with checks for overflow (scalar.go)

`Mul`, `Square`, `MulAdd`, `MulSub` and `SetReduced` compute on `int64`; Go wraps around silently.  Here the statements
of Model/Scalar are written once more on numbers that remember whether an operation on the way to them overflowed
(`ok = false`): a sum, difference, product or negation, or a `carry[i] << 21`, whose exact value does not fit into an
`int64`.

The unpacking of the words into 21-bit pieces and the final packing consist of shifts, masks and `|` and are not
checked; the borrow chain of `Sub` wraps around on purpose and is not part of this file.
-/

namespace Ristretto.Model.ScalarChecked
open Ristretto.Model Ristretto.Model.Scalar
set_option autoImplicit false

/-- An `int64`, and whether the operations that led to it stayed in range. -/
structure I where
  val : Int64
  ok : Bool
deriving DecidableEq

namespace I
/-- A number that was computed before. -/
def of (x : Int64) : I := ⟨x, true⟩
/-- The result `x` of an operation whose exact value is `z`. -/
def exact (x : Int64) (z : Int) (ok : Bool) : I := ⟨x, ok && decide (x.toInt = z)⟩
instance {n : Nat} : OfNat I n := ⟨of (OfNat.ofNat n)⟩
instance : Add I := ⟨fun a b => exact (a.val + b.val) (a.val.toInt + b.val.toInt) (a.ok && b.ok)⟩
instance : Sub I := ⟨fun a b => exact (a.val - b.val) (a.val.toInt - b.val.toInt) (a.ok && b.ok)⟩
instance : Mul I := ⟨fun a b => exact (a.val * b.val) (a.val.toInt * b.val.toInt) (a.ok && b.ok)⟩
instance : Neg I := ⟨fun a => exact (-a.val) (-a.val.toInt) a.ok⟩
instance : ShiftLeft I := ⟨fun a b => exact (a.val <<< b.val) (a.val.toInt * 2 ^ b.val.toInt.toNat) (a.ok && b.ok)⟩
instance : ShiftRight I := ⟨fun a b => ⟨a.val >>> b.val, a.ok && b.ok⟩⟩
end I

/-- The 24 local variables (scalar.go:1113-1116). -/
abbrev CLimbs := Nat → I

/-- Assignment to one of the variables. -/
def put (s : CLimbs) (i : Nat) (v : I) : CLimbs := fun k => if k = i then v else s k

/-- The variables initialised from an argument list; the others are zero (scalar.go:1116). -/
def ofList (l : List I) : CLimbs := fun i => l.getD i 0

/-- One statement group of the reduction (scalar.go:1119-1444 and 432-688; quoted at `RedOp`). -/
def exec : RedOp → CLimbs → CLimbs
  | .carryR i, s =>
    let c := (s i + ((1 : I) <<< (20 : I))) >>> (21 : I)
    let s := put s (i + 1) (s (i + 1) + c)
    put s i (s i - (c <<< (21 : I)))
  | .carryF i, s =>
    let c := s i >>> (21 : I)
    let s := put s (i + 1) (s (i + 1) + c)
    put s i (s i - (c <<< (21 : I)))
  | .fold j, s =>
    let s := put s (j - 12) (s (j - 12) + s j * 666643)
    let s := put s (j - 11) (s (j - 11) + s j * 470296)
    let s := put s (j - 10) (s (j - 10) + s j * 654183)
    let s := put s (j - 9) (s (j - 9) - s j * 997805)
    let s := put s (j - 8) (s (j - 8) + s j * 136657)
    let s := put s (j - 7) (s (j - 7) - s j * 683901)
    put s j 0

/-- A sequence of statement groups. -/
def execAll (ops : List RedOp) (s : CLimbs) : CLimbs := ops.foldl (fun s o => exec o s) s

/-- `reduceAfterMul` (scalar.go:1113-1444): the variables before the final packing. -/
def reduce (args : List I) : CLimbs := execAll reduceTail (execAll reduceHead (ofList args))

/-- The 21-bit pieces of a scalar (scalar.go:754-778). -/
def pieces (a : Scalar) : Nat → I := fun i => .of (unpack a i)

/-- The arguments `Mul` passes to `reduceAfterMul` (scalar.go:780-803). -/
def mulArgs (a b : Nat → I) : List I :=
  [a 0 * b 0,
   a 0 * b 1 + a 1 * b 0,
   a 0 * b 2 + a 1 * b 1 + a 2 * b 0,
   a 0 * b 3 + a 1 * b 2 + a 2 * b 1 + a 3 * b 0,
   a 0 * b 4 + a 1 * b 3 + a 2 * b 2 + a 3 * b 1 + a 4 * b 0,
   a 0 * b 5 + a 1 * b 4 + a 2 * b 3 + a 3 * b 2 + a 4 * b 1 + a 5 * b 0,
   a 0 * b 6 + a 1 * b 5 + a 2 * b 4 + a 3 * b 3 + a 4 * b 2 + a 5 * b 1 + a 6 * b 0,
   a 0 * b 7 + a 1 * b 6 + a 2 * b 5 + a 3 * b 4 + a 4 * b 3 + a 5 * b 2 + a 6 * b 1 + a 7 * b 0,
   a 0 * b 8 + a 1 * b 7 + a 2 * b 6 + a 3 * b 5 + a 4 * b 4 + a 5 * b 3 + a 6 * b 2 + a 7 * b 1 + a 8 * b 0,
   a 0 * b 9 + a 1 * b 8 + a 2 * b 7 + a 3 * b 6 + a 4 * b 5 + a 5 * b 4 + a 6 * b 3 + a 7 * b 2 + a 8 * b 1 + a 9 * b 0,
   a 0 * b 10 + a 1 * b 9 + a 2 * b 8 + a 3 * b 7 + a 4 * b 6 + a 5 * b 5 + a 6 * b 4 + a 7 * b 3 + a 8 * b 2 + a 9 * b 1 + a 10 * b 0,
   a 0 * b 11 + a 1 * b 10 + a 2 * b 9 + a 3 * b 8 + a 4 * b 7 + a 5 * b 6 + a 6 * b 5 + a 7 * b 4 + a 8 * b 3 + a 9 * b 2 + a 10 * b 1 + a 11 * b 0,
   a 1 * b 11 + a 2 * b 10 + a 3 * b 9 + a 4 * b 8 + a 5 * b 7 + a 6 * b 6 + a 7 * b 5 + a 8 * b 4 + a 9 * b 3 + a 10 * b 2 + a 11 * b 1,
   a 2 * b 11 + a 3 * b 10 + a 4 * b 9 + a 5 * b 8 + a 6 * b 7 + a 7 * b 6 + a 8 * b 5 + a 9 * b 4 + a 10 * b 3 + a 11 * b 2,
   a 3 * b 11 + a 4 * b 10 + a 5 * b 9 + a 6 * b 8 + a 7 * b 7 + a 8 * b 6 + a 9 * b 5 + a 10 * b 4 + a 11 * b 3,
   a 4 * b 11 + a 5 * b 10 + a 6 * b 9 + a 7 * b 8 + a 8 * b 7 + a 9 * b 6 + a 10 * b 5 + a 11 * b 4,
   a 5 * b 11 + a 6 * b 10 + a 7 * b 9 + a 8 * b 8 + a 9 * b 7 + a 10 * b 6 + a 11 * b 5,
   a 6 * b 11 + a 7 * b 10 + a 8 * b 9 + a 9 * b 8 + a 10 * b 7 + a 11 * b 6,
   a 7 * b 11 + a 8 * b 10 + a 9 * b 9 + a 10 * b 8 + a 11 * b 7,
   a 8 * b 11 + a 9 * b 10 + a 10 * b 9 + a 11 * b 8,
   a 9 * b 11 + a 10 * b 10 + a 11 * b 9,
   a 10 * b 11 + a 11 * b 10,
   a 11 * b 11]

/-- The arguments `Square` passes to `reduceAfterMul` (scalar.go:726-749). -/
def squareArgs (a : Nat → I) : List I :=
  [a 0 * a 0,
   2 * a 0 * a 1,
   2 * a 0 * a 2 + a 1 * a 1,
   2 * (a 0 * a 3 + a 1 * a 2),
   2 * (a 0 * a 4 + a 1 * a 3) + a 2 * a 2,
   2 * (a 0 * a 5 + a 1 * a 4 + a 2 * a 3),
   2 * (a 0 * a 6 + a 1 * a 5 + a 2 * a 4) + a 3 * a 3,
   2 * (a 0 * a 7 + a 1 * a 6 + a 2 * a 5 + a 3 * a 4),
   2 * (a 0 * a 8 + a 1 * a 7 + a 2 * a 6 + a 3 * a 5) + a 4 * a 4,
   2 * (a 0 * a 9 + a 1 * a 8 + a 2 * a 7 + a 3 * a 6 + a 4 * a 5),
   2 * (a 0 * a 10 + a 1 * a 9 + a 2 * a 8 + a 3 * a 7 + a 4 * a 6) + a 5 * a 5,
   2 * (a 0 * a 11 + a 1 * a 10 + a 2 * a 9 + a 3 * a 8 + a 4 * a 7 + a 5 * a 6),
   2 * (a 1 * a 11 + a 2 * a 10 + a 3 * a 9 + a 4 * a 8 + a 5 * a 7) + a 6 * a 6,
   2 * (a 2 * a 11 + a 3 * a 10 + a 4 * a 9 + a 5 * a 8 + a 6 * a 7),
   2 * (a 3 * a 11 + a 4 * a 10 + a 5 * a 9 + a 6 * a 8) + a 7 * a 7,
   2 * (a 4 * a 11 + a 5 * a 10 + a 6 * a 9 + a 7 * a 8),
   2 * (a 5 * a 11 + a 6 * a 10 + a 7 * a 9) + a 8 * a 8,
   2 * (a 6 * a 11 + a 7 * a 10 + a 8 * a 9),
   2 * (a 7 * a 11 + a 8 * a 10) + a 9 * a 9,
   2 * (a 8 * a 11 + a 9 * a 10),
   2 * a 9 * a 11 + a 10 * a 10,
   2 * a 10 * a 11,
   a 11 * a 11]

/-- The arguments `MulAdd` passes to `reduceAfterMul` (scalar.go:353-376). -/
def mulAddArgs (a b c : Nat → I) : List I :=
  [c 0 + a 0 * b 0,
   c 1 + a 0 * b 1 + a 1 * b 0,
   c 2 + a 0 * b 2 + a 1 * b 1 + a 2 * b 0,
   c 3 + a 0 * b 3 + a 1 * b 2 + a 2 * b 1 + a 3 * b 0,
   c 4 + a 0 * b 4 + a 1 * b 3 + a 2 * b 2 + a 3 * b 1 + a 4 * b 0,
   c 5 + a 0 * b 5 + a 1 * b 4 + a 2 * b 3 + a 3 * b 2 + a 4 * b 1 + a 5 * b 0,
   c 6 + a 0 * b 6 + a 1 * b 5 + a 2 * b 4 + a 3 * b 3 + a 4 * b 2 + a 5 * b 1 + a 6 * b 0,
   c 7 + a 0 * b 7 + a 1 * b 6 + a 2 * b 5 + a 3 * b 4 + a 4 * b 3 + a 5 * b 2 + a 6 * b 1 + a 7 * b 0,
   c 8 + a 0 * b 8 + a 1 * b 7 + a 2 * b 6 + a 3 * b 5 + a 4 * b 4 + a 5 * b 3 + a 6 * b 2 + a 7 * b 1 + a 8 * b 0,
   c 9 + a 0 * b 9 + a 1 * b 8 + a 2 * b 7 + a 3 * b 6 + a 4 * b 5 + a 5 * b 4 + a 6 * b 3 + a 7 * b 2 + a 8 * b 1 + a 9 * b 0,
   c 10 + a 0 * b 10 + a 1 * b 9 + a 2 * b 8 + a 3 * b 7 + a 4 * b 6 + a 5 * b 5 + a 6 * b 4 + a 7 * b 3 + a 8 * b 2 + a 9 * b 1 + a 10 * b 0,
   c 11 + a 0 * b 11 + a 1 * b 10 + a 2 * b 9 + a 3 * b 8 + a 4 * b 7 + a 5 * b 6 + a 6 * b 5 + a 7 * b 4 + a 8 * b 3 + a 9 * b 2 + a 10 * b 1 + a 11 * b 0,
   a 1 * b 11 + a 2 * b 10 + a 3 * b 9 + a 4 * b 8 + a 5 * b 7 + a 6 * b 6 + a 7 * b 5 + a 8 * b 4 + a 9 * b 3 + a 10 * b 2 + a 11 * b 1,
   a 2 * b 11 + a 3 * b 10 + a 4 * b 9 + a 5 * b 8 + a 6 * b 7 + a 7 * b 6 + a 8 * b 5 + a 9 * b 4 + a 10 * b 3 + a 11 * b 2,
   a 3 * b 11 + a 4 * b 10 + a 5 * b 9 + a 6 * b 8 + a 7 * b 7 + a 8 * b 6 + a 9 * b 5 + a 10 * b 4 + a 11 * b 3,
   a 4 * b 11 + a 5 * b 10 + a 6 * b 9 + a 7 * b 8 + a 8 * b 7 + a 9 * b 6 + a 10 * b 5 + a 11 * b 4,
   a 5 * b 11 + a 6 * b 10 + a 7 * b 9 + a 8 * b 8 + a 9 * b 7 + a 10 * b 6 + a 11 * b 5,
   a 6 * b 11 + a 7 * b 10 + a 8 * b 9 + a 9 * b 8 + a 10 * b 7 + a 11 * b 6,
   a 7 * b 11 + a 8 * b 10 + a 9 * b 9 + a 10 * b 8 + a 11 * b 7,
   a 8 * b 11 + a 9 * b 10 + a 10 * b 9 + a 11 * b 8,
   a 9 * b 11 + a 10 * b 10 + a 11 * b 9,
   a 10 * b 11 + a 11 * b 10,
   a 11 * b 11]

/-- The arguments `MulSub` passes to `reduceAfterMul` (scalar.go:286-309). -/
def mulSubArgs (a b c : Nat → I) : List I :=
  [-c 0 + a 0 * b 0,
   -c 1 + a 0 * b 1 + a 1 * b 0,
   -c 2 + a 0 * b 2 + a 1 * b 1 + a 2 * b 0,
   -c 3 + a 0 * b 3 + a 1 * b 2 + a 2 * b 1 + a 3 * b 0,
   -c 4 + a 0 * b 4 + a 1 * b 3 + a 2 * b 2 + a 3 * b 1 + a 4 * b 0,
   -c 5 + a 0 * b 5 + a 1 * b 4 + a 2 * b 3 + a 3 * b 2 + a 4 * b 1 + a 5 * b 0,
   -c 6 + a 0 * b 6 + a 1 * b 5 + a 2 * b 4 + a 3 * b 3 + a 4 * b 2 + a 5 * b 1 + a 6 * b 0,
   -c 7 + a 0 * b 7 + a 1 * b 6 + a 2 * b 5 + a 3 * b 4 + a 4 * b 3 + a 5 * b 2 + a 6 * b 1 + a 7 * b 0,
   -c 8 + a 0 * b 8 + a 1 * b 7 + a 2 * b 6 + a 3 * b 5 + a 4 * b 4 + a 5 * b 3 + a 6 * b 2 + a 7 * b 1 + a 8 * b 0,
   -c 9 + a 0 * b 9 + a 1 * b 8 + a 2 * b 7 + a 3 * b 6 + a 4 * b 5 + a 5 * b 4 + a 6 * b 3 + a 7 * b 2 + a 8 * b 1 + a 9 * b 0,
   -c 10 + a 0 * b 10 + a 1 * b 9 + a 2 * b 8 + a 3 * b 7 + a 4 * b 6 + a 5 * b 5 + a 6 * b 4 + a 7 * b 3 + a 8 * b 2 + a 9 * b 1 + a 10 * b 0,
   -c 11 + a 0 * b 11 + a 1 * b 10 + a 2 * b 9 + a 3 * b 8 + a 4 * b 7 + a 5 * b 6 + a 6 * b 5 + a 7 * b 4 + a 8 * b 3 + a 9 * b 2 + a 10 * b 1 + a 11 * b 0,
   a 1 * b 11 + a 2 * b 10 + a 3 * b 9 + a 4 * b 8 + a 5 * b 7 + a 6 * b 6 + a 7 * b 5 + a 8 * b 4 + a 9 * b 3 + a 10 * b 2 + a 11 * b 1,
   a 2 * b 11 + a 3 * b 10 + a 4 * b 9 + a 5 * b 8 + a 6 * b 7 + a 7 * b 6 + a 8 * b 5 + a 9 * b 4 + a 10 * b 3 + a 11 * b 2,
   a 3 * b 11 + a 4 * b 10 + a 5 * b 9 + a 6 * b 8 + a 7 * b 7 + a 8 * b 6 + a 9 * b 5 + a 10 * b 4 + a 11 * b 3,
   a 4 * b 11 + a 5 * b 10 + a 6 * b 9 + a 7 * b 8 + a 8 * b 7 + a 9 * b 6 + a 10 * b 5 + a 11 * b 4,
   a 5 * b 11 + a 6 * b 10 + a 7 * b 9 + a 8 * b 8 + a 9 * b 7 + a 10 * b 6 + a 11 * b 5,
   a 6 * b 11 + a 7 * b 10 + a 8 * b 9 + a 9 * b 8 + a 10 * b 7 + a 11 * b 6,
   a 7 * b 11 + a 8 * b 10 + a 9 * b 9 + a 10 * b 8 + a 11 * b 7,
   a 8 * b 11 + a 9 * b 10 + a 10 * b 9 + a 11 * b 8,
   a 9 * b 11 + a 10 * b 10 + a 11 * b 9,
   a 10 * b 11 + a 11 * b 10,
   a 11 * b 11]

/-- The outcome: the scalar that the final statements pack (scalar.go:1446-1453 and 690-697), or nothing if an operation
on the way to one of the variables overflowed.  (A variable is only set to zero after it was added to others, so that an
overflow leaves a trace.) -/
def outcome (s : CLimbs) : Option Scalar :=
  if (List.range 24).all (fun k => (s k).ok) then some (pack fun k => (s k).val) else none

/-- `Mul` (scalar.go:753-804). -/
def mul (a b : Scalar) : Option Scalar := outcome (reduce (mulArgs (pieces a) (pieces b)))
/-- `Square` (scalar.go:712-750). -/
def square (a : Scalar) : Option Scalar := outcome (reduce (squareArgs (pieces a)))
/-- `MulAdd` (scalar.go:313-377). -/
def mulAdd (a b c : Scalar) : Option Scalar := outcome (reduce (mulAddArgs (pieces a) (pieces b) (pieces c)))
/-- `MulSub` (scalar.go:246-310). -/
def mulSub (a b c : Scalar) : Option Scalar := outcome (reduce (mulSubArgs (pieces a) (pieces b) (pieces c)))
/-- `SetReduced` (scalar.go:406-698). -/
def setReduced (t : Bytes 64) : Option Scalar := outcome (execAll reduceTail (ofList ((unpack64 t).map .of)))
/-- `Derive` (scalar.go:398-403), for any hash function `sha512`. -/
def derive (sha512 : List UInt8 → Bytes 64) (buf : List UInt8) : Option Scalar := setReduced (sha512 buf)

/-- `Inverse` (scalar.go:807-1011): the statements of `invProg`, then 126 squarings and a multiplication. -/
def inverse (t : Scalar) : Option Scalar :=
  let mulO : Option Scalar → Option Scalar → Option Scalar := fun a b => a.bind fun a => b.bind fun b => mul a b
  let squareO : Option Scalar → Option Scalar := fun a => a.bind square
  let r := invProg.foldl (fun r o => o.exec mulO squareO r) (fun k => some (if k = 6 then t else scZero))
  let t0 := Nat.repeat squareO 126 (r 0)
  mulO (r 3) t0

end Ristretto.Model.ScalarChecked
