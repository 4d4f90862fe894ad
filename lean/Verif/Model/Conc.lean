import Verif.Model.Machine
import Verif.Model.Field25
import Verif.Model.Asm
import Mathlib.Logic.Function.Basic

/-!
# Goroutines

The package takes no locks and starts no goroutines, but its methods are called from goroutines of
the client that share variables.  Here every method is a sequence of loads and stores of single words
(limbs of field elements, words of scalars) of the variables of the client, in the order of the
statements in /repo, and the accesses of several goroutines are interleaved in any order.

Simplifications.  Memory is sequentially consistent; `Verif.Props.Conc` shows that the programs it
speaks about have no data race, which is when the Go memory model promises this.  Local variables and
byte buffers belong to one goroutine and are Lean values.  The constants of the package (`feD`,
`epBase`, `scL`, `BaseScalarMultTable`, ...) are never written and are Lean values.  A field
operation loads all limbs of its operands, then stores all limbs of its result; the order inside one
field operation is the subject of `Verif.Model.Alias`.  The exception is `BytesInto`, which in the
generic build works in place on its receiver and is modelled statement by statement.
-/

namespace Ristretto.Model.Conc
open FieldOps

/-! ## Programs -/

/-- A program that loads and stores words: what it does next.  `V l` is the type of the word at
location `l`; `fail` is a panic. -/
inductive Prog {L : Type} (V : L → Type) (α : Type) where
  | ret (a : α)
  | fail
  | ld (l : L) (k : V l → Prog V α)
  | st (l : L) (v : V l) (k : Prog V α)

section
variable {L : Type} {V : L → Type} {α β : Type}

/-- One program after another. -/
def Prog.bind : Prog V α → (α → Prog V β) → Prog V β
  | .ret a, f => f a
  | .fail, _ => .fail
  | .ld l k, f => .ld l fun v => (k v).bind f
  | .st l v k, f => .st l v (k.bind f)

instance : Monad (Prog V) where
  pure := .ret
  bind := .bind

/-- A partial operation: `none` is a panic. -/
def ofOption : Option α → Prog V α
  | none => .fail
  | some a => .ret a

/-- The memory: a word for every location. -/
abbrev Memory (V : L → Type) := (l : L) → V l

variable [DecidableEq L]

/-- The program run alone: its result and the memory it leaves (`none`: panic). -/
def Prog.run : Prog V α → Memory V → Option (α × Memory V)
  | .ret a, m => some (a, m)
  | .fail, _ => none
  | .ld l k, m => (k (m l)).run m
  | .st l v k, m => k.run (Function.update m l v)

/-- The next memory access of a program.  A program that is finished, or has panicked, does
nothing. -/
def Prog.step : Prog V α → Memory V → Prog V α × Memory V
  | .ret a, m => (.ret a, m)
  | .fail, m => (.fail, m)
  | .ld l k, m => (k (m l), m)
  | .st l v k, m => (k, Function.update m l v)

/-- Several goroutines on one memory: what each still has to do. -/
structure Conf (ι : Type) (V : L → Type) (α : Type) where
  threads : ι → Prog V α
  mem : Memory V

variable {ι : Type} [DecidableEq ι]

/-- Goroutine `i` makes its next memory access. -/
def Conf.step (c : Conf ι V α) (i : ι) : Conf ι V α :=
  let r := (c.threads i).step c.mem
  ⟨Function.update c.threads i r.1, r.2⟩

/-- The scheduler lets the goroutines make memory accesses in the order of the list. -/
def Conf.sched (c : Conf ι V α) (σ : List ι) : Conf ι V α := σ.foldl Conf.step c

end

/-! ## The words of field elements -/

/-- The limbs of the field elements of a build, and `BytesInto` (field_radix51.go:213-254,
field_generic.go:251-331) as a program on the limbs of its receiver. -/
class Words (F : Type) [FieldOps F] where
  /-- the type of a limb -/
  W : Type
  /-- the number of limbs -/
  num : Nat
  words : F → List W
  ofWords : List W → F
  /-- `BytesInto` on the receiver whose limb `i` is at location `i` -/
  bytesP : Prog (fun _ : Nat => W) (Bytes 32)

/-- The words of a field element of the default build (field_radix51.go:8). -/
def words51 (x : Fe51) : List UInt64 := [x.l0, x.l1, x.l2, x.l3, x.l4]
/-- See `words51`. -/
def ofWords51 : List UInt64 → Fe51
  | [a, b, c, d, e] => ⟨a, b, c, d, e⟩
  | _ => ⟨0, 0, 0, 0, 0⟩

/-- The limbs of the receiver, one after another. -/
def loads {W : Type} : List Nat → Prog (fun _ : Nat => W) (List W)
  | [] => .ret []
  | i :: is => .ld i fun w => (loads is).bind fun ws => .ret (w :: ws)

/-- The default build: `BytesInto` starts by copying its receiver (field_radix51.go:214-215). -/
instance : Words Fe51 where
  W := UInt64
  num := 5
  words := words51
  ofWords := ofWords51
  bytesP := do return Fe51.bytes (ofWords51 (← loads [0, 1, 2, 3, 4]))

/-- The amd64 assembly is for field multiplication and squaring only. -/
instance : Words Asm.FeAsm where
  W := UInt64
  num := 5
  words := words51
  ofWords := ofWords51
  bytesP := do return Fe51.bytes (ofWords51 (← loads [0, 1, 2, 3, 4]))

/-- The words of a field element of the generic build (field_generic.go:8). -/
def words25 (x : Fe25) : List Int32 :=
  [x.l0, x.l1, x.l2, x.l3, x.l4, x.l5, x.l6, x.l7, x.l8, x.l9]
/-- See `words25`. -/
def ofWords25 : List Int32 → Fe25
  | [a, b, c, d, e, f, g, h, i, j] => ⟨a, b, c, d, e, f, g, h, i, j⟩
  | _ => ⟨0, 0, 0, 0, 0, 0, 0, 0, 0, 0⟩

/-- A program on the limbs of one field element of the generic build. -/
abbrev Limb (α : Type) := Prog (fun _ : Nat => Int32) α
/-- Load `fe[i]`. -/
def rd (i : Nat) : Limb Int32 := .ld i .ret
/-- Store `fe[i] = v`. -/
def wr (i : Nat) (v : Int32) : Limb Unit := .st i v (.ret ())

/-- `carry[i] = fe[i] >> s; fe[i+1] += carry[i]; fe[i] -= carry[i] << s`
(three consecutive lines of field_generic.go:268-294). -/
def carryStep (i : Nat) (s : Int32) : Limb Unit := do
  let c := (← rd i) >>> s
  wr (i + 1) ((← rd (i + 1)) + c)
  wr i ((← rd i) - (c <<< s))

/-- `FieldElement.BytesInto` of the generic build (field_generic.go:251-331), in place on the
receiver.  (The bytes are computed from one load of each limb.) -/
def bytesP25 : Limb (Bytes 32) := do
  let q := (19 * (← rd 9) + 16777216) >>> 25
  let q := ((← rd 0) + q) >>> 26
  let q := ((← rd 1) + q) >>> 25
  let q := ((← rd 2) + q) >>> 26
  let q := ((← rd 3) + q) >>> 25
  let q := ((← rd 4) + q) >>> 26
  let q := ((← rd 5) + q) >>> 25
  let q := ((← rd 6) + q) >>> 26
  let q := ((← rd 7) + q) >>> 25
  let q := ((← rd 8) + q) >>> 26
  let q := ((← rd 9) + q) >>> 25
  wr 0 ((← rd 0) + 19 * q)
  carryStep 0 26
  carryStep 1 25
  carryStep 2 26
  carryStep 3 25
  carryStep 4 26
  carryStep 5 25
  carryStep 6 26
  carryStep 7 25
  carryStep 8 26
  let c := (← rd 9) >>> 25
  wr 9 ((← rd 9) - (c <<< 25))
  return Fe25.pack (ofWords25 (← loads [0, 1, 2, 3, 4, 5, 6, 7, 8, 9]))

instance : Words Fe25 where
  W := Int32
  num := 10
  words := words25
  ofWords := ofWords25
  bytesP := bytesP25

/-! ## The variables of the client -/

/-- A location: limb `i` of field element `fld` of a point (X, Y, Z, T are 0, 1, 2, 3), word `i` of
a scalar, limb `i` of field element `fld` of entry `[r][j]` of a table (YPlusX, YMinusX, XY2D are 0,
1, 2). -/
inductive Loc where
  | pt (p fld i : Nat)
  | sc (s i : Nat)
  | tab (t r j fld i : Nat)
deriving DecidableEq

section
variable {F : Type} [FieldOps F] [Words F]

/-- The type of the word at a location. -/
@[reducible] def Val (F : Type) [FieldOps F] [Words F] : Loc → Type
  | .pt _ _ _ => Words.W F
  | .sc _ _ => UInt32
  | .tab _ _ _ _ _ => Words.W F

/-- A program on the variables of the client. -/
abbrev M (F : Type) [FieldOps F] [Words F] (α : Type) := Prog (Val F) α

/-- Load limbs `i, i+1, ...` (`n` of them). -/
def ldWs (f : Nat → M F (Words.W F)) : Nat → Nat → M F (List (Words.W F))
  | _, 0 => .ret []
  | i, n + 1 => do
    let w ← f i
    let ws ← ldWs f (i + 1) n
    return w :: ws

/-- Store limbs `i, i+1, ...`. -/
def stWs (f : Nat → Words.W F → M F Unit) : Nat → List (Words.W F) → M F Unit
  | _, [] => .ret ()
  | i, w :: ws => do
    f i w
    stWs f (i + 1) ws

/-- Load a field element of a point. -/
def ldFe (p fld : Nat) : M F F := do
  return Words.ofWords (← ldWs (fun i => .ld (.pt p fld i) fun w => .ret w) 0 (Words.num F))
/-- Store a field element of a point. -/
def stFe (p fld : Nat) (x : F) : M F Unit :=
  stWs (fun i w => .st (.pt p fld i) w (.ret ())) 0 (Words.words x)
/-- Load a field element of a table. -/
def ldTab (t r j fld : Nat) : M F F := do
  return Words.ofWords (← ldWs (fun i => .ld (.tab t r j fld i) fun w => .ret w) 0 (Words.num F))
/-- Store a field element of a table. -/
def stTab (t r j fld : Nat) (x : F) : M F Unit :=
  stWs (fun i w => .st (.tab t r j fld i) w (.ret ())) 0 (Words.words x)
/-- Load word `i` of a scalar. -/
def ldS (s i : Nat) : M F UInt32 := .ld (.sc s i) fun w => .ret w
/-- Store word `i` of a scalar. -/
def stS (s i : Nat) (v : UInt32) : M F Unit := .st (.sc s i) v (.ret ())

/-- A program on the limbs of a field element, for field element `fld` of point `p`. -/
def atFe (p fld : Nat) {α : Type} : Prog (fun _ : Nat => Words.W F) α → M F α
  | .ret a => .ret a
  | .fail => .fail
  | .ld i k => .ld (.pt p fld i) fun w => atFe p fld (k w)
  | .st i v k => .st (.pt p fld i) v (atFe p fld k)

/-- `buf[0] & 1` (field.go:124). -/
def negOfBytes (buf : Bytes 32) : Int32 := (buf[0] &&& 1).toUInt32.toInt32

/-- `IsNonZeroI` after `BytesInto` (field.go:131-141). -/
def nonZeroOfBytes (buf : Bytes 32) : Int32 :=
  let ret := leUint64 buf[0] buf[1] buf[2] buf[3] buf[4] buf[5] buf[6] buf[7] |||
    leUint64 buf[8] buf[9] buf[10] buf[11] buf[12] buf[13] buf[14] buf[15] |||
    leUint64 buf[16] buf[17] buf[18] buf[19] buf[20] buf[21] buf[22] buf[23] |||
    leUint64 buf[24] buf[25] buf[26] buf[27] buf[28] buf[29] buf[30] buf[31]
  let ret := ret ||| (ret >>> 32)
  let ret := ret ||| (ret >>> 16)
  let ret := ret ||| (ret >>> 8)
  let ret := ret ||| (ret >>> 4)
  let ret := ret ||| (ret >>> 2)
  let ret := ret ||| (ret >>> 1)
  (ret &&& 1).toUInt32.toInt32

/-- `FieldElement.IsNegativeI` (field.go:121-125) on a field element of a point. -/
def isNegP (p fld : Nat) : M F Int32 := do return negOfBytes (← atFe p fld (Words.bytesP (F := F)))
/-- `FieldElement.IsNonZeroI` (field.go:128-142) on a field element of a point. -/
def isNonZeroP (p fld : Nat) : M F Int32 := do return nonZeroOfBytes (← atFe p fld (Words.bytesP (F := F)))

/-! ## Points (curve.go) -/

/-- Coordinate `fld` of a point. -/
def fldOf (x : ExtPt F) : Nat → F
  | 0 => x.X
  | 1 => x.Y
  | 2 => x.Z
  | _ => x.T

/-- How a method gets at the coordinates of an argument. -/
abbrev Rd (F : Type) [FieldOps F] [Words F] := Nat → M F F
/-- The argument is variable `q` of the client. -/
def var (q : Nat) : Rd F := fun fld => ldFe q fld
/-- The argument is a local variable. -/
def loc (x : ExtPt F) : Rd F := fun fld => .ret (fldOf x fld)

/-- `ExtendedPoint.Set` to a local variable (curve.go:76-82). -/
def getP (q : Rd F) : M F (ExtPt F) := do
  let X ← q 0
  let Y ← q 1
  let Z ← q 2
  let T ← q 3
  return ⟨X, Y, Z, T⟩

/-- `ExtendedPoint.Set` (curve.go:76-82). -/
def setP (p : Nat) (q : Rd F) : M F Unit := do
  stFe p 0 (← q 0)
  stFe p 1 (← q 1)
  stFe p 2 (← q 2)
  stFe p 3 (← q 3)

/-- `ExtendedPoint.SetZero` (curve.go:62-68). -/
def zeroP (p : Nat) : M F Unit := do
  stFe p 0 feZero
  stFe p 1 feOne
  stFe p 2 feOne
  stFe p 3 feZero

/-- `ExtendedPoint.ConditionalSet` (curve.go:85-91). -/
def condSetP (p : Nat) (q : Rd F) (b : Int32) : M F Unit := do
  stFe p 0 (condSet (← ldFe p 0) (← q 0) b)
  stFe p 1 (condSet (← ldFe p 1) (← q 1) b)
  stFe p 2 (condSet (← ldFe p 2) (← q 2) b)
  stFe p 3 (condSet (← ldFe p 3) (← q 3) b)

/-- `ExtendedPoint.Neg` (curve.go:409-415). -/
def negP (p : Nat) (q : Rd F) : M F Unit := do
  stFe p 0 (neg (← q 0))
  stFe p 1 (← q 1)
  stFe p 2 (← q 2)
  stFe p 3 (neg (← q 3))

/-- `CompletedPoint.AddExtended` to a local variable (curve.go:94-113). -/
def addExtendedP (q r : Rd F) : M F (ComplPt F) := do
  let a := sub (← q 1) (← q 0)
  let t := sub (← r 1) (← r 0)
  let a := mul a t
  let b := add (← q 0) (← q 1)
  let t := add (← r 0) (← r 1)
  let b := mul b t
  let c := mul (← q 3) (← r 3)
  let c := mul c fe2D
  let d := mul (← q 2) (← r 2)
  let d := add d d
  return { X := sub b a, T := sub d c, Z := add d c, Y := add b a }

/-- `CompletedPoint.SubExtended` to a local variable (curve.go:116-135). -/
def subExtendedP (q r : Rd F) : M F (ComplPt F) := do
  let a := sub (← q 1) (← q 0)
  let t := add (← r 1) (← r 0)
  let a := mul a t
  let b := add (← q 0) (← q 1)
  let t := sub (← r 1) (← r 0)
  let b := mul b t
  let c := mul (← q 3) (← r 3)
  let c := mul c fe2D
  let d := mul (← q 2) (← r 2)
  let d := add d d
  return { X := sub b a, T := add d c, Z := sub d c, Y := add b a }

/-- `CompletedPoint.DoubleExtended` to a local variable (curve.go:155-171). -/
def doubleExtendedP (q : Rd F) : M F (ComplPt F) := do
  let a := square (← q 0)
  let b := square (← q 1)
  let c := doubledSquare (← q 2)
  let d := neg a
  let X := add (← q 0) (← q 1)
  let X := square X
  let X := sub X a
  let X := sub X b
  let Z := add d b
  let T := sub Z c
  let Y := sub d b
  return ⟨X, Y, Z, T⟩

/-- `CompletedPoint.AddExtendedNiels` to a local variable (table.go:43-57). -/
def addExtendedNielsP (q : Rd F) (r : NielsPt F) : M F (ComplPt F) := do
  let X := add (← q 1) (← q 0)
  let Y := sub (← q 1) (← q 0)
  let Z := mul X r.YPlusX
  let Y := mul Y r.YMinusX
  let T := mul r.XY2D (← q 3)
  let t0 := add (← q 2) (← q 2)
  let X := sub Z Y
  let Y := add Z Y
  let Z := add t0 T
  let T := sub t0 T
  return ⟨X, Y, Z, T⟩

/-- `ExtendedPoint.SetCompleted` (curve.go:214-220) from a local variable. -/
def setCompletedP (p : Nat) (c : ComplPt F) : M F Unit := do
  stFe p 0 (mul c.X c.T)
  stFe p 1 (mul c.Y c.Z)
  stFe p 2 (mul c.Z c.T)
  stFe p 3 (mul c.X c.Y)

/-- `ExtendedPoint.RistrettoEqualsI` (curve.go:419-426). -/
def equalsIP (p q : Rd F) : M F Int32 := do
  let x1y2 := mul (← p 0) (← q 1)
  let x2y1 := mul (← q 0) (← p 1)
  let x1x2 := mul (← p 0) (← q 0)
  let y1y2 := mul (← p 1) (← q 1)
  return 1 - ((1 - feEqualsI x1y2 x2y1) &&& (1 - feEqualsI x1x2 y1y2))

/-- `ExtendedPoint.SetRistretto` (curve.go:224-268): whether the buffer was accepted. -/
def setRistrettoP (p : Nat) (buf : Bytes 32) : M F Bool := do
  let s : F := setBytes buf
  let buf2 := bytes s
  let s := touch s
  let ret : Int32 := 1 - ExtPt.constantTimeCompare buf buf2
  let ret := ret ||| (buf2[0] &&& 1).toUInt32.toInt32
  let s2 := square s
  let yDen := add feOne s2
  let yNum := sub feOne s2
  let yDen2 := square yDen
  let xDen2 := square yNum
  let xDen2 := mul xDen2 feD
  let xDen2 := add xDen2 yDen2
  let xDen2 := neg xDen2
  let t := mul xDen2 yDen2
  let isr := invSqrt t
  let chk := square isr
  let chk := mul chk t
  let ret := ret ||| (1 - isOneI chk)
  let xDenInv := mul isr yDen
  let yDenInv := mul xDenInv isr
  let yDenInv := mul yDenInv xDen2
  stFe p 0 (mul s xDenInv)
  stFe p 0 (add (← ldFe p 0) (← ldFe p 0))
  let b ← isNegP p 0
  let t := neg (← ldFe p 0)
  stFe p 0 (condSet (← ldFe p 0) t b)
  stFe p 1 (mul yNum yDenInv)
  stFe p 2 feOne
  stFe p 3 (mul (← ldFe p 0) (← ldFe p 1))
  let ret := ret ||| (← isNegP p 3)
  let ret := ret ||| (1 - (← isNonZeroP p 1))
  stFe p 0 (condSet (← ldFe p 0) feZero ret)
  stFe p 1 (condSet (← ldFe p 1) feZero ret)
  stFe p 2 (condSet (← ldFe p 2) feZero ret)
  stFe p 3 (condSet (← ldFe p 3) feZero ret)
  return ret == 0

/-- `ExtendedPoint.RistrettoInto` (curve.go:280-325). -/
def ristrettoP (p : Rd F) : M F (Bytes 32) := do
  let d := add (← p 2) (← p 1)
  let u1 := sub (← p 2) (← p 1)
  let u1 := mul u1 d
  let u2 := mul (← p 0) (← p 1)
  let isr := square u2
  let isr := mul isr u1
  let isr := invSqrt isr
  let i1 := mul isr u1
  let i2 := mul isr u2
  let zInv := mul i1 i2
  let zInv := mul zInv (← p 3)
  let d := mul zInv (← p 3)
  let nx := mul (← p 1) feI
  let ny := mul (← p 0) feI
  let denInv := mul feInvSqrtMinusDMinusOne i1
  let b := 1 - isNegativeI d
  let nx := condSet nx (← p 0) b
  let ny := condSet ny (← p 1) b
  let denInv := condSet denInv i2 b
  let d := mul nx zInv
  let b := isNegativeI d
  let d := neg ny
  let ny := condSet ny d b
  let s := sub (← p 2) ny
  let s := mul s denInv
  let b := isNegativeI s
  let s := touch s
  let d := neg s
  let s := condSet s d b
  return bytes s

/-! ## Scalar multiplication (curve.go, vartime.go, table.go) -/

/-- `ExtendedPoint.Add` to a local variable (curve.go:198-203). -/
def addP (q r : Rd F) : M F (ExtPt F) := do return (← addExtendedP q r).toExtended

/-- The table `lut[0..16]` of `ExtendedPoint.ScalarMult` (curve.go:370-376): `q` is read again for
each odd entry. -/
def scalarMultLutP (q : Rd F) : M F (List (ExtPt F)) := do
  let l0 := ExtPt.zero
  let l1 ← getP q
  let l2 := ExtPt.double l1
  let l3 ← addP (loc l2) q
  let l4 := ExtPt.double l2
  let l5 ← addP (loc l4) q
  let l6 := ExtPt.double l3
  let l7 ← addP (loc l6) q
  let l8 := ExtPt.double l4
  let l9 ← addP (loc l8) q
  let l10 := ExtPt.double l5
  let l11 ← addP (loc l10) q
  let l12 := ExtPt.double l6
  let l13 ← addP (loc l12) q
  let l14 := ExtPt.double l7
  let l15 ← addP (loc l14) q
  let l16 := ExtPt.double l8
  return [l0, l1, l2, l3, l4, l5, l6, l7, l8, l9, l10, l11, l12, l13, l14, l15, l16]

/-- One round of the main loop of `ScalarMult` (curve.go:380-403): `p` is the accumulator. -/
def scalarMultStepP (lut : List (ExtPt F)) (p : Nat) (w : Int8) : M F Unit := do
  let cp ← doubleExtendedP (var p)
  let cp := ComplPt.doubleProjective cp.toProjective
  let cp := ComplPt.doubleProjective cp.toProjective
  let cp := ComplPt.doubleProjective cp.toProjective
  let cp := ComplPt.doubleProjective cp.toProjective
  setCompletedP p cp
  setCompletedP p (← addExtendedP (var p) (loc (scalarMultSelect lut w.toInt32)))

/-- `for ... { ... }` over the digits. -/
def loopP {α : Type} (f : α → M F Unit) : List α → M F Unit
  | [] => .ret ()
  | a :: as => do
    f a
    loopP f as

/-- `ExtendedPoint.ScalarMult` (curve.go:361-406). -/
def scalarMultP (p : Nat) (q : Rd F) (s : Bytes 32) : M F Unit := do
  let window := computeScalarWindow5 s
  let lut ← scalarMultLutP q
  zeroP p
  loopP (scalarMultStepP lut p) window.reverse

/-- The addition or subtraction for a nonzero digit (vartime.go:85-90). -/
def varTimeDigitP (d : Int8) (lut : List (ExtPt F)) (p : Nat) : M F (ComplPt F) :=
  if d > 0 then do
    let e ← ofOption (lutGet lut ((d + 1) / 2 - 1))
    addExtendedP (var p) (loc e)
  else do
    let e ← ofOption (lutGet lut ((1 - d) / 2 - 1))
    subExtendedP (var p) (loc e)

/-- The main loop (vartime.go:84-114). -/
def varTimeLoopP (naf : Nat → Int8) (lut : List (ExtPt F)) (p : Nat) : Nat → Nat → M F Unit
  | 0, _ => .fail
  | fuel + 1, i => do
    let cp ← varTimeDigitP (naf i) lut p
    match i with
    | 0 => setCompletedP p cp
    | i' + 1 =>
      let cp := ComplPt.doubleProjective cp.toProjective
      let (j, cp) := nafSkip naf i' cp
      setCompletedP p cp
      if naf j = 0 then .ret () else varTimeLoopP naf lut p fuel j

/-- `ExtendedPoint.VarTimeScalarMult` (vartime.go:53-117). -/
def varTimeScalarMultP (p : Nat) (q : Rd F) (s : Bytes 32) : M F Unit := do
  let dblQ := (← doubleExtendedP q).toExtended
  let lut := varTimeLutLoop dblQ 8 (← getP q)
  let naf := computeScalar5NAF s
  zeroP p
  match nafTop naf 256 with
  | none => .ret ()
  | some i => varTimeLoopP naf lut p (i + 1) i

/-- How a method gets at the entries of a table: a program for each entry. -/
abbrev TabRd (F : Type) [FieldOps F] [Words F] := List (List (M F (NielsPt F)))

/-- Read one entry of table `t` (`NielsPoint.Set`, table.go:19-24). -/
def ldNiels (t r j : Nat) : M F (NielsPt F) := do
  let YPlusX ← ldTab t r j 0
  let YMinusX ← ldTab t r j 1
  let XY2D ← ldTab t r j 2
  return ⟨YPlusX, YMinusX, XY2D⟩

/-- The table is variable `t` of the client. -/
def tabVar (t : Nat) : TabRd F := (List.range 32).map fun r => (List.range 8).map fun j => ldNiels t r j
/-- The table is `BaseScalarMultTable`. -/
def tabConst (t : Table F) : TabRd F := t.map fun row => row.map .ret

/-- The loop of `selectPoint` (table.go:199-201). -/
def selectLoopP (bAbs : Int32) : Int32 → List (M F (NielsPt F)) → NielsPt F → M F (NielsPt F)
  | _, [], p => .ret p
  | i, e :: rest, p => do
    let e ← e
    selectLoopP bAbs (i + 1) rest (p.condSet e (equal30 bAbs (i + 1)))

/-- `ScalarMultTable.selectPoint` on row `t[pos]` (table.go:195-205). -/
def selectPointP (row : List (M F (NielsPt F))) (b : Int32) : M F (NielsPt F) := do
  let bNegative := negative b
  let bAbs := b - (((-bNegative) &&& b) <<< 1)
  let p ← selectLoopP bAbs 0 row NielsPt.zero
  let negP := p.neg
  return p.condSet negP bNegative

/-- One of the two addition loops of `ScalarMultTable.ScalarMult` (table.go:140-144,155-159). -/
def tableAddLoopP (p : Nat) : TabRd F → List Int8 → M F Unit
  | row :: rows, w :: ws => do
    let np ← selectPointP row w.toInt32
    setCompletedP p (← addExtendedNielsP (var p) np)
    tableAddLoopP p rows ws
  | _, _ => .ret ()

/-- The four doublings between the loops (table.go:146-153, 179-186). -/
def double4P (p : Nat) : M F Unit := do
  let cp ← doubleExtendedP (var p)
  let cp := ComplPt.doubleProjective cp.toProjective
  let cp := ComplPt.doubleProjective cp.toProjective
  let cp := ComplPt.doubleProjective cp.toProjective
  setCompletedP p cp

/-- `ScalarMultTable.ScalarMult` (table.go:131-160). -/
def tableScalarMultP (p : Nat) (t : TabRd F) (s : Bytes 32) : M F Unit := do
  let w := computeScalarWindow4 s
  zeroP p
  tableAddLoopP p t (odds w)
  double4P p
  tableAddLoopP p t (evens w)

/-- `ScalarMultTable.varTimeSelectPoint` on row `t[pos]` (table.go:207-217) for nonzero `b`. -/
def varTimeSelectPointP (row : List (M F (NielsPt F))) (b : Int32) : M F (NielsPt F) :=
  if b < 0 then do
    let e ← ofOption (row[(-b - 1).toInt.toNat]?)
    return (← e).neg
  else do
    let e ← ofOption (row[(b - 1).toInt.toNat]?)
    e

/-- One of the two addition loops of `ScalarMultTable.VarTimeScalarMult`
(table.go:171-176,188-192). -/
def tableVarTimeLoopP (p : Nat) : TabRd F → List Int8 → M F Unit
  | row :: rows, w :: ws =>
    if w.toInt32 = 0 then tableVarTimeLoopP p rows ws
    else do
      let np ← varTimeSelectPointP row w.toInt32
      setCompletedP p (← addExtendedNielsP (var p) np)
      tableVarTimeLoopP p rows ws
  | _, _ => .ret ()

/-- `ScalarMultTable.VarTimeScalarMult` (table.go:162-193). -/
def tableVarTimeScalarMultP (p : Nat) (t : TabRd F) (s : Bytes 32) : M F Unit := do
  let w := computeScalarWindow4 s
  zeroP p
  tableVarTimeLoopP p t (odds w)
  double4P p
  tableVarTimeLoopP p t (evens w)

/-- `NielsPoint.SetExtended` (table.go:77-88) on entry `[r][j]` of table `t`. -/
def stNiels (t r j : Nat) (x : NielsPt F) : M F Unit := do
  stTab t r j 0 x.YPlusX
  stTab t r j 1 x.YMinusX
  stTab t r j 2 x.XY2D

/-- The loop `for v := 0; v < 8; v++` of `Compute` (table.go:98-101), from `v` on, `n` rounds; the
final `c`. -/
def tableRowP (t r : Nat) (cp : ExtPt F) : Nat → Nat → ExtPt F → M F (ExtPt F)
  | 0, _, c => .ret c
  | n + 1, v, c => do
    let c := ExtPt.add c cp
    stNiels t r v (NielsPt.ofExtended c)
    tableRowP t r cp n (v + 1) c

/-- The loop `for i := 0; i < 32; i++` of `Compute` (table.go:96-112), from `i` on, `n` rounds. -/
def tableLoopP (t : Nat) : Nat → Nat → ExtPt F → M F Unit
  | 0, _, _ => .ret ()
  | n + 1, i, cp => do
    let c ← tableRowP t i cp 8 0 ExtPt.zero
    let c := ComplPt.doubleExtended c
    let c := ComplPt.doubleProjective c.toProjective
    let c := ComplPt.doubleProjective c.toProjective
    let c := ComplPt.doubleProjective c.toProjective
    let c := ComplPt.doubleProjective c.toProjective
    tableLoopP t n (i + 1) c.toExtended

/-- `ScalarMultTable.Compute` (table.go:91-113). -/
def tableComputeP (t : Nat) (q : Rd F) : M F Unit := do
  let cp ← getP q
  tableLoopP t 32 0 cp

/-! ## Lizard (elligator.go, ristretto.go) -/

/-- `ExtendedPoint.ToJacobiQuarticRistretto` (elligator.go:57-135). -/
def toJacobiP (p : Nat) : M F (JacPt F × JacPt F × JacPt F × JacPt F) := do
  let X2 := square (← ldFe p 0)
  let Y2 := square (← ldFe p 1)
  let Y4 := square Y2
  let Z2 := square (← ldFe p 2)
  let ZmY := sub (← ldFe p 2) (← ldFe p 1)
  let ZpY := add (← ldFe p 2) (← ldFe p 1)
  let Z2mY2 := sub Z2 Y2
  let gamma := mul Y4 X2
  let gamma := mul gamma Z2mY2
  let gamma := invSqrt gamma
  let den := mul gamma Y2
  let sOverX := mul den ZmY
  let spOverXp := mul den ZpY
  let s0 := mul sOverX (← ldFe p 0)
  let tmp := mul spOverXp (← ldFe p 0)
  let s1 := neg tmp
  let tmp := mul feDoubleInvSqrtMinusDMinusOne (← ldFe p 2)
  let t0 := mul tmp sOverX
  let t1 := mul tmp spOverXp
  let den := neg Z2mY2
  let den := mul den feInvSqrt1pD
  let den := mul den gamma
  let iZ := mul feI (← ldFe p 2)
  let iZmX := sub iZ (← ldFe p 0)
  let iZpX := add iZ (← ldFe p 0)
  let sOverY := mul den iZmX
  let spOverYp := mul den iZpX
  let s2 := mul sOverY (← ldFe p 1)
  let tmp := mul spOverYp (← ldFe p 1)
  let s3 := neg tmp
  let tmp := mul feDoubleInvSqrtMinusDMinusOne iZ
  let t2 := mul tmp sOverY
  let t3 := mul tmp spOverYp
  let nzX ← isNonZeroP p 0
  let nzY ← isNonZeroP p 1
  let XorYisZero := 1 - (nzX &&& nzY)
  let t0 := condSet t0 feOne XorYisZero
  let t1 := condSet t1 feOne XorYisZero
  let t2 := condSet t2 feDoubleIInvSqrtMinusDMinusOne XorYisZero
  let t3 := condSet t3 feDoubleIInvSqrtMinusDMinusOne XorYisZero
  let s2 := condSet s2 feOne XorYisZero
  let s3 := condSet s3 feMinusOne XorYisZero
  return (⟨s0, t0⟩, ⟨s1, t1⟩, ⟨s2, t2⟩, ⟨s3, t3⟩)

/-- The part of `LizardInto` after `ToJacobiQuarticRistretto` (elligator.go:43-49,
ristretto.go:285-302), on local variables. -/
def lizardOf (sha256 : List UInt8 → Bytes 32) (jcs : JacPt F × JacPt F × JacPt F × JacPt F)
    (buf : Bytes 16) : Bytes 16 × Point.LizErr :=
  let fes := [jcs.1, jcs.2.1, jcs.2.2.1, jcs.2.2.2].flatMap fun j =>
    [elligator2Inverse j, elligator2Inverse (elligator2InverseRecv j).dual]
  let mask := Point.inverseMask 0 fes
  let st := Point.lizardLoop sha256 mask 0 (fes.map (·.1)) (buf, 0)
  if st.2 = 1 then (st.1, .nil) else if st.2 = 0 then (st.1, .noPreimage) else (st.1, .multiple)

/-! ## Scalars (scalar.go) -/

/-- Load the eight words of a scalar. -/
def ldSc (s : Nat) : M F Scalar := do
  let w0 ← ldS s 0
  let w1 ← ldS s 1
  let w2 ← ldS s 2
  let w3 ← ldS s 3
  let w4 ← ldS s 4
  let w5 ← ldS s 5
  let w6 ← ldS s 6
  let w7 ← ldS s 7
  return #v[w0, w1, w2, w3, w4, w5, w6, w7]

/-- Store the eight words of a scalar. -/
def stSc (s : Nat) (v : Scalar) : M F Unit := do
  stS s 0 v[0]
  stS s 1 v[1]
  stS s 2 v[2]
  stS s 3 v[3]
  stS s 4 v[4]
  stS s 5 v[5]
  stS s 6 v[6]
  stS s 7 v[7]

/-- `Scalar.Add` (scalar.go:122-140). -/
def sAddP (s a b : Nat) : M F Unit := do
  let c := Scalar.addStep (← ldS a 0) (← ldS b 0) 0
  stS s 0 c.toUInt32
  let c := Scalar.addStep (← ldS a 1) (← ldS b 1) c
  stS s 1 c.toUInt32
  let c := Scalar.addStep (← ldS a 2) (← ldS b 2) c
  stS s 2 c.toUInt32
  let c := Scalar.addStep (← ldS a 3) (← ldS b 3) c
  stS s 3 c.toUInt32
  let c := Scalar.addStep (← ldS a 4) (← ldS b 4) c
  stS s 4 c.toUInt32
  let c := Scalar.addStep (← ldS a 5) (← ldS b 5) c
  stS s 5 c.toUInt32
  let c := Scalar.addStep (← ldS a 6) (← ldS b 6) c
  stS s 6 c.toUInt32
  let c := Scalar.addStep (← ldS a 7) (← ldS b 7) c
  stS s 7 c.toUInt32
  stSc s (Scalar.sub (← ldSc s) scL)

/-- One line of `Scalar.ConditionalSet` (scalar.go:1460-1467). -/
def sCondWordP (s t : Nat) (m : UInt32) (i : Nat) : M F Unit := do
  let x ← ldS s i
  let y ← ldS t i
  stS s i (x ^^^ (m &&& (x ^^^ y)))

/-- `Scalar.ConditionalSet` (scalar.go:1458-1468). -/
def sCondSetP (s t : Nat) (b : Int32) : M F Unit := do
  let m := (-b).toUInt32
  sCondWordP s t m 0
  sCondWordP s t m 1
  sCondWordP s t m 2
  sCondWordP s t m 3
  sCondWordP s t m 4
  sCondWordP s t m 5
  sCondWordP s t m 6
  sCondWordP s t m 7

/-- `Scalar.SetBytes` (scalar.go:79-89). -/
def sSetBytesP (s : Nat) (x : Bytes 32) : M F Unit := do
  let w := Scalar.words x
  stSc s #v[w[0], w[1], w[2], w[3], w[4], w[5], w[6], w[7] &&& 0x1fffffff]
  stSc s (Scalar.sub (← ldSc s) scL)

/-- `Scalar.SetBytesStrict` (scalar.go:94-114). -/
def sSetBytesStrictP (s : Nat) (x : Bytes 32) : M F Bool := do
  let t := Scalar.words x
  let r := Scalar.sub t scL
  if r ≠ t then return false
  else do
    stSc s t
    return true

/-! ## Calls -/

/-- One call, as a program.  Methods not defined above compute on local variables between loading
their arguments and storing their result. -/
def callP (e : Env F) : Cmd → M F Out
  | .pZero p => do zeroP p; return .unit
  | .pBase p => do setP p (loc ExtPt.base); return .unit
  | .pSet p q => do setP p (var q); return .unit
  | .pAdd p q r => do setCompletedP p (← addExtendedP (var q) (var r)); return .unit
  | .pDouble p q => do setCompletedP p (← doubleExtendedP (var q)); return .unit
  | .pSub p q r => do setCompletedP p (← subExtendedP (var q) (var r)); return .unit
  | .pNeg p q => do negP p (var q); return .unit
  | .pBytes p => do return .bytes (← ristrettoP (var p)).toList
  | .pSetBytes p buf => do return .bool (← setRistrettoP p buf)
  | .pSetElligator p buf => do setCompletedP p (setRistrettoElligator2 (setBytes buf)); return .unit
  | .pRand p buf => do setCompletedP p (setRistrettoElligator2 (setBytes buf)); return .unit
  | .pDerive p data => do
    setCompletedP p (setRistrettoElligator2 (setBytes (slice (e.sha512 data) 0 32))); return .unit
  | .pDeriveDalek p data => do
    let hash := e.sha512 data
    setCompletedP p (setRistrettoElligator2 (setBytes (slice hash 0 32)))
    let p2 : ExtPt F := Point.setElligator (slice hash 32 32)
    setCompletedP p (← addExtendedP (var p) (loc p2))
    return .unit
  | .pSetLizard p data => do
    setCompletedP p (setRistrettoElligator2 (setBytes (Point.lizardBuf e.sha256 data))); return .unit
  | .pLizard p => do
    let r := lizardOf e.sha256 (← toJacobiP p) (Vector.replicate 16 0)
    return .lizard (if r.2 = .nil then some r.1 else none)
  | .pLizardInto p buf => do
    let r := lizardOf e.sha256 (← toJacobiP p) buf
    return .lizardInto r.2 (if r.2 = .multiple then none else some r.1)
  | .pEqualsI p q => do return .int32 (← equalsIP (var p) (var q))
  | .pEquals p q => do return .bool ((← equalsIP (var p) (var q)) == 1)
  | .pCondSet p q b => do condSetP p (var q) (bit b); return .unit
  | .pUnmarshalBinary p data =>
    if data.length ≠ 32 then return .bool false
    else do return .bool (← setRistrettoP p (toBytes 32 data))
  | .pMarshalText p => do return .bytes (b64Encode (← ristrettoP (var p)).toList)
  | .pUnmarshalText p txt =>
    match textToBuf txt with
    | .panic => .fail
    | .err => return .bool false
    | .ok buf => do return .bool (← setRistrettoP p (toBytes 32 buf))
  | .pScalarMult p q s => do scalarMultP p (var q) (← ldSc s).bytes; return .unit
  | .pPublicScalarMult p q s => do varTimeScalarMultP p (var q) (← ldSc s).bytes; return .unit
  | .pScalarMultBase p s => do tableScalarMultP p (tabConst e.baseTab) (← ldSc s).bytes; return .unit
  | .pPublicScalarMultBase p s => do
    tableVarTimeScalarMultP p (tabConst e.baseTab) (← ldSc s).bytes; return .unit
  | .pScalarMultTable p t s => do tableScalarMultP p (tabVar t) (← ldSc s).bytes; return .unit
  | .pPublicScalarMultTable p t s => do
    tableVarTimeScalarMultP p (tabVar t) (← ldSc s).bytes; return .unit
  | .tCompute t p => do tableComputeP t (var p); return .unit
  | .sZero s => do stSc s scZero; return .unit
  | .sOne s => do stSc s scOne; return .unit
  | .sSet s a => do stSc s (← ldSc a); return .unit
  | .sAdd s a b => do sAddP s a b; return .unit
  | .sSub s a b => do stSc s (Scalar.sub (← ldSc a) (← ldSc b)); return .unit
  | .sNeg s a => do stSc s (Scalar.sub scZero (← ldSc a)); return .unit
  | .sMul s a b => do stSc s (Scalar.mul (← ldSc a) (← ldSc b)); return .unit
  | .sSquare s a => do stSc s (Scalar.square (← ldSc a)); return .unit
  | .sMulAdd s a b c => do stSc s (Scalar.mulAdd (← ldSc a) (← ldSc b) (← ldSc c)); return .unit
  | .sMulSub s a b c => do stSc s (Scalar.mulSub (← ldSc a) (← ldSc b) (← ldSc c)); return .unit
  | .sInverse s a => do stSc s (Scalar.inverse (← ldSc a)); return .unit
  | .sCondSet s a b => do sCondSetP s a (bit b); return .unit
  | .sSetBytes s buf => do sSetBytesP s buf; return .unit
  | .sSetBytesStrict s buf => do return .bool (← sSetBytesStrictP s buf)
  | .sSetReduced s buf => do stSc s (Scalar.setReduced buf); return .unit
  | .sRand s buf => do stSc s (Scalar.rand buf); return .unit
  | .sDerive s data => do stSc s (Scalar.derive e.sha512 data); return .unit
  | .sDeriveShort s data => do stSc s (Scalar.deriveShort (e.sha512 data)); return .unit
  | .sSetBigInt s x => do stSc s (Scalar.setBigInt x); return .unit
  | .sSetUint64 s x => do stSc s (Scalar.setUint64 x); return .unit
  | .sUnmarshalBinary s data =>
    if data.length = 32 then do sSetBytesP s (toBytes 32 data); return .bool true
    else return .bool false
  | .sUnmarshalText s txt =>
    match b64Decode 32 txt with
    | .panic => .fail
    | .err => return .bool false
    | .ok out =>
      if out.length ≠ 32 then return .bool false
      else do sSetBytesP s (toBytes 32 out); return .bool true
  | .sBytes s => do return .bytes (← ldSc s).bytes.toList
  | .sMarshalText s => do return .bytes (b64Encode (← ldSc s).bytes.toList)
  | .sBigInt s => do return .int (Scalar.bigInt (← ldSc s))
  | .sIsNonZeroI s => do return .int32 (Scalar.isNonZeroI (← ldSc s))
  | .sEqualsI s a => do return .int32 (Scalar.equalsI (← ldSc s) (← ldSc a))
  | .sEquals s a => do return .bool (Scalar.equals (← ldSc s) (← ldSc a))

/-- A goroutine: calls one after another; the result is everything they returned. -/
def goP (e : Env F) : List Cmd → M F (List Out)
  | [] => .ret []
  | c :: cs => do
    let o ← callP e c
    let os ← goP e cs
    return o :: os

/-- The contents of field element `fld` of point variable `p`. -/
def feAt (m : Memory (Val F)) (p fld : Nat) : F :=
  Words.ofWords ((List.range (Words.num F)).map fun i => m (.pt p fld i))

/-- The contents of a field element of a table variable. -/
def tabAt (m : Memory (Val F)) (t r j fld : Nat) : F :=
  Words.ofWords ((List.range (Words.num F)).map fun i => m (.tab t r j fld i))

/-- The contents of the variables. -/
def view (m : Memory (Val F)) : Mem F where
  pts p := ⟨feAt m p 0, feAt m p 1, feAt m p 2, feAt m p 3⟩
  scs s := #v[m (.sc s 0), m (.sc s 1), m (.sc s 2), m (.sc s 3), m (.sc s 4), m (.sc s 5),
    m (.sc s 6), m (.sc s 7)]
  tabs t := (List.range 32).map fun r => (List.range 8).map fun j =>
    ⟨tabAt m t r j 0, tabAt m t r j 1, tabAt m t r j 2⟩

/-- The goroutines `i` run the programs `progs i` on the variables in `m`. -/
def start {ι : Type} (e : Env F) (progs : ι → List Cmd) (m : Memory (Val F)) : Conf ι (Val F) (List Out) :=
  ⟨fun i => goP e (progs i), m⟩

end
end Ristretto.Model.Conc
