import Verif.Model.Machine
import Verif.Model.Field25

/-!
# The loops and index expressions of the code, as written

In `Verif.Model.Curve` and its neighbours a loop over an array is a fold over a list, so that no index
can be out of range there.  This file models the same functions statement by statement: arrays are
updated in place, loops run over Go's loop variables, and every index or slice expression whose operand
is computed is checked.  `none` models Go's run-time panic.  Index arithmetic on loop variables is done
in `Int` (the values stay below 2^9 in the Go code, far from the ends of `int` and `int32`); where an
index depends on data, or where Go uses a narrower type (`int8`, `int32`, `uint16`), that type is used.

Function calls, field arithmetic and array accesses with constant indices into arrays (checked by Go's
compiler) are those of the other model files.
-/

set_option autoImplicit false

namespace Ristretto.Model.Loops

/-! ## Arrays, slices and loops -/

/-- `a[i]` (Go specification, "Index expressions"): panics unless `0 <= i < len(a)`. -/
def get {α : Type} (a : List α) (i : Int) : Option α := if 0 ≤ i then a[i.toNat]? else none

/-- `a[i] = v` (Go specification, "Index expressions" and "Assignment statements"). -/
def put {α : Type} (a : List α) (i : Int) (v : α) : Option (List α) :=
  if 0 ≤ i ∧ i < a.length then some (a.set i.toNat v) else none

/-- `a[lo:hi]` (Go specification, "Simple slice expressions"): panics unless
`0 <= lo <= hi <= len(a)`. -/
def slice {α : Type} (a : List α) (lo hi : Int) : Option (List α) :=
  if 0 ≤ lo ∧ lo ≤ hi ∧ hi ≤ a.length then some ((a.drop lo.toNat).take (hi - lo).toNat) else none

/-- `a[lo:]`. -/
def sliceFrom {α : Type} (a : List α) (lo : Int) : Option (List α) := slice a lo a.length

/-- `copy(a[lo:], src)`: overwrites as many entries as both have. -/
def copyAt {α : Type} (a : List α) (lo : Int) (src : List α) : Option (List α) := do
  let dst ← sliceFrom a lo
  some (a.take lo.toNat ++ src.take dst.length ++ dst.drop src.length)

/-- `n` rounds of a loop whose variable starts at `i` and changes by `k` each round. -/
def iter {σ : Type} (k : Int) (body : Int → σ → Option σ) : Nat → Int → σ → Option σ
  | 0, _, st => some st
  | n + 1, i, st => do
    let st ← body i st
    iter k body n (i + k) st

/-- `for i := a; i < b; i += k { body }`, where `k > 0` and `body` neither assigns to `i` nor leaves the
loop. -/
def forLt {σ : Type} (a b k : Int) (body : Int → σ → Option σ) (st : σ) : Option σ :=
  iter k body ((b - a + k - 1) / k).toNat a st

/-- `for i := a; i >= 0; i-- { body }`, where `body` neither assigns to `i` nor leaves the loop. -/
def forDown {σ : Type} (a : Int) (body : Int → σ → Option σ) (st : σ) : Option σ :=
  iter (-1) body (a + 1).toNat a st

/-! ## Windows of scalars (curve.go, table.go) -/

/-- One round of the first loop of `computeScalarWindow5` (curve.go:330-343). -/
def window5Round (s : List UInt8) (i : Int) (w : List Int8) : Option (List Int8) := do
  let w ← put w (8 * i + 0) (i8 ((← get s (5 * i + 0)) &&& 31))
  let w ← put w (8 * i + 1) (i8 (((← get s (5 * i + 0)) >>> 5) &&& 31))
  let w ← put w (8 * i + 1) ((← get w (8 * i + 1)) ^^^ i8 (((← get s (5 * i + 1)) <<< 3) &&& 31))
  let w ← put w (8 * i + 2) (i8 (((← get s (5 * i + 1)) >>> 2) &&& 31))
  let w ← put w (8 * i + 3) (i8 (((← get s (5 * i + 1)) >>> 7) &&& 31))
  let w ← put w (8 * i + 3) ((← get w (8 * i + 3)) ^^^ i8 (((← get s (5 * i + 2)) <<< 1) &&& 31))
  let w ← put w (8 * i + 4) (i8 (((← get s (5 * i + 2)) >>> 4) &&& 31))
  let w ← put w (8 * i + 4) ((← get w (8 * i + 4)) ^^^ i8 (((← get s (5 * i + 3)) <<< 4) &&& 31))
  let w ← put w (8 * i + 5) (i8 (((← get s (5 * i + 3)) >>> 1) &&& 31))
  let w ← put w (8 * i + 6) (i8 (((← get s (5 * i + 3)) >>> 6) &&& 31))
  let w ← put w (8 * i + 6) ((← get w (8 * i + 6)) ^^^ i8 (((← get s (5 * i + 4)) <<< 2) &&& 31))
  put w (8 * i + 7) (i8 (((← get s (5 * i + 4)) >>> 3) &&& 31))

/-- The unsigned digits (curve.go:329-347). -/
def window5Raw (s : List UInt8) (w : List Int8) : Option (List Int8) := do
  let w ← forLt 0 6 1 (window5Round s) w
  let w ← put w (8 * 6 + 0) (i8 ((← get s (5 * 6 + 0)) &&& 31))
  let w ← put w (8 * 6 + 1) (i8 (((← get s (5 * 6 + 0)) >>> 5) &&& 31))
  let w ← put w (8 * 6 + 1) ((← get w (8 * 6 + 1)) ^^^ i8 (((← get s (5 * 6 + 1)) <<< 3) &&& 31))
  put w (8 * 6 + 2) (i8 (((← get s (5 * 6 + 1)) >>> 2) &&& 31))

/-- One round of "Making it signed" (curve.go:351-356), on `(w, carry)`. -/
def sign5Round (i : Int) (st : List Int8 × Int8) : Option (List Int8 × Int8) := do
  let w := st.1
  let w ← put w i ((← get w i) + st.2)
  let w ← put w (i + 1) ((← get w (i + 1)) + ((← get w i) >>> 5))
  let w ← put w i ((← get w i) &&& 31)
  let carry := (← get w i) >>> 4
  let w ← put w i ((← get w i) - (carry <<< 5))
  some (w, carry)

/-- "Making it signed" (curve.go:350-357). -/
def sign5 (w : List Int8) : Option (List Int8) := do
  let (w, carry) ← forLt 0 50 1 sign5Round (w, 0)
  put w 50 ((← get w 50) + carry)

/-- `computeScalarWindow5(s, w)` (curve.go:328-358): the new contents of `w`. -/
def computeScalarWindow5 (s : List UInt8) (w : List Int8) : Option (List Int8) := do
  sign5 (← window5Raw s w)

/-- One round of the first loop of `computeScalarWindow4` (table.go:117-120). -/
def window4Round (s : List UInt8) (i : Int) (w : List Int8) : Option (List Int8) := do
  let w ← put w (2 * i) (i8 ((← get s i) &&& 15))
  put w (2 * i + 1) (i8 (((← get s i) >>> 4) &&& 15))

/-- One round of the second loop of `computeScalarWindow4` (table.go:122-126), on `(w, carry)`. -/
def sign4Round (i : Int) (st : List Int8 × Int8) : Option (List Int8 × Int8) := do
  let w := st.1
  let w ← put w i ((← get w i) + st.2)
  let carry := ((← get w i) + 8) >>> 4
  let w ← put w i ((← get w i) - (carry <<< 4))
  some (w, carry)

/-- The carries of `computeScalarWindow4` (table.go:121-127). -/
def sign4 (w : List Int8) : Option (List Int8) := do
  let (w, carry) ← forLt 0 63 1 sign4Round (w, 0)
  put w 63 ((← get w 63) + carry)

/-- `computeScalarWindow4(s, w)` (table.go:116-128): the new contents of `w`. -/
def computeScalarWindow4 (s : List UInt8) (w : List Int8) : Option (List Int8) := do
  sign4 (← forLt 0 32 1 (window4Round s) w)

section
variable {F : Type} [FieldOps F]
open FieldOps

/-- The zero value of an `ExtendedPoint` (Go specification, "The zero value"). -/
def blank : ExtPt F := ⟨feZero, feZero, feZero, feZero⟩

/-! ## Constant-time scalar multiplication (curve.go:361-406) -/

/-- The table `lut` of `ScalarMult` (curve.go:370-376). -/
def scalarMultLut (q : ExtPt F) : Option (List (ExtPt F)) := do
  let lut := List.replicate 17 blank
  let lut ← put lut 0 ExtPt.zero
  let lut ← put lut 1 q
  let lut ← forLt 2 16 2 (fun i lut => do
    let lut ← put lut i (ExtPt.double (← get lut (i >>> 1)))
    put lut (i + 1) (ExtPt.add (← get lut i) q)) lut
  put lut 16 (ExtPt.double (← get lut 8))

/-- One round of the main loop of `ScalarMult` (curve.go:380-403). -/
def scalarMultRound (lut : List (ExtPt F)) (window : List Int8) (i : Int) (p : ExtPt F) : Option (ExtPt F) := do
  let cp := ComplPt.doubleExtended p
  let cp ← forLt 0 4 1 (fun _ cp => some (ComplPt.doubleProjective cp.toProjective)) cp
  let p := cp.toExtended
  let t ← get lut 0
  let b := (← get window i).toInt32
  let t ← forLt 1 17 1 (fun j t => do
    let c := equal15 b (Int32.ofInt (-j)) ||| equal15 b (Int32.ofInt j)
    some (t.condSet (← get lut j) c)) t
  let c := negative b
  let v := neg t.X
  let X := condSet t.X v c
  let v := neg t.T
  let T := condSet t.T v c
  some (ExtPt.add p ⟨X, t.Y, t.Z, T⟩)

/-- `ExtendedPoint.ScalarMult` (curve.go:361-406). -/
def scalarMult (q : ExtPt F) (s : List UInt8) : Option (ExtPt F) := do
  let window ← computeScalarWindow5 s (List.replicate 51 0)
  let lut ← scalarMultLut q
  forDown 50 (scalarMultRound lut window) ExtPt.zero

/-! ## Precomputed tables (table.go) -/

/-- `t[i][v]` of a `ScalarMultTable`. -/
def tabGet (t : Table F) (i v : Int) : Option (NielsPt F) := do get (← get t i) v

/-- `t[i][v] = x` of a `ScalarMultTable`. -/
def tabPut (t : Table F) (i v : Int) (x : NielsPt F) : Option (Table F) := do
  put t i (← put (← get t i) v x)

/-- One round of the inner loop of `Compute` (table.go:98-101), on `(t, c)`. -/
def computeInner (cp : ExtPt F) (i v : Int) (st : Table F × ExtPt F) : Option (Table F × ExtPt F) := do
  let c := ExtPt.add st.2 cp
  let t ← tabPut st.1 i v (NielsPt.ofExtended c)
  some (t, c)

/-- One round of the outer loop of `Compute` (table.go:96-112), on `(t, cp)`. -/
def computeOuter (i : Int) (st : Table F × ExtPt F) : Option (Table F × ExtPt F) := do
  let (t, c) ← forLt 0 8 1 (computeInner st.2 i) (st.1, ExtPt.zero)
  let c := ComplPt.doubleExtended c
  let c := ComplPt.doubleProjective c.toProjective
  let c := ComplPt.doubleProjective c.toProjective
  let c := ComplPt.doubleProjective c.toProjective
  let c := ComplPt.doubleProjective c.toProjective
  some (t, c.toExtended)

/-- `ScalarMultTable.Compute` on receiver `t` (table.go:91-113): the new contents of `t`. -/
def tableCompute (t : Table F) (p : ExtPt F) : Option (Table F) := do
  let (t, _) ← forLt 0 32 1 computeOuter (t, p)
  some t

/-- `t.selectPoint(p, pos, b)` (table.go:195-205). -/
def selectPoint (t : Table F) (pos : Int) (b : Int32) : Option (NielsPt F) := do
  let bNegative := negative b
  let bAbs := b - (((-bNegative) &&& b) <<< 1)
  let p ← forLt 0 8 1 (fun i p => do
    some (p.condSet (← tabGet t pos i) (equal30 bAbs (Int32.ofInt (i + 1))))) NielsPt.zero
  some (p.condSet p.neg bNegative)

/-- The doublings of table.go:146-153 and 179-186. -/
def double4 (p : ExtPt F) : ExtPt F :=
  let cp := ComplPt.doubleExtended p
  let cp := ComplPt.doubleProjective cp.toProjective
  let cp := ComplPt.doubleProjective cp.toProjective
  let cp := ComplPt.doubleProjective cp.toProjective
  cp.toExtended

/-- `ScalarMultTable.ScalarMult` (table.go:131-160). -/
def tableScalarMult (t : Table F) (s : List UInt8) : Option (ExtPt F) := do
  let w ← computeScalarWindow4 s (List.replicate 64 0)
  let p ← forLt 0 32 1 (fun i p => do
    let np ← selectPoint t i (← get w (2 * i + 1)).toInt32
    some (ComplPt.addExtendedNiels p np).toExtended) ExtPt.zero
  let p := double4 p
  forLt 0 32 1 (fun i p => do
    let np ← selectPoint t i (← get w (2 * i)).toInt32
    some (ComplPt.addExtendedNiels p np).toExtended) p

/-- `t.varTimeSelectPoint(p, pos, b)` (table.go:207-217): `some none` is the result `false`. -/
def varTimeSelectPoint (t : Table F) (pos : Int) (b : Int32) : Option (Option (NielsPt F)) := do
  if b = 0 then some none
  else if b < 0 then some (some (← tabGet t pos (-b - 1).toInt).neg)
  else some (some (← tabGet t pos (b - 1).toInt))

/-- One round of the loops of `VarTimeScalarMult` (table.go:171-176, 188-192) for the digit `w[k]`. -/
def varTimeRound (t : Table F) (w : List Int8) (i k : Int) (p : ExtPt F) : Option (ExtPt F) := do
  match ← varTimeSelectPoint t i (← get w k).toInt32 with
  | none => some p
  | some np => some (ComplPt.addExtendedNiels p np).toExtended

/-- `ScalarMultTable.VarTimeScalarMult` (table.go:162-193). -/
def tableVarTimeScalarMult (t : Table F) (s : List UInt8) : Option (ExtPt F) := do
  let w ← computeScalarWindow4 s (List.replicate 64 0)
  let p ← forLt 0 32 1 (fun i p => varTimeRound t w i (2 * i + 1) p) ExtPt.zero
  let p := double4 p
  forLt 0 32 1 (fun i p => varTimeRound t w i (2 * i) p) p

end

/-! ## Variable-time scalar multiplication (vartime.go) -/

/-- `load8u` (vartime.go:3-14). -/
def load8u (a : List UInt8) : Option UInt64 := do
  let r := (← get a 0).toUInt64
  let r := r ||| ((← get a 1).toUInt64 <<< 8)
  let r := r ||| ((← get a 2).toUInt64 <<< 16)
  let r := r ||| ((← get a 3).toUInt64 <<< 24)
  let r := r ||| ((← get a 4).toUInt64 <<< 32)
  let r := r ||| ((← get a 5).toUInt64 <<< 40)
  let r := r ||| ((← get a 6).toUInt64 <<< 48)
  some (r ||| ((← get a 7).toUInt64 <<< 56))

/-- The words of `computeScalar5NAF` (vartime.go:20-23). -/
def nafWords (s : List UInt8) : Option (List UInt64) :=
  forLt 0 4 1 (fun i x => do put x i (← load8u (← slice s (i * 8) ((i + 1) * 8)))) (List.replicate 5 0)

/-- `bit_buf` (vartime.go:27-34). -/
def nafBits (x : List UInt64) (pos : UInt16) : Option UInt64 :=
  let idx := pos / 64
  let bitIdx := pos % 64
  if bitIdx < 59 then do some ((← get x idx.toNat) >>> bitIdx.toUInt64)
  else do some (((← get x idx.toNat) >>> bitIdx.toUInt64) |||
    ((← get x (1 + idx).toNat) <<< (64 - bitIdx).toUInt64))

/-- The loop `for pos < 256` of `computeScalar5NAF` (vartime.go:26-50).  The fuel bounds the number of
rounds; running out of it is modelled as `none`, too. -/
def nafLoop (x : List UInt64) : Nat → UInt16 → UInt64 → List Int8 → Option (List Int8)
  | 0, pos, _, naf => if pos < 256 then none else some naf
  | fuel + 1, pos, carry, naf => do
    if pos < 256 then
      let bitBuf ← nafBits x pos
      let window := carry + (bitBuf &&& 31)
      if window &&& 1 == 0 then nafLoop x fuel (pos + 1) carry naf
      else if window < 16 then
        nafLoop x fuel (pos + 5) 0 (← put naf pos.toNat window.toUInt8.toInt8)
      else
        nafLoop x fuel (pos + 5) 1 (← put naf pos.toNat (window.toUInt8.toInt8 - 32))
    else some naf

/-- `computeScalar5NAF(s, naf)` (vartime.go:19-51): the new contents of `naf`. -/
def computeScalar5NAF (s : List UInt8) (naf : List Int8) : Option (List Int8) := do
  nafLoop (← nafWords s) 256 0 0 naf

/-- "Skip the trailing zeroes" (vartime.go:68-74): `i` after `n` more rounds at most; `n` is `i + 1`
here. -/
def nafTop (naf : List Int8) : Nat → Int → Option Int
  | 0, i => some i
  | n + 1, i => do if (← get naf i) ≠ 0 then some i else nafTop naf n (i - 1)

section
variable {F : Type} [FieldOps F]
open FieldOps

/-- The table `lut` of `VarTimeScalarMult` (vartime.go:54-62). -/
def varTimeLut (q : ExtPt F) : Option (List (ExtPt F)) := do
  let dblQ := ExtPt.double q
  let lut ← put (List.replicate 8 blank) 0 q
  forLt 1 8 1 (fun i lut => do put lut i (ExtPt.add (← get lut (i - 1)) dblQ)) lut

/-- "Find next non-zero digit" (vartime.go:101-108), on `(i, cp)`.  The fuel bounds the number of rounds. -/
def nafSkip (naf : List Int8) : Nat → Int → ComplPt F → Option (Int × ComplPt F)
  | 0, _, _ => none
  | fuel + 1, i, cp => do
    if i = 0 then some (i, cp)
    else if (← get naf i) ≠ 0 then some (i, cp)
    else nafSkip naf fuel (i - 1) (ComplPt.doubleProjective cp.toProjective)

/-- The addition or subtraction for a nonzero digit (vartime.go:85-90). -/
def varTimeDigit (d : Int8) (lut : List (ExtPt F)) (p : ExtPt F) : Option (ComplPt F) :=
  if d > 0 then do some (ComplPt.addExtended p (← get lut ((d + 1) / 2 - 1).toInt))
  else do some (ComplPt.subExtended p (← get lut ((1 - d) / 2 - 1).toInt))

/-- The main loop (vartime.go:84-114).  The fuel bounds the number of rounds. -/
def varTimeLoop (naf : List Int8) (lut : List (ExtPt F)) : Nat → Int → ExtPt F → Option (ExtPt F)
  | 0, _, _ => none
  | fuel + 1, i, p => do
    let d ← get naf i
    let cp ← varTimeDigit d lut p
    if i = 0 then some cp.toExtended
    else
      let i := i - 1
      let cp := ComplPt.doubleProjective cp.toProjective
      let (i, cp) ← nafSkip naf 256 i cp
      let p := cp.toExtended
      if (← get naf i) = 0 then some p else varTimeLoop naf lut fuel i p

/-- `ExtendedPoint.VarTimeScalarMult` (vartime.go:53-117). -/
def varTimeScalarMult (q : ExtPt F) (s : List UInt8) : Option (ExtPt F) := do
  let lut ← varTimeLut q
  let naf ← computeScalar5NAF s (List.replicate 256 0)
  let i ← nafTop naf 256 255
  if i = -1 then some ExtPt.zero else varTimeLoop naf lut 256 i ExtPt.zero

/-! ## Elligator and Lizard -/

/-- One round of the loop of `RistrettoElligator2Inverse` (elligator.go:43-47), on `(fes, setMask)`. -/
def elligatorRound (jcs : List (JacPt F)) (j : Int) (st : List F × UInt8) : Option (List F × UInt8) := do
  let jcj ← get jcs j
  let r := elligator2Inverse jcj
  let fes ← put st.1 (2 * j) r.1
  let m := st.2 ||| (r.2 <<< Int32.ofInt (2 * j)).toUInt32.toUInt8
  let r := elligator2Inverse (elligator2InverseRecv jcj).dual
  let fes ← put fes (2 * j + 1) r.1
  some (fes, m ||| (r.2 <<< Int32.ofInt (2 * j + 1)).toUInt32.toUInt8)

/-- `ExtendedPoint.RistrettoElligator2Inverse` (elligator.go:17-50): the new contents of `fes`, and the
mask. -/
def elligatorInverse (p : ExtPt F) (fes : List F) : Option (List F × UInt8) :=
  let jcs := toJacobiQuarticRistretto p
  forLt 0 4 1 (elligatorRound [jcs.1, jcs.2.1, jcs.2.2.1, jcs.2.2.2]) (fes, 0)

/-- The 32 bytes of a slice of that length. -/
abbrev arr32 (l : List UInt8) : Bytes 32 := toBytes 32 l

/-- The buffer of `SetLizard` and `LizardInto` made from a digest `h` and the data `d`
(ristretto.go:251-254, 289-292). -/
def lizardBuf (h d : List UInt8) : Option (List UInt8) := do
  let h ← copyAt h 8 d
  let h ← put h 0 ((← get h 0) &&& 254)
  put h 31 ((← get h 31) &&& 63)

/-- `Point.SetLizard` (ristretto.go:248-259). -/
def setLizard (sha256 : List UInt8 → Bytes 32) (data : List UInt8) : Option (ExtPt F) := do
  let buf ← lizardBuf (sha256 data).toList data
  some (setRistrettoElligator2 (setBytes (arr32 buf) : F)).toExtended

/-- `subtle.ConstantTimeCompare` (Go standard library): 0 for slices of different lengths. -/
def constantTimeCompare (x y : List UInt8) : UInt8 := if x = y then 1 else 0

/-- `subtle.ConstantTimeCopy` (Go standard library): panics on slices of different lengths. -/
def constantTimeCopy (v : UInt8) (x y : List UInt8) : Option (List UInt8) :=
  if x.length = y.length then some (if v = 1 then y else x) else none

/-- One round of the loop of `LizardInto` (ristretto.go:285-296), on `(buf, nFound)`. -/
def lizardRound (sha256 : List UInt8 → Bytes 32) (fes : List F) (mask : UInt8) (j : Int)
    (st : List UInt8 × UInt8) : Option (List UInt8 × UInt8) := do
  let ok := (mask >>> UInt8.ofNat j.toNat) &&& 1
  let buf2 := (bytes (← get fes j)).toList
  let h := (sha256 (← slice buf2 8 24)).toList
  let h ← lizardBuf h (← slice buf2 8 24)
  let ok := ok &&& constantTimeCompare h buf2
  let buf ← constantTimeCopy ok st.1 (← slice buf2 8 24)
  some (buf, st.2 + ok)

/-- `Point.LizardInto` (ristretto.go:278-303): the new contents of `buf`, and the error. -/
def lizardInto (sha256 : List UInt8 → Bytes 32) (p : ExtPt F) (buf : List UInt8) :
    Option (List UInt8 × Point.LizErr) := do
  let (fes, mask) ← elligatorInverse p (List.replicate 8 feZero)
  let (buf, nFound) ← forLt 0 8 1 (lizardRound sha256 fes mask) (buf, 0)
  if nFound = 1 then some (buf, .nil) else if nFound = 0 then some (buf, .noPreimage) else some (buf, .multiple)

/-- `Point.Lizard` (ristretto.go:266-272): the inner `none` is a nil slice. -/
def lizard (sha256 : List UInt8 → Bytes 32) (p : ExtPt F) : Option (Option (List UInt8)) := do
  let (ret, err) ← lizardInto sha256 p (List.replicate 16 0)
  if err ≠ .nil then some none else some (some ret)

/-- `Point.SetElligator` (ristretto.go:120-127). -/
def setElligator (buf : List UInt8) : ExtPt F := Point.setElligator (arr32 buf)

/-- `Point.Derive` (ristretto.go:203-208). -/
def derive (sha512 : List UInt8 → Bytes 64) (buf : List UInt8) : Option (ExtPt F) := do
  let h := (sha512 buf).toList
  let ptBuf ← copyAt (List.replicate 32 0) 0 (← slice h 0 32)
  some (setElligator ptBuf)

/-- `Point.DeriveDalek` (ristretto.go:325-335). -/
def deriveDalek (sha512 : List UInt8 → Bytes 64) (data : List UInt8) : Option (ExtPt F) := do
  let hash := (sha512 data).toList
  let buf ← copyAt (List.replicate 32 0) 0 (← slice hash 0 32)
  let p : ExtPt F := setElligator buf
  let buf ← copyAt buf 0 (← sliceFrom hash 32)
  let p2 : ExtPt F := setElligator buf
  some (ExtPt.add p p2)

/-- `Point.UnmarshalBinary` on receiver `p` (ristretto.go:338-348): new receiver, success. -/
def pUnmarshalBinary (p : ExtPt F) (data : List UInt8) : Option (ExtPt F × Bool) := do
  if data.length ≠ 32 then some (p, false)
  else
    let buf ← copyAt (List.replicate 32 0) 0 data
    some (ExtPt.setRistretto (arr32 buf))

end

/-! ## Scalars (scalar.go) -/

/-- `load4u32` (scalar.go:1106-1109). -/
def load4u32 (a : List UInt8) : Option UInt32 := do
  some ((← get a 0).toUInt32 ||| ((← get a 1).toUInt32 <<< 8) ||| ((← get a 2).toUInt32 <<< 16) |||
    ((← get a 3).toUInt32 <<< 24))

/-- `load3` (scalar.go:1087-1093, field_generic.go:146-152). -/
def load3 (a : List UInt8) : Option Int64 := do
  let r := (← get a 0).toUInt64.toInt64
  let r := r ||| ((← get a 1).toUInt64.toInt64 <<< 8)
  some (r ||| ((← get a 2).toUInt64.toInt64 <<< 16))

/-- `load4` (scalar.go:1096-1103, field_generic.go:155-162). -/
def load4 (a : List UInt8) : Option Int64 := do
  let r := (← get a 0).toUInt64.toInt64
  let r := r ||| ((← get a 1).toUInt64.toInt64 <<< 8)
  let r := r ||| ((← get a 2).toUInt64.toInt64 <<< 16)
  some (r ||| ((← get a 3).toUInt64.toInt64 <<< 24))

/-- The eight words of a byte string (scalar.go:80-87, 96-103). -/
def words (x : List UInt8) : Option Scalar := do
  let w0 ← load4u32 (← sliceFrom x 0)
  let w1 ← load4u32 (← sliceFrom x 4)
  let w2 ← load4u32 (← sliceFrom x 8)
  let w3 ← load4u32 (← sliceFrom x 12)
  let w4 ← load4u32 (← sliceFrom x 16)
  let w5 ← load4u32 (← sliceFrom x 20)
  let w6 ← load4u32 (← sliceFrom x 24)
  let w7 ← load4u32 (← sliceFrom x 28)
  some #v[w0, w1, w2, w3, w4, w5, w6, w7]

/-- `Scalar.SetBytes` (scalar.go:79-89). -/
def sSetBytes (x : List UInt8) : Option Scalar := do
  let w ← words x
  some (Scalar.sub #v[w[0], w[1], w[2], w[3], w[4], w[5], w[6], w[7] &&& 0x1fffffff] scL)

/-- `Scalar.SetBytesStrict` on receiver `s` (scalar.go:94-114). -/
def sSetBytesStrict (s : Scalar) (x : List UInt8) : Option (Scalar × Bool) := do
  let t ← words x
  let r := Scalar.sub t scL
  if r ≠ t then some (s, false) else some (t, true)

/-- The variables `t0 ... t23` of `SetReduced` (scalar.go:407-430). -/
def unpack64 (t : List UInt8) : Option (List Int64) := do
  some [(0x1FFFFF : Int64) &&& (← load3 (← sliceFrom t 0)),
    (0x1FFFFF : Int64) &&& ((← load4 (← sliceFrom t 2)) >>> 5),
    (0x1FFFFF : Int64) &&& ((← load3 (← sliceFrom t 5)) >>> 2),
    (0x1FFFFF : Int64) &&& ((← load4 (← sliceFrom t 7)) >>> 7),
    (0x1FFFFF : Int64) &&& ((← load4 (← sliceFrom t 10)) >>> 4),
    (0x1FFFFF : Int64) &&& ((← load3 (← sliceFrom t 13)) >>> 1),
    (0x1FFFFF : Int64) &&& ((← load4 (← sliceFrom t 15)) >>> 6),
    (0x1FFFFF : Int64) &&& ((← load3 (← sliceFrom t 18)) >>> 3),
    (0x1FFFFF : Int64) &&& (← load3 (← sliceFrom t 21)),
    (0x1FFFFF : Int64) &&& ((← load4 (← sliceFrom t 23)) >>> 5),
    (0x1FFFFF : Int64) &&& ((← load3 (← sliceFrom t 26)) >>> 2),
    (0x1FFFFF : Int64) &&& ((← load4 (← sliceFrom t 28)) >>> 7),
    (0x1FFFFF : Int64) &&& ((← load4 (← sliceFrom t 31)) >>> 4),
    (0x1FFFFF : Int64) &&& ((← load3 (← sliceFrom t 34)) >>> 1),
    (0x1FFFFF : Int64) &&& ((← load4 (← sliceFrom t 36)) >>> 6),
    (0x1FFFFF : Int64) &&& ((← load3 (← sliceFrom t 39)) >>> 3),
    (0x1FFFFF : Int64) &&& (← load3 (← sliceFrom t 42)),
    (0x1FFFFF : Int64) &&& ((← load4 (← sliceFrom t 44)) >>> 5),
    (0x1FFFFF : Int64) &&& ((← load3 (← sliceFrom t 47)) >>> 2),
    (0x1FFFFF : Int64) &&& ((← load4 (← sliceFrom t 49)) >>> 7),
    (0x1FFFFF : Int64) &&& ((← load4 (← sliceFrom t 52)) >>> 4),
    (0x1FFFFF : Int64) &&& ((← load3 (← sliceFrom t 55)) >>> 1),
    (0x1FFFFF : Int64) &&& ((← load4 (← sliceFrom t 57)) >>> 6),
    (← load4 (← sliceFrom t 60)) >>> 3]

/-- `Scalar.SetReduced` (scalar.go:406-700); the reduction itself uses variables, not arrays. -/
def sSetReduced (t : List UInt8) : Option Scalar := do
  some (Scalar.pack (Scalar.execAll Scalar.reduceTail (Scalar.Limbs.ofList (← unpack64 t))))

/-- `Scalar.Derive` (scalar.go:398-403). -/
def sDerive (sha512 : List UInt8 → Bytes 64) (buf : List UInt8) : Option Scalar := do
  let h := (sha512 buf).toList
  sSetReduced (← copyAt (List.replicate 64 0) 0 h)

/-- `Scalar.DeriveShort` (scalar.go:383-394). -/
def sDeriveShort (sha512 : List UInt8 → Bytes 64) (buf : List UInt8) : Option Scalar := do
  let h := (sha512 buf).toList
  let s0 ← load4u32 (← sliceFrom h 0)
  let s1 ← load4u32 (← sliceFrom h 4)
  let s2 ← load4u32 (← sliceFrom h 8)
  let s3 ← load4u32 (← sliceFrom h 12)
  some #v[s0, s1, s2, s3, 0, 0, 0, 0]

/-- `Scalar.BigInt` (scalar.go:196-204). -/
def sBigInt (s : Scalar) : Option Int := do
  let buf := (Scalar.bytes s).toList
  let rBuf ← forLt 0 32 1 (fun i rBuf => do put rBuf i (← get buf (31 - i))) (List.replicate 32 0)
  some (Scalar.bigSetBytes rBuf)

/-- `Scalar.SetBigInt` (scalar.go:210-220); the loop's condition is `i < len(buf) && i < 32`. -/
def sSetBigInt (x : Int) : Option Scalar := do
  let biL : Int := 0x1000000000000000000000000000000014def9dea2f79cd65812631a5cf5d3ed
  let buf := Scalar.bigBytes (x % biL).toNat
  let rBuf ← forLt 0 (min buf.length 32) 1 (fun i rBuf => do
    put rBuf i (← get buf (buf.length - i - 1))) (List.replicate 32 0)
  sSetBytes rBuf

/-- `binary.LittleEndian.PutUint64` (Go standard library, `encoding/binary`). -/
def putUint64 (b : List UInt8) (v : UInt64) : Option (List UInt8) := do
  let b ← put b 0 v.toUInt8
  let b ← put b 1 (v >>> 8).toUInt8
  let b ← put b 2 (v >>> 16).toUInt8
  let b ← put b 3 (v >>> 24).toUInt8
  let b ← put b 4 (v >>> 32).toUInt8
  let b ← put b 5 (v >>> 40).toUInt8
  let b ← put b 6 (v >>> 48).toUInt8
  put b 7 (v >>> 56).toUInt8

/-- `Scalar.SetUint64` (scalar.go:223-227). -/
def sSetUint64 (x : UInt64) : Option Scalar := do
  sSetBytes (← putUint64 (List.replicate 32 0) x)

/-- `Scalar.UnmarshalBinary` on receiver `s` (scalar.go:1041-1049). -/
def sUnmarshalBinary (s : Scalar) (data : List UInt8) : Option (Scalar × Bool) := do
  if data.length ≠ 32 then some (s, false)
  else
    let buf ← copyAt (List.replicate 32 0) 0 data
    some (← sSetBytes buf, true)

/-! ## Field elements of the generic build -/

/-- `FieldElement.SetBytes` of the generic build (field_generic.go:335-348). -/
def fe25SetBytes (buf : List UInt8) : Option Fe25 := do
  some (Fe25.setReduced (← load4 (← sliceFrom buf 0))
    ((← load3 (← sliceFrom buf 4)) <<< 6)
    ((← load3 (← sliceFrom buf 7)) <<< 5)
    ((← load3 (← sliceFrom buf 10)) <<< 3)
    ((← load3 (← sliceFrom buf 13)) <<< 2)
    (← load4 (← sliceFrom buf 16))
    ((← load3 (← sliceFrom buf 20)) <<< 7)
    ((← load3 (← sliceFrom buf 23)) <<< 5)
    ((← load3 (← sliceFrom buf 26)) <<< 4)
    (((← load3 (← sliceFrom buf 29)) &&& 8388607) <<< 2))

/-! ## Field elements as big integers (field.go) -/

section
variable {F : Type} [FieldOps F]

/-- `FieldElement.BigInt` (field.go:167-175). -/
def feBigInt (fe : F) : Option Nat := do
  let buf := (FieldOps.bytes fe).toList
  let rBuf ← forLt 0 32 1 (fun i rBuf => do put rBuf i (← get buf (31 - i))) (List.replicate 32 0)
  some (Scalar.bigSetBytes rBuf)

/-- `FieldElement.SetBigInt` (field.go:191-201); the loop's condition is `i < len(buf) && i < 32`. -/
def feSetBigInt (x : Int) : Option F := do
  let bi25519 : Int := 0x7fffffffffffffffffffffffffffffffffffffffffffffffffffffffffffffed
  let buf := Scalar.bigBytes (x % bi25519).toNat
  let rBuf ← forLt 0 (min buf.length 32) 1 (fun i rBuf => do
    put rBuf i (← get buf (buf.length - i - 1))) (List.replicate 32 0)
  some (FieldOps.setBytes (arr32 rBuf))

end

/-! ## Calls -/

section
variable {F : Type} [FieldOps F]

/-- One call, with the functions of this file.  The methods not listed use no computed index; they are
those of `Model.exec`. -/
def exec (e : Env F) (m : Mem F) : Cmd → Option (Mem F × Out)
  | .pDerive p data => do some (m.setPt p (← derive e.sha512 data), .unit)
  | .pDeriveDalek p data => do some (m.setPt p (← deriveDalek e.sha512 data), .unit)
  | .pSetLizard p data => do some (m.setPt p (← setLizard e.sha256 data.toList), .unit)
  | .pLizard p => do
    let r ← lizard e.sha256 (m.pts p)
    some (m.setPt p (toJacobiQuarticRistrettoRecv (m.pts p)), .lizard (r.map (toBytes 16)))
  | .pLizardInto p buf => do
    let r ← lizardInto e.sha256 (m.pts p) buf.toList
    some (m.setPt p (toJacobiQuarticRistrettoRecv (m.pts p)),
      .lizardInto r.2 (if r.2 = .multiple then none else some (toBytes 16 r.1)))
  | .pUnmarshalBinary p data => do
    let r ← pUnmarshalBinary (m.pts p) data
    some (m.setPt p r.1, .bool r.2)
  | .pScalarMult p q s => do some (m.setPt p (← scalarMult (m.pts q) (m.scs s).bytes.toList), .unit)
  | .pPublicScalarMult p q s => do some (m.setPt p (← varTimeScalarMult (m.pts q) (m.scs s).bytes.toList), .unit)
  | .pScalarMultBase p s => do some (m.setPt p (← tableScalarMult e.baseTab (m.scs s).bytes.toList), .unit)
  | .pPublicScalarMultBase p s => do
    some (m.setPt p (← tableVarTimeScalarMult e.baseTab (m.scs s).bytes.toList), .unit)
  | .pScalarMultTable p t s => do some (m.setPt p (← tableScalarMult (m.tabs t) (m.scs s).bytes.toList), .unit)
  | .pPublicScalarMultTable p t s => do
    some (m.setPt p (← tableVarTimeScalarMult (m.tabs t) (m.scs s).bytes.toList), .unit)
  | .tCompute t p => do some (m.setTab t (← tableCompute (m.tabs t) (m.pts p)), .unit)
  | .sSetBytes s buf => do some (m.setSc s (← sSetBytes buf.toList), .unit)
  | .sSetBytesStrict s buf => do
    let r ← sSetBytesStrict (m.scs s) buf.toList
    some (m.setSc s r.1, .bool r.2)
  | .sSetReduced s buf => do some (m.setSc s (← sSetReduced buf.toList), .unit)
  | .sRand s buf => do some (m.setSc s (← sSetReduced buf.toList), .unit)
  | .sDerive s data => do some (m.setSc s (← sDerive e.sha512 data), .unit)
  | .sDeriveShort s data => do some (m.setSc s (← sDeriveShort e.sha512 data), .unit)
  | .sSetBigInt s x => do some (m.setSc s (← sSetBigInt x), .unit)
  | .sSetUint64 s x => do some (m.setSc s (← sSetUint64 x), .unit)
  | .sUnmarshalBinary s data => do
    let r ← sUnmarshalBinary (m.scs s) data
    some (m.setSc s r.1, .bool r.2)
  | .sBigInt s => do some (m, .int (← sBigInt (m.scs s)))
  | c => Model.exec e m c

/-- A program. -/
def run (e : Env F) : Mem F → List Cmd → Option (Mem F × List Out)
  | m, [] => some (m, [])
  | m, c :: cs => do
    let (m', o) ← exec e m c
    let (m'', os) ← run e m' cs
    some (m'', o :: os)

end
end Ristretto.Model.Loops
