import Verif.Model.Machine

/-!
# What an execution reveals through its control flow and its memory accesses

The usual model of timing attacks: an observer sees the outcome of every branch and the index of every
array access, and which straight-line functions are called in between, but not the data those functions work on.  `L α` is a value of
type `α` with the list of such events; the functions below are those of `Verif.Model` with the events written next to
the computation (`Verif.Props.Timing` proves that they compute the same values).

Straight-line functions are those whose Go code has no `if`, no loop other than over a constant range, and no array index other
than constants and counters of such loops: all functions of `field.go`, `field_radix51.go`, `field_mul64.go`,
`field_generic.go`, all point operations of `curve.go` and `table.go` other than the scalar multiplications, and in
`scalar.go` all but those listed in `execL`.  They are one event each, or none if they are a whole method.
-/

namespace Ristretto.Model
open FieldOps

/-- What the observer sees. -/
inductive Ev where
  /-- The outcome of an `if`, or of the condition of a loop that depends on data. -/
  | branch (b : Bool)
  /-- An array index. -/
  | index (i : Int)
  /-- A straight-line function is called. -/
  | call (f : String)
  /-- The length of a slice. -/
  | len (n : Nat)
  /-- Bytes that index tables in library code (`encoding/base64`, `encoding/hex`). -/
  | data (l : List UInt8)
  /-- A number handed to `math/big`, which is not constant-time. -/
  | big (x : Int)
deriving DecidableEq

/-- A value, and what computing it reveals. -/
structure L (α : Type) where
  val : α
  trace : List Ev

namespace L

instance : Monad L where
  pure a := ⟨a, []⟩
  bind x f := ⟨(f x.val).val, x.trace ++ (f x.val).trace⟩

/-- Record events. -/
def emit (t : List Ev) : L Unit := ⟨(), t⟩

/-- `if b`: record the outcome. -/
def test (b : Bool) : L Bool := ⟨b, [.branch b]⟩

end L

section
variable {F : Type} [FieldOps F]

/-! ## ScalarMult (curve.go:327-406) -/

/-- The second loop of `computeScalarWindow5` (curve.go:350-356); `i` is the loop counter. -/
def window5SignL : Nat → Int8 → Int8 → List Int8 → L (List Int8)
  | i, carry, a, [] => do
    L.emit [.index i]
    pure [a + carry]
  | i, carry, a, b :: rest => do
    L.emit [.index i, .index (i + 1)]
    let a := a + carry
    let b := b + (a >>> 5)
    let a := a &&& 31
    let carry := a >>> 4
    let a := a - (carry <<< 5)
    let r ← window5SignL (i + 1) carry b rest
    pure (a :: r)

/-- `computeScalarWindow5` (curve.go:328-358). -/
def computeScalarWindow5L (s : Bytes 32) : L (List Int8) := do
  L.emit ((List.range 32).map fun (i : Nat) => .index i)
  match window5Raw s with
  | [] => pure []
  | a :: rest => window5SignL 0 0 a rest

/-- The selection loop (curve.go:391-394): every entry of `lut` is read. -/
def scalarMultSelectLoopL (b : Int32) : Int32 → List (ExtPt F) → ExtPt F → L (ExtPt F)
  | _, [], t => pure t
  | j, e :: rest, t => do
    let c := equal15 b (-j) ||| equal15 b j
    L.emit [.call "equal15", .call "equal15", .index j.toInt, .call "ExtendedPoint.ConditionalSet"]
    scalarMultSelectLoopL b (j + 1) rest (t.condSet e c)

/-- Selection with sign (curve.go:389-400). -/
def scalarMultSelectL (lut : List (ExtPt F)) (b : Int32) : L (ExtPt F) := do
  let t ← scalarMultSelectLoopL b 1 lut.tail (lut.headD ExtPt.zero)
  L.emit [.call "negative", .call "Neg", .call "ConditionalSet", .call "Neg", .call "ConditionalSet"]
  let c := negative b
  let v := neg t.X
  let X := condSet t.X v c
  let v := neg t.T
  let T := condSet t.T v c
  pure ⟨X, t.Y, t.Z, T⟩

/-- The main loop (curve.go:379-403); `i` counts the iterations left. -/
def scalarMultLoopL (lut : List (ExtPt F)) : List Int8 → ExtPt F → L (ExtPt F)
  | [], p => pure p
  | w :: ws, p => do
    L.emit [.call "DoubleExtended", .call "SetCompleted", .call "DoubleProjective", .call "SetCompleted",
      .call "DoubleProjective", .call "SetCompleted", .call "DoubleProjective", .call "SetCompleted",
      .call "DoubleProjective", .call "SetCompleted", .index ws.length]
    let cp := ComplPt.doubleExtended p
    let cp := ComplPt.doubleProjective cp.toProjective
    let cp := ComplPt.doubleProjective cp.toProjective
    let cp := ComplPt.doubleProjective cp.toProjective
    let cp := ComplPt.doubleProjective cp.toProjective
    let p := cp.toExtended
    let t ← scalarMultSelectL lut w.toInt32
    L.emit [.call "Add"]
    scalarMultLoopL lut ws (ExtPt.add p t)

/-- `ExtendedPoint.ScalarMult` (curve.go:361-406); the loop that fills `lut` is straight-line. -/
def scalarMultL (q : ExtPt F) (s : Bytes 32) : L (ExtPt F) := do
  let window ← computeScalarWindow5L s
  L.emit [.call "lut"]
  scalarMultLoopL (scalarMultLut q) window.reverse ExtPt.zero

/-! ## VarTimeScalarMult (vartime.go) -/

/-- The loop of `computeScalar5NAF` (vartime.go:26-50). -/
def nafLoopL (x : Nat → UInt64) : Nat → Nat → UInt64 → (Nat → Int8) → L (Nat → Int8)
  | 0, _, _, naf => pure naf
  | fuel + 1, pos, carry, naf => do
    if ← L.test (pos < 256) then
      let _ ← L.test (pos % 64 < 59)
      L.emit [.index (pos / 64)]
      let window := carry + (nafBits x pos &&& 31)
      if ← L.test (window &&& 1 == 0) then nafLoopL x fuel (pos + 1) carry naf
      else if ← L.test (window < 16) then
        L.emit [.index pos]
        nafLoopL x fuel (pos + 5) 0 (nafSet naf pos window.toUInt8.toInt8)
      else
        L.emit [.index pos]
        nafLoopL x fuel (pos + 5) 1 (nafSet naf pos (window.toUInt8.toInt8 - 32))
    else pure naf

/-- "Skip the trailing zeroes" (vartime.go:68-74). -/
def nafTopL (naf : Nat → Int8) : Nat → L (Option Nat)
  | 0 => pure none
  | n + 1 => do
    L.emit [.index n]
    if ← L.test (naf n ≠ 0) then pure (some n) else nafTopL naf n

/-- "Find next non-zero digit" (vartime.go:101-108). -/
def nafSkipL (naf : Nat → Int8) : Nat → ComplPt F → L (Nat × ComplPt F)
  | 0, cp => do
    let _ ← L.test true
    pure (0, cp)
  | i + 1, cp => do
    L.emit [.index (i + 1)]
    if ← L.test (naf (i + 1) ≠ 0) then pure (i + 1, cp)
    else
      L.emit [.call "SetCompleted", .call "DoubleProjective"]
      nafSkipL naf i (ComplPt.doubleProjective cp.toProjective)

/-- The addition or subtraction for a digit (vartime.go:85-90). -/
def varTimeDigitL (d : Int8) (lut : List (ExtPt F)) (p : ExtPt F) : L (Option (ComplPt F)) := do
  if ← L.test (d > 0) then
    L.emit [.index ((d + 1) / 2 - 1).toInt, .call "AddExtended"]
    pure ((lutGet lut ((d + 1) / 2 - 1)).map (ComplPt.addExtended p))
  else
    L.emit [.index ((1 - d) / 2 - 1).toInt, .call "SubExtended"]
    pure ((lutGet lut ((1 - d) / 2 - 1)).map (ComplPt.subExtended p))

/-- The main loop (vartime.go:84-114). -/
def varTimeLoopL (naf : Nat → Int8) (lut : List (ExtPt F)) : Nat → Nat → ExtPt F → L (Option (ExtPt F))
  | 0, _, _ => pure none
  | fuel + 1, i, p => do
    L.emit [.index i]
    match ← varTimeDigitL (naf i) lut p with
    | none => pure none
    | some cp =>
      let _ ← L.test (i == 0)
      match i with
      | 0 => pure (some cp.toExtended)
      | i' + 1 => do
        L.emit [.call "SetCompleted", .call "DoubleProjective"]
        let cp := ComplPt.doubleProjective cp.toProjective
        let r ← nafSkipL naf i' cp
        L.emit [.call "SetCompleted"]
        let p := r.2.toExtended
        if ← L.test (naf r.1 = 0) then pure (some p) else varTimeLoopL naf lut fuel r.1 p

/-- `ExtendedPoint.VarTimeScalarMult` (vartime.go:53-117). -/
def varTimeScalarMultL (q : ExtPt F) (s : Bytes 32) : L (Option (ExtPt F)) := do
  L.emit [.call "lut"]
  let naf ← nafLoopL (nafWord s) 256 0 0 (fun _ => 0)
  let top ← nafTopL naf 256
  let _ ← L.test top.isNone
  match top with
  | none => pure (some ExtPt.zero)
  | some i => varTimeLoopL naf (varTimeLut q) (i + 1) i ExtPt.zero

/-! ## Tables (table.go:115-217) -/

/-- The second loop of `computeScalarWindow4` (table.go:121-127). -/
def window4SignL : Nat → Int8 → Int8 → List Int8 → L (List Int8)
  | i, carry, a, [] => do
    L.emit [.index i]
    pure [a + carry]
  | i, carry, a, b :: rest => do
    L.emit [.index i]
    let a := a + carry
    let carry := (a + 8) >>> 4
    let a := a - (carry <<< 4)
    let r ← window4SignL (i + 1) carry b rest
    pure (a :: r)

/-- `computeScalarWindow4` (table.go:116-128). -/
def computeScalarWindow4L (s : Bytes 32) : L (List Int8) := do
  L.emit ((List.range 32).map fun (i : Nat) => .index i)
  match window4Raw s with
  | [] => pure []
  | a :: rest => window4SignL 0 0 a rest

/-- The loop of `selectPoint` (table.go:199-201): every entry of the row is read. -/
def selectLoopL (bAbs : Int32) : Int32 → List (NielsPt F) → NielsPt F → L (NielsPt F)
  | _, [], p => pure p
  | i, e :: rest, p => do
    L.emit [.call "equal30", .index i.toInt, .call "NielsPoint.ConditionalSet"]
    selectLoopL bAbs (i + 1) rest (p.condSet e (equal30 bAbs (i + 1)))

/-- `ScalarMultTable.selectPoint` (table.go:195-205) on row `t[pos]`. -/
def selectPointL (pos : Nat) (row : List (NielsPt F)) (b : Int32) : L (NielsPt F) := do
  L.emit [.call "negative", .index pos]
  let bNegative := negative b
  let bAbs := b - (((-bNegative) &&& b) <<< 1)
  let p ← selectLoopL bAbs 0 row NielsPt.zero
  L.emit [.call "NielsPoint.Neg", .call "NielsPoint.ConditionalSet"]
  let negP := p.neg
  pure (p.condSet negP bNegative)

/-- One of the two addition loops of `ScalarMult` (table.go:140-144,155-159). -/
def tableAddLoopL : Nat → List (List (NielsPt F)) → List Int8 → ExtPt F → L (ExtPt F)
  | i, row :: rows, w :: ws, p => do
    let np ← selectPointL i row w.toInt32
    L.emit [.call "AddExtendedNiels", .call "SetCompleted"]
    tableAddLoopL (i + 1) rows ws (ComplPt.addExtendedNiels p np).toExtended
  | _, _, _, p => pure p

/-- `ScalarMultTable.ScalarMult` (table.go:131-160). -/
def tableScalarMultL (t : Table F) (s : Bytes 32) : L (ExtPt F) := do
  let w ← computeScalarWindow4L s
  let p ← tableAddLoopL 0 t (odds w) ExtPt.zero
  L.emit [.call "double4"]
  tableAddLoopL 0 t (evens w) (double4 p)

/-- One of the two loops of `VarTimeScalarMult` (table.go:171-176,187-192), with `varTimeSelectPoint`
(table.go:207-217). -/
def tableVarTimeLoopL : Nat → List (List (NielsPt F)) → List Int8 → ExtPt F → L (Option (ExtPt F))
  | i, row :: rows, w :: ws, p => do
    if ← L.test (w.toInt32 = 0) then tableVarTimeLoopL (i + 1) rows ws p
    else
      let neg ← L.test (w.toInt32 < 0)
      L.emit [.index i, .index (if neg then (-w.toInt32 - 1).toInt else (w.toInt32 - 1).toInt)]
      match varTimeSelectPoint row w.toInt32 with
      | none => pure none
      | some np =>
        L.emit [.call "AddExtendedNiels", .call "SetCompleted"]
        tableVarTimeLoopL (i + 1) rows ws (ComplPt.addExtendedNiels p np).toExtended
  | _, _, _, p => pure (some p)

/-- `ScalarMultTable.VarTimeScalarMult` (table.go:162-193). -/
def tableVarTimeScalarMultL (t : Table F) (s : Bytes 32) : L (Option (ExtPt F)) := do
  let w ← computeScalarWindow4L s
  match ← tableVarTimeLoopL 0 t (odds w) ExtPt.zero with
  | none => pure none
  | some p =>
    L.emit [.call "double4"]
    tableVarTimeLoopL 0 t (evens w) (double4 p)

/-! ## Lizard (ristretto.go:266-303) -/

/-- The loop in `LizardInto` (ristretto.go:285-295): eight times the same straight-line code. -/
def lizardLoopL (sha256 : List UInt8 → Bytes 32) (mask : UInt8) :
    Nat → List F → Bytes 16 × UInt8 → L (Bytes 16 × UInt8)
  | _, [], st => pure st
  | j, fe :: fes, st => do
    L.emit [.index j, .call "BytesInto", .len 16, .call "Sum256", .call "ConstantTimeCompare", .call "ConstantTimeCopy"]
    lizardLoopL sha256 mask (j + 1) fes (Point.lizardStep sha256 mask fe j st)

/-- `Point.LizardInto` (ristretto.go:278-303). -/
def lizardIntoL (sha256 : List UInt8 → Bytes 32) (p : ExtPt F) (buf : Bytes 16) : L (Bytes 16 × Point.LizErr) := do
  L.emit [.call "RistrettoElligator2Inverse"]
  let fes := ristrettoElligator2Inverse p
  let mask := Point.inverseMask 0 fes
  let st ← lizardLoopL sha256 mask 0 (fes.map (·.1)) (buf, 0)
  if ← L.test (st.2 = 1) then pure (st.1, .nil)
  else if ← L.test (st.2 = 0) then pure (st.1, .noPreimage) else pure (st.1, .multiple)

/-- `Point.Lizard` (ristretto.go:266-272). -/
def lizardL (sha256 : List UInt8 → Bytes 32) (p : ExtPt F) : L (Option (Bytes 16)) := do
  let r ← lizardIntoL sha256 p (Vector.replicate 16 0)
  if ← L.test (r.2 = .nil) then pure (some r.1) else pure none

/-! ## Programs -/

/-- One call with its events.  The methods after the last listed one are straight-line. -/
def execL (e : Env F) (m : Mem F) : Cmd → L (Option (Mem F × Out))
  -- ristretto.go:151-186, 131-148
  | .pScalarMult p q s => do
    let r ← scalarMultL (m.pts q) (m.scs s).bytes
    pure (some (m.setPt p r, .unit))
  | .pScalarMultBase p s => do
    let r ← tableScalarMultL e.baseTab (m.scs s).bytes
    pure (some (m.setPt p r, .unit))
  | .pScalarMultTable p t s => do
    let r ← tableScalarMultL (m.tabs t) (m.scs s).bytes
    pure (some (m.setPt p r, .unit))
  | .pPublicScalarMult p q s => do
    let r ← varTimeScalarMultL (m.pts q) (m.scs s).bytes
    pure (r.map fun r => (m.setPt p r, .unit))
  | .pPublicScalarMultBase p s => do
    let r ← tableVarTimeScalarMultL e.baseTab (m.scs s).bytes
    pure (r.map fun r => (m.setPt p r, .unit))
  | .pPublicScalarMultTable p t s => do
    let r ← tableVarTimeScalarMultL (m.tabs t) (m.scs s).bytes
    pure (r.map fun r => (m.setPt p r, .unit))
  -- hashing depends on the length of the data: ristretto.go:203-208, 325-335, scalar.go:383-403
  | .pDerive p data => ⟨exec e m (.pDerive p data), [.len data.length]⟩
  | .pDeriveDalek p data => ⟨exec e m (.pDeriveDalek p data), [.len data.length]⟩
  | .sDerive s data => ⟨exec e m (.sDerive s data), [.len data.length]⟩
  | .sDeriveShort s data => ⟨exec e m (.sDeriveShort s data), [.len data.length]⟩
  -- ristretto.go:266-303
  | .pLizard p => do
    let r ← lizardL e.sha256 (m.pts p)
    pure (some (m.setPt p (toJacobiQuarticRistrettoRecv (m.pts p)), .lizard r))
  | .pLizardInto p buf => do
    let r ← lizardIntoL e.sha256 (m.pts p) buf
    pure (some (m.setPt p (toJacobiQuarticRistrettoRecv (m.pts p)),
      .lizardInto r.2 (if r.2 = .multiple then none else some r.1)))
  -- ristretto.go:338-348
  | .pUnmarshalBinary p data => do
    L.emit [.len data.length]
    if ← L.test (data.length ≠ 32) then pure (some (m.setPt p (m.pts p), .bool false))
    else
      L.emit [.call "SetBytes"]
      let r := ExtPt.setRistretto (toBytes 32 data)
      let _ ← L.test (!r.2)
      pure (some (m.setPt p r.1, .bool r.2))
  -- scalar.go:1041-1049
  | .sUnmarshalBinary s data => do
    L.emit [.len data.length]
    let _ ← L.test (data.length ≠ 32)
    pure (exec e m (.sUnmarshalBinary s data))
  -- scalar.go:94-114
  | .sSetBytesStrict s buf => do
    let r := Scalar.setBytesStrict (m.scs s) buf
    let _ ← L.test (!r.2)
    pure (some (m.setSc s r.1, .bool r.2))
  -- encoding/base64 and encoding/hex look bytes up in tables: ristretto.go:357-396, scalar.go:1058-1079
  | .pMarshalText p => ⟨exec e m (.pMarshalText p), [.data (m.pts p).ristretto.toList]⟩
  | .sMarshalText s => ⟨exec e m (.sMarshalText s), [.data (m.scs s).bytes.toList]⟩
  | .pUnmarshalText p txt => ⟨exec e m (.pUnmarshalText p txt), [.data txt]⟩
  | .sUnmarshalText s txt => ⟨exec e m (.sUnmarshalText s txt), [.data txt]⟩
  -- math/big: scalar.go:196-220
  | .sSetBigInt s x => ⟨exec e m (.sSetBigInt s x), [.big x]⟩
  | .sBigInt s => ⟨exec e m (.sBigInt s), [.big (Scalar.bigInt (m.scs s))]⟩
  | c => ⟨exec e m c, []⟩

/-- A program with the events of all its calls. -/
def runL (e : Env F) : Mem F → List Cmd → L (Option (Mem F × List Out))
  | m, [] => pure (some (m, []))
  | m, c :: cs => do
    match ← execL e m c with
    | none => pure none
    | some r => do
      match ← runL e r.1 cs with
      | none => pure none
      | some r' => pure (some (r'.1, r.2 :: r'.2))

end
end Ristretto.Model
