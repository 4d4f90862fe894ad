import Verif.Model.Machine
import Verif.Spec.Abstract
import Verif.Spec.Lizard
import Verif.Spec.Text

/-!
# The abstract machine

The same programs as in `Verif.Model.Machine`, run on mathematical objects: a point variable holds
an element of the Ristretto group `RGroup` (a group of prime order `l`), a scalar variable an element
of `ℤ/l`, a table variable the group element the table is for.  `none` is the contents of a variable
that was never set, or was the receiver of a failed `SetBytes` or `Unmarshal`.

Such a variable (its four coordinates are zero) is the contents `none` here.  It is not a group
element, yet every method accepts it: it absorbs additions (`addO`, `subO`, `negO`, `dblO`, `smulO`), is
reported equal to everything (`eqO`) and has the encoding of the neutral element (`encO`).

`aexec` is undefined (`none`) exactly where `UnmarshalText` panics.

Text forms are `text32`, `parsePoint` and `parseScalar` of Spec/Text.lean.
-/

namespace Ristretto
set_option autoImplicit false
open Model

/-- The contents of the variables. -/
structure AState where
  pts : ℕ → Option RGroup
  scs : ℕ → ZMod l
  tabs : ℕ → Option RGroup

/-- Nothing set: scalars are zero. -/
def AState.init : AState := ⟨fun _ => none, fun _ => 0, fun _ => none⟩

def AState.setPt (a : AState) (p : ℕ) (v : Option RGroup) : AState :=
  { a with pts := fun k => if k = p then v else a.pts k }
def AState.setSc (a : AState) (s : ℕ) (v : ZMod l) : AState :=
  { a with scs := fun k => if k = s then v else a.scs k }
def AState.setTab (a : AState) (t : ℕ) (v : Option RGroup) : AState :=
  { a with tabs := fun k => if k = t then v else a.tabs k }

/-- The scalar little-endian bytes stand for. -/
def scOfBytes {n : ℕ} (b : Bytes n) : ZMod l := (leVal b : ZMod l)

/-- The 32 bytes of a scalar. -/
def scBytes (s : ZMod l) : Bytes 32 := littleEndian s.val

/-- The result of decoding a slice of 32 bytes. -/
noncomputable def decodeSlice (data : List UInt8) (h : data.length = 32) : Option RGroup :=
  decode ⟨data.toArray, by rw [List.size_toArray, h]⟩

/-- The sum; `none` absorbs. -/
def addO : Option RGroup → Option RGroup → Option RGroup
  | some g, some h => some (g + h)
  | _, _ => none

/-- The difference; `none` absorbs. -/
def subO : Option RGroup → Option RGroup → Option RGroup
  | some g, some h => some (g - h)
  | _, _ => none

/-- The inverse. -/
def negO : Option RGroup → Option RGroup
  | some g => some (-g)
  | none => none

/-- The double. -/
def dblO : Option RGroup → Option RGroup
  | some g => some (2 • g)
  | none => none

/-- A multiple; `none` absorbs unless the scalar is zero. -/
def smulO (s : ZMod l) : Option RGroup → Option RGroup
  | some g => some (s.val • g)
  | none => if s = 0 then some 0 else none

/-- What `Equals` tests; `none` passes for everything. -/
def eqO : Option RGroup → Option RGroup → Prop
  | some g, some h => g = h
  | _, _ => True

/-- What `Bytes` returns; `none` is encoded as the neutral element. -/
noncomputable def encO (g : Option RGroup) : Bytes 32 := encode (g.getD 0)

open Classical in
/-- The data a point decodes to under Lizard, if exactly one input is encoded to it. -/
noncomputable def lizardOf (H : List UInt8 → Bytes 32) (g : RGroup) : Option (Bytes 16) :=
  if h : ∃ d, ∀ d', lizardMap H d' = g ↔ d' = d then some h.choose else none

open Classical in
/-- The error of `LizardInto`. -/
noncomputable def lizardErr (H : List UInt8 → Bytes 32) (g : RGroup) : Point.LizErr :=
  if ∃ d, ∀ d', lizardMap H d' = g ↔ d' = d then .nil
  else if ∃ d, lizardMap H d = g then .multiple else .noPreimage

/-- The observed buffer after `LizardInto`: the data, or unchanged, or not observed. -/
noncomputable def lizardBufOf (H : List UInt8 → Bytes 32) (g : RGroup) (buf : Bytes 16) : Option (Bytes 16) :=
  match lizardErr H g with
  | .nil => lizardOf H g
  | .noPreimage => some buf
  | .multiple => none

open Classical in
/-- One call. -/
noncomputable def aexec (sha256 : List UInt8 → Bytes 32) (sha512 : List UInt8 → Bytes 64) (a : AState) :
    Cmd → Option (AState × Out)
  | .pZero p => some (a.setPt p (some 0), .unit)
  | .pBase p => some (a.setPt p (some baseR), .unit)
  | .pSet p q => some (a.setPt p (a.pts q), .unit)
  | .pAdd p q r => some (a.setPt p (addO (a.pts q) (a.pts r)), .unit)
  | .pDouble p q => some (a.setPt p (dblO (a.pts q)), .unit)
  | .pSub p q r => some (a.setPt p (subO (a.pts q) (a.pts r)), .unit)
  | .pNeg p q => some (a.setPt p (negO (a.pts q)), .unit)
  | .pBytes p => some (a, .bytes (encO (a.pts p)).toList)
  | .pSetBytes p buf => some (a.setPt p (decode buf), .bool (decode buf).isSome)
  | .pSetElligator p buf => some (a.setPt p (some (ellMap (feOfBytes buf))), .unit)
  | .pRand p buf => some (a.setPt p (some (ellMap (feOfBytes buf))), .unit)
  | .pDerive p data => some (a.setPt p (some (ellMap ((leVal (sha512 data) % 2 ^ 255 : ℕ) : Fp))), .unit)
  | .pDeriveDalek p data => some (a.setPt p (some (ellMap ((leVal (sha512 data) % 2 ^ 255 : ℕ) : Fp) +
      ellMap ((leVal (sha512 data) / 2 ^ 256 % 2 ^ 255 : ℕ) : Fp))), .unit)
  | .pSetLizard p data => some (a.setPt p (some (lizardMap sha256 data)), .unit)
  | .pLizard p => some (a, .lizard (lizardOf sha256 ((a.pts p).getD 0)))
  | .pLizardInto p buf => some (a, .lizardInto (lizardErr sha256 ((a.pts p).getD 0))
      (lizardBufOf sha256 ((a.pts p).getD 0) buf))
  | .pEqualsI p q => some (a, .int32 (if eqO (a.pts p) (a.pts q) then 1 else 0))
  | .pEquals p q => some (a, .bool (if eqO (a.pts p) (a.pts q) then true else false))
  | .pCondSet p q b => some (a.setPt p (if b then a.pts q else a.pts p), .unit)
  | .pUnmarshalBinary p data =>
    if h : data.length = 32 then
      some (a.setPt p (decodeSlice data h), .bool (decodeSlice data h).isSome)
    else some (a, .bool false)
  | .pMarshalText p => some (a, .bytes (text32 (encO (a.pts p))))
  | .pUnmarshalText p txt =>
    match parsePoint txt with
    | .panic => none
    | .malformed => some (a, .bool false)
    | .bytes b => some (a.setPt p (decode b), .bool (decode b).isSome)
  | .pScalarMult p q s => some (a.setPt p (smulO (a.scs s) (a.pts q)), .unit)
  | .pPublicScalarMult p q s => some (a.setPt p (smulO (a.scs s) (a.pts q)), .unit)
  | .pScalarMultBase p s => some (a.setPt p (smulO (a.scs s) (some baseR)), .unit)
  | .pPublicScalarMultBase p s => some (a.setPt p (smulO (a.scs s) (some baseR)), .unit)
  | .pScalarMultTable p t s => some (a.setPt p (smulO (a.scs s) (a.tabs t)), .unit)
  | .pPublicScalarMultTable p t s => some (a.setPt p (smulO (a.scs s) (a.tabs t)), .unit)
  | .tCompute t p => some (a.setTab t (a.pts p), .unit)
  | .sZero s => some (a.setSc s 0, .unit)
  | .sOne s => some (a.setSc s 1, .unit)
  | .sSet s x => some (a.setSc s (a.scs x), .unit)
  | .sAdd s x y => some (a.setSc s (a.scs x + a.scs y), .unit)
  | .sSub s x y => some (a.setSc s (a.scs x - a.scs y), .unit)
  | .sNeg s x => some (a.setSc s (-a.scs x), .unit)
  | .sMul s x y => some (a.setSc s (a.scs x * a.scs y), .unit)
  | .sSquare s x => some (a.setSc s (a.scs x ^ 2), .unit)
  | .sMulAdd s x y z => some (a.setSc s (a.scs x * a.scs y + a.scs z), .unit)
  | .sMulSub s x y z => some (a.setSc s (a.scs x * a.scs y - a.scs z), .unit)
  | .sInverse s x => some (a.setSc s (a.scs x)⁻¹, .unit)
  | .sCondSet s x b => some (a.setSc s (if b then a.scs x else a.scs s), .unit)
  | .sSetBytes s buf => some (a.setSc s ((leVal buf % 2 ^ 253 : ℕ) : ZMod l), .unit)
  | .sSetBytesStrict s buf =>
    if leVal buf < l then some (a.setSc s (scOfBytes buf), .bool true) else some (a, .bool false)
  | .sSetReduced s buf => some (a.setSc s (scOfBytes buf), .unit)
  | .sRand s buf => some (a.setSc s (scOfBytes buf), .unit)
  | .sDerive s data => some (a.setSc s (scOfBytes (sha512 data)), .unit)
  | .sDeriveShort s data => some (a.setSc s ((leVal (sha512 data) % 2 ^ 128 : ℕ) : ZMod l), .unit)
  | .sSetBigInt s x => some (a.setSc s (x : ZMod l), .unit)
  | .sSetUint64 s x => some (a.setSc s (x.toNat : ZMod l), .unit)
  | .sUnmarshalBinary s data =>
    if data.length = 32 then some (a.setSc s ((leNat data % 2 ^ 253 : ℕ) : ZMod l), .bool true)
    else some (a, .bool false)
  | .sUnmarshalText s txt =>
    match parseScalar txt with
    | .panic => none
    | .malformed => some (a, .bool false)
    | .bytes b => some (a.setSc s ((leVal b % 2 ^ 253 : ℕ) : ZMod l), .bool true)
  | .sBytes s => some (a, .bytes (scBytes (a.scs s)).toList)
  | .sMarshalText s => some (a, .bytes (text32 (scBytes (a.scs s))))
  | .sBigInt s => some (a, .int (a.scs s).val)
  | .sIsNonZeroI s => some (a, .int32 (if a.scs s = 0 then 0 else 1))
  | .sEqualsI s x => some (a, .int32 (if a.scs s = a.scs x then 1 else 0))
  | .sEquals s x => some (a, .bool (if a.scs s = a.scs x then true else false))

/-- A program. -/
noncomputable def arun (sha256 : List UInt8 → Bytes 32) (sha512 : List UInt8 → Bytes 64) :
    AState → List Cmd → Option (AState × List Out)
  | a, [] => some (a, [])
  | a, c :: cs => do
    let (a', o) ← aexec sha256 sha512 a c
    let (a'', os) ← arun sha256 sha512 a' cs
    some (a'', o :: os)

end Ristretto
