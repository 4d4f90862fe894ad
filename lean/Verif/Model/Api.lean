import Verif.Model.Curve
import Verif.Model.Elligator
import Verif.Model.Scalar
import Verif.Model.Text

/-!
# The methods of `ristretto.Point`, `ristretto.Scalar` and `ristretto.ScalarMultTable`

A method that sets its receiver is a function of the other arguments; a method that may leave its
receiver unchanged takes it as an argument.  `Option` marks a possible panic.  The hash functions
`crypto/sha256.Sum256` and `crypto/sha512.Sum512` are parameters.
`Point.SetZero`, `SetBase`, `Set`, `Add`, `Double`, `Sub`, `Neg`, `Bytes`, `SetBytes`,
`EqualsI`, `ConditionalSet` (ristretto.go:57-113, 306-318) and `ScalarMultTable.Compute`
(ristretto.go:412-414) only call the method of `edwards25519.ExtendedPoint` modelled in
`Verif.Model.Curve` under the corresponding name.
-/

namespace Ristretto.Model
open FieldOps

/-- The bytes `v[a : a+n]` of an array. -/
def slice {m : Nat} (v : Bytes m) (a n : Nat) : Bytes n := Vector.ofFn fun i => v.toList.getD (a + i.val) 0

/-- `copy(buf[:], data)` into an array of the same length. -/
def toBytes (n : Nat) (l : List UInt8) : Bytes n := Vector.ofFn fun i => l.getD i.val 0

namespace Point
variable {F : Type} [FieldOps F]

/-- `Point.SetElligator` (ristretto.go:120-127). -/
def setElligator (buf : Bytes 32) : ExtPt F :=
  (setRistrettoElligator2 (setBytes buf : F)).toExtended

/-- `Point.Rand` (ristretto.go:189-195), where `buf` is what `crypto/rand` delivers. -/
def rand (buf : Bytes 32) : ExtPt F := setElligator buf

/-- `Point.ScalarMultTable` (ristretto.go:131-136). -/
def scalarMultTable (t : Table F) (s : Scalar) : ExtPt F := tableScalarMult t s.bytes

/-- `Point.PublicScalarMultTable` (ristretto.go:143-148). -/
def publicScalarMultTable (t : Table F) (s : Scalar) : Option (ExtPt F) :=
  tableVarTimeScalarMult t s.bytes

/-- `Point.ScalarMult` (ristretto.go:151-156). -/
def scalarMult (q : ExtPt F) (s : Scalar) : ExtPt F := Model.scalarMult q s.bytes

/-- `Point.PublicScalarMult` (ristretto.go:162-167). -/
def publicScalarMult (q : ExtPt F) (s : Scalar) : Option (ExtPt F) := varTimeScalarMult q s.bytes

/-- `Point.Derive` (ristretto.go:203-208). -/
def derive (sha512 : List UInt8 → Bytes 64) (buf : List UInt8) : ExtPt F :=
  setElligator (slice (sha512 buf) 0 32)

/-- `Point.DeriveDalek` (ristretto.go:325-335). -/
def deriveDalek (sha512 : List UInt8 → Bytes 64) (data : List UInt8) : ExtPt F :=
  let hash := sha512 data
  let p : ExtPt F := setElligator (slice hash 0 32)
  let p2 : ExtPt F := setElligator (slice hash 32 32)
  ExtPt.add p p2

/-- The buffer built from 16 bytes in `SetLizard` (ristretto.go:251-254) and again in `LizardInto`
(ristretto.go:288-291). -/
def lizardBuf (sha256 : List UInt8 → Bytes 32) (data : Bytes 16) : Bytes 32 :=
  let h := sha256 data.toList
  Vector.ofFn fun i =>
    if 8 ≤ i.val ∧ i.val < 24 then data.toList.getD (i.val - 8) 0
    else if i.val = 0 then h[0] &&& 254
    else if i.val = 31 then h[31] &&& 63
    else h[i]

/-- `Point.SetLizard` (ristretto.go:248-259). -/
def setLizard (sha256 : List UInt8 → Bytes 32) (data : Bytes 16) : ExtPt F :=
  (setRistrettoElligator2 (setBytes (lizardBuf sha256 data) : F)).toExtended

/-- The mask `RistrettoElligator2Inverse` returns (elligator.go:43-49): bit `j` is the value
returned for entry `j`. -/
def inverseMask : Nat → List (F × Int32) → UInt8
  | _, [] => 0
  | j, e :: es => (e.2.toUInt32.toUInt8 <<< UInt8.ofNat j) ||| inverseMask (j + 1) es

/-- The outcome of `LizardInto`. -/
inductive LizErr where
  | nil
  | noPreimage
  | multiple
deriving DecidableEq, Repr

/-- One iteration of the loop in `LizardInto` (ristretto.go:285-296) on `(buf, nFound)`. -/
def lizardStep (sha256 : List UInt8 → Bytes 32) (mask : UInt8) (fe : F) (j : Nat)
    (st : Bytes 16 × UInt8) : Bytes 16 × UInt8 :=
  let ok := (mask >>> UInt8.ofNat j) &&& 1
  let buf2 := bytes fe
  let h := lizardBuf sha256 (slice buf2 8 16)
  let ok := ok &&& (ExtPt.constantTimeCompare h buf2).toUInt32.toUInt8
  (if ok = 1 then slice buf2 8 16 else st.1, st.2 + ok)

/-- The loop in `LizardInto` (ristretto.go:285-296) from entry `j` on. -/
def lizardLoop (sha256 : List UInt8 → Bytes 32) (mask : UInt8) :
    Nat → List F → Bytes 16 × UInt8 → Bytes 16 × UInt8
  | _, [], st => st
  | j, fe :: fes, st => lizardLoop sha256 mask (j + 1) fes (lizardStep sha256 mask fe j st)

/-- `Point.LizardInto` (ristretto.go:278-303): the new contents of `buf`, and the error. -/
def lizardInto (sha256 : List UInt8 → Bytes 32) (p : ExtPt F) (buf : Bytes 16) : Bytes 16 × LizErr :=
  let fes := ristrettoElligator2Inverse p
  let mask := inverseMask 0 fes
  let st := lizardLoop sha256 mask 0 (fes.map (·.1)) (buf, 0)
  if st.2 = 1 then (st.1, .nil) else if st.2 = 0 then (st.1, .noPreimage) else (st.1, .multiple)

/-- `Point.Lizard` (ristretto.go:266-272): `none` is a nil slice. -/
def lizard (sha256 : List UInt8 → Bytes 32) (p : ExtPt F) : Option (Bytes 16) :=
  let r := lizardInto sha256 p (Vector.replicate 16 0)
  if r.2 = .nil then some r.1 else none

/-- `Point.Equals` (ristretto.go:311-313). -/
def equals (p q : ExtPt F) : Bool := ExtPt.ristrettoEqualsI p q == 1

/-- `Point.MarshalBinary` (ristretto.go:351-355). -/
def marshalBinary (p : ExtPt F) : List UInt8 := p.ristretto.toList

/-- `Point.UnmarshalBinary` on receiver `p` (ristretto.go:338-348): new receiver, success. -/
def unmarshalBinary (p : ExtPt F) (data : List UInt8) : ExtPt F × Bool :=
  if data.length ≠ 32 then (p, false) else ExtPt.setRistretto (toBytes 32 data)

/-- `Point.MarshalText` (ristretto.go:357-364); `String` (ristretto.go:398-401) is the same. -/
def marshalText (p : ExtPt F) : List UInt8 := b64Encode p.ristretto.toList

/-- `Point.UnmarshalText` on receiver `p` (ristretto.go:386-396): new receiver and success, or
`none` for a panic. -/
def unmarshalText (p : ExtPt F) (txt : List UInt8) : Option (ExtPt F × Bool) :=
  match textToBuf txt with
  | .panic => none
  | .err => some (p, false)
  | .ok buf => some (ExtPt.setRistretto (toBytes 32 buf))

end Point

namespace Scalar

/-- `Scalar.Rand` (scalar.go:703-709), where `buf` is what `crypto/rand` delivers. -/
def rand (buf : Bytes 64) : Scalar := setReduced buf

/-- `Scalar.MarshalBinary` (scalar.go:1052-1056). -/
def marshalBinary (s : Scalar) : List UInt8 := (bytes s).toList

/-- `Scalar.MarshalText` (scalar.go:1058-1065); `String` (scalar.go:1081-1084) is the same. -/
def marshalText (s : Scalar) : List UInt8 := b64Encode (bytes s).toList

/-- `Scalar.UnmarshalText` on receiver `s` (scalar.go:1067-1079): new receiver and success, or
`none` for a panic. -/
def unmarshalText (s : Scalar) (txt : List UInt8) : Option (Scalar × Bool) :=
  match b64Decode 32 txt with
  | .panic => none
  | .err => some (s, false)
  | .ok out => if out.length ≠ 32 then some (s, false) else some (setBytes (toBytes 32 out), true)

end Scalar

end Ristretto.Model
