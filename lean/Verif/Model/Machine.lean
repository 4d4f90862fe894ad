import Verif.Model.Api

/-!
# Programs over the API

A client of the package keeps points, scalars and tables in variables and calls methods on them.
`Cmd` lists the public methods, with variables named by numbers; the receiver comes first and may
coincide with an argument.  Byte buffers and other plain data are passed by value.  `exec` runs one
call on the contents of the variables, with the functions of `Verif.Model`; `none` is a panic.
-/

namespace Ristretto.Model

/-- The public methods of `Point`, `Scalar` and `ScalarMultTable`. -/
inductive Cmd where
  /-- `Point.SetZero` (ristretto.go:57-60). -/
  | pZero (p : Nat)
  /-- `Point.SetBase` (ristretto.go:63-66). -/
  | pBase (p : Nat)
  /-- `Point.Set` (ristretto.go:69-72). -/
  | pSet (p q : Nat)
  /-- `Point.Add` (ristretto.go:75-78). -/
  | pAdd (p q r : Nat)
  /-- `Point.Double` (ristretto.go:81-84). -/
  | pDouble (p q : Nat)
  /-- `Point.Sub` (ristretto.go:87-90). -/
  | pSub (p q r : Nat)
  /-- `Point.Neg` (ristretto.go:93-96). -/
  | pNeg (p q : Nat)
  /-- `Point.Bytes`, `Point.BytesInto`, `Point.MarshalBinary` (ristretto.go:99-108, 351-355). -/
  | pBytes (p : Nat)
  /-- `Point.SetBytes` (ristretto.go:111-113). -/
  | pSetBytes (p : Nat) (buf : Bytes 32)
  /-- `Point.SetElligator` (ristretto.go:120-127). -/
  | pSetElligator (p : Nat) (buf : Bytes 32)
  /-- `Point.Rand` (ristretto.go:189-195), for every outcome `buf` of `crypto/rand`. -/
  | pRand (p : Nat) (buf : Bytes 32)
  /-- `Point.Derive` (ristretto.go:203-208). -/
  | pDerive (p : Nat) (data : List UInt8)
  /-- `Point.DeriveDalek` (ristretto.go:325-335). -/
  | pDeriveDalek (p : Nat) (data : List UInt8)
  /-- `Point.SetLizard` (ristretto.go:248-259). -/
  | pSetLizard (p : Nat) (data : Bytes 16)
  /-- `Point.Lizard` (ristretto.go:266-272).  It may rewrite the limbs of the receiver. -/
  | pLizard (p : Nat)
  /-- `Point.LizardInto` (ristretto.go:278-303), which may rewrite the limbs of the receiver; the contents of `buf` are not observed after the
  error `Multiple Lizard preimages`. -/
  | pLizardInto (p : Nat) (buf : Bytes 16)
  /-- `Point.EqualsI` (ristretto.go:306-308). -/
  | pEqualsI (p q : Nat)
  /-- `Point.Equals` (ristretto.go:311-313). -/
  | pEquals (p q : Nat)
  /-- `Point.ConditionalSet` (ristretto.go:316-318); its second argument must be 0 or 1. -/
  | pCondSet (p q : Nat) (b : Bool)
  /-- `Point.UnmarshalBinary` (ristretto.go:338-348). -/
  | pUnmarshalBinary (p : Nat) (data : List UInt8)
  /-- `Point.MarshalText`, `Point.String` (ristretto.go:357-364, 398-401). -/
  | pMarshalText (p : Nat)
  /-- `Point.UnmarshalText` (ristretto.go:386-396). -/
  | pUnmarshalText (p : Nat) (txt : List UInt8)
  /-- `Point.ScalarMult` (ristretto.go:151-156). -/
  | pScalarMult (p q s : Nat)
  /-- `Point.PublicScalarMult` (ristretto.go:162-167). -/
  | pPublicScalarMult (p q s : Nat)
  /-- `Point.ScalarMultBase` (ristretto.go:181-186). -/
  | pScalarMultBase (p s : Nat)
  /-- `Point.PublicScalarMultBase` (ristretto.go:173-178). -/
  | pPublicScalarMultBase (p s : Nat)
  /-- `Point.ScalarMultTable` (ristretto.go:131-136). -/
  | pScalarMultTable (p t s : Nat)
  /-- `Point.PublicScalarMultTable` (ristretto.go:143-148). -/
  | pPublicScalarMultTable (p t s : Nat)
  /-- `ScalarMultTable.Compute` (ristretto.go:412-414). -/
  | tCompute (t p : Nat)
  /-- `Scalar.SetZero` (scalar.go:236-238). -/
  | sZero (s : Nat)
  /-- `Scalar.SetOne` (scalar.go:241-243). -/
  | sOne (s : Nat)
  /-- `Scalar.Set` (scalar.go:230-233). -/
  | sSet (s a : Nat)
  /-- `Scalar.Add` (scalar.go:122-140). -/
  | sAdd (s a b : Nat)
  /-- `Scalar.Sub` (scalar.go:143-190). -/
  | sSub (s a b : Nat)
  /-- `Scalar.Neg` (scalar.go:117-119). -/
  | sNeg (s a : Nat)
  /-- `Scalar.Mul` (scalar.go:753-804). -/
  | sMul (s a b : Nat)
  /-- `Scalar.Square` (scalar.go:712-750). -/
  | sSquare (s a : Nat)
  /-- `Scalar.MulAdd` (scalar.go:313-377). -/
  | sMulAdd (s a b c : Nat)
  /-- `Scalar.MulSub` (scalar.go:246-310). -/
  | sMulSub (s a b c : Nat)
  /-- `Scalar.Inverse` (scalar.go:807-1011). -/
  | sInverse (s a : Nat)
  /-- `Scalar.ConditionalSet` (scalar.go:1458-1468); its second argument must be 0 or 1. -/
  | sCondSet (s a : Nat) (b : Bool)
  /-- `Scalar.SetBytes` (scalar.go:79-89). -/
  | sSetBytes (s : Nat) (buf : Bytes 32)
  /-- `Scalar.SetBytesStrict` (scalar.go:94-114). -/
  | sSetBytesStrict (s : Nat) (buf : Bytes 32)
  /-- `Scalar.SetReduced` (scalar.go:406-700). -/
  | sSetReduced (s : Nat) (buf : Bytes 64)
  /-- `Scalar.Rand` (scalar.go:703-709), for every outcome `buf` of `crypto/rand`. -/
  | sRand (s : Nat) (buf : Bytes 64)
  /-- `Scalar.Derive` (scalar.go:398-403). -/
  | sDerive (s : Nat) (data : List UInt8)
  /-- `Scalar.DeriveShort` (scalar.go:383-394). -/
  | sDeriveShort (s : Nat) (data : List UInt8)
  /-- `Scalar.SetBigInt` (scalar.go:210-220). -/
  | sSetBigInt (s : Nat) (x : Int)
  /-- `Scalar.SetUint64` (scalar.go:223-227). -/
  | sSetUint64 (s : Nat) (x : UInt64)
  /-- `Scalar.UnmarshalBinary` (scalar.go:1041-1049). -/
  | sUnmarshalBinary (s : Nat) (data : List UInt8)
  /-- `Scalar.UnmarshalText` (scalar.go:1067-1079). -/
  | sUnmarshalText (s : Nat) (txt : List UInt8)
  /-- `Scalar.Bytes`, `Scalar.BytesInto`, `Scalar.MarshalBinary` (scalar.go:34-75, 1052-1056). -/
  | sBytes (s : Nat)
  /-- `Scalar.MarshalText`, `Scalar.String` (scalar.go:1058-1065, 1081-1084). -/
  | sMarshalText (s : Nat)
  /-- `Scalar.BigInt` (scalar.go:196-204). -/
  | sBigInt (s : Nat)
  /-- `Scalar.IsNonZeroI` (scalar.go:1014-1022). -/
  | sIsNonZeroI (s : Nat)
  /-- `Scalar.EqualsI` (scalar.go:1025-1028). -/
  | sEqualsI (s a : Nat)
  /-- `Scalar.Equals` (scalar.go:1031-1034). -/
  | sEquals (s a : Nat)

/-- What a call returns, apart from its receiver. -/
inductive Out where
  | unit
  | bool (b : Bool)
  | int32 (i : Int32)
  | int (i : Int)
  | bytes (l : List UInt8)
  | lizard (d : Option (Bytes 16))
  | lizardInto (err : Point.LizErr) (buf : Option (Bytes 16))
deriving DecidableEq

/-- The contents of the variables of a client. -/
structure Mem (F : Type) where
  pts : Nat → ExtPt F
  scs : Nat → Scalar
  tabs : Nat → Table F

/-- What the package takes from outside or from its constants: `crypto/sha256.Sum256`,
`crypto/sha512.Sum512` and `edwards25519.BaseScalarMultTable`. -/
structure Env (F : Type) where
  sha256 : List UInt8 → Bytes 32
  sha512 : List UInt8 → Bytes 64
  baseTab : Table F

/-- The second argument of `ConditionalSet`. -/
def bit (b : Bool) : Int32 := if b then 1 else 0

section
variable {F : Type} [FieldOps F]

/-- Go's zero values: `var p Point`, `var s Scalar`, `var t ScalarMultTable`. -/
def Mem.init : Mem F where
  pts _ := ⟨FieldOps.feZero, FieldOps.feZero, FieldOps.feZero, FieldOps.feZero⟩
  scs _ := scZero
  tabs _ := List.replicate 32 (List.replicate 8 ⟨FieldOps.feZero, FieldOps.feZero, FieldOps.feZero⟩)

def Mem.setPt (m : Mem F) (p : Nat) (v : ExtPt F) : Mem F := { m with pts := fun k => if k = p then v else m.pts k }
def Mem.setSc (m : Mem F) (s : Nat) (v : Scalar) : Mem F := { m with scs := fun k => if k = s then v else m.scs k }
def Mem.setTab (m : Mem F) (t : Nat) (v : Table F) : Mem F := { m with tabs := fun k => if k = t then v else m.tabs k }

/-- One call. -/
def exec (e : Env F) (m : Mem F) :
    Cmd → Option (Mem F × Out)
  | .pZero p => some (m.setPt p ExtPt.zero, .unit)
  | .pBase p => some (m.setPt p ExtPt.base, .unit)
  | .pSet p q => some (m.setPt p (m.pts q), .unit)
  | .pAdd p q r => some (m.setPt p (ExtPt.add (m.pts q) (m.pts r)), .unit)
  | .pDouble p q => some (m.setPt p (ExtPt.double (m.pts q)), .unit)
  | .pSub p q r => some (m.setPt p (ExtPt.sub (m.pts q) (m.pts r)), .unit)
  | .pNeg p q => some (m.setPt p (ExtPt.neg (m.pts q)), .unit)
  | .pBytes p => some (m, .bytes (Point.marshalBinary (m.pts p)))
  | .pSetBytes p buf =>
    let r := ExtPt.setRistretto buf
    some (m.setPt p r.1, .bool r.2)
  | .pSetElligator p buf => some (m.setPt p (Point.setElligator buf), .unit)
  | .pRand p buf => some (m.setPt p (Point.rand buf), .unit)
  | .pDerive p data => some (m.setPt p (Point.derive e.sha512 data), .unit)
  | .pDeriveDalek p data => some (m.setPt p (Point.deriveDalek e.sha512 data), .unit)
  | .pSetLizard p data => some (m.setPt p (Point.setLizard e.sha256 data), .unit)
  | .pLizard p => some (m.setPt p (toJacobiQuarticRistrettoRecv (m.pts p)), .lizard (Point.lizard e.sha256 (m.pts p)))
  | .pLizardInto p buf =>
    let r := Point.lizardInto e.sha256 (m.pts p) buf
    some (m.setPt p (toJacobiQuarticRistrettoRecv (m.pts p)), .lizardInto r.2 (if r.2 = .multiple then none else some r.1))
  | .pEqualsI p q => some (m, .int32 (ExtPt.ristrettoEqualsI (m.pts p) (m.pts q)))
  | .pEquals p q => some (m, .bool (Point.equals (m.pts p) (m.pts q)))
  | .pCondSet p q b => some (m.setPt p (ExtPt.condSet (m.pts p) (m.pts q) (bit b)), .unit)
  | .pUnmarshalBinary p data =>
    let r := Point.unmarshalBinary (m.pts p) data
    some (m.setPt p r.1, .bool r.2)
  | .pMarshalText p => some (m, .bytes (Point.marshalText (m.pts p)))
  | .pUnmarshalText p txt => do
    let r ← Point.unmarshalText (m.pts p) txt
    some (m.setPt p r.1, .bool r.2)
  | .pScalarMult p q s => some (m.setPt p (Point.scalarMult (m.pts q) (m.scs s)), .unit)
  | .pPublicScalarMult p q s => do
    let r ← Point.publicScalarMult (m.pts q) (m.scs s)
    some (m.setPt p r, .unit)
  | .pScalarMultBase p s => some (m.setPt p (Point.scalarMultTable e.baseTab (m.scs s)), .unit)
  | .pPublicScalarMultBase p s => do
    let r ← Point.publicScalarMultTable e.baseTab (m.scs s)
    some (m.setPt p r, .unit)
  | .pScalarMultTable p t s => some (m.setPt p (Point.scalarMultTable (m.tabs t) (m.scs s)), .unit)
  | .pPublicScalarMultTable p t s => do
    let r ← Point.publicScalarMultTable (m.tabs t) (m.scs s)
    some (m.setPt p r, .unit)
  | .tCompute t p => some (m.setTab t (tableCompute (m.pts p)), .unit)
  | .sZero s => some (m.setSc s scZero, .unit)
  | .sOne s => some (m.setSc s scOne, .unit)
  | .sSet s a => some (m.setSc s (m.scs a), .unit)
  | .sAdd s a b => some (m.setSc s (Scalar.add (m.scs a) (m.scs b)), .unit)
  | .sSub s a b => some (m.setSc s (Scalar.sub (m.scs a) (m.scs b)), .unit)
  | .sNeg s a => some (m.setSc s (Scalar.neg (m.scs a)), .unit)
  | .sMul s a b => some (m.setSc s (Scalar.mul (m.scs a) (m.scs b)), .unit)
  | .sSquare s a => some (m.setSc s (Scalar.square (m.scs a)), .unit)
  | .sMulAdd s a b c => some (m.setSc s (Scalar.mulAdd (m.scs a) (m.scs b) (m.scs c)), .unit)
  | .sMulSub s a b c => some (m.setSc s (Scalar.mulSub (m.scs a) (m.scs b) (m.scs c)), .unit)
  | .sInverse s a => some (m.setSc s (Scalar.inverse (m.scs a)), .unit)
  | .sCondSet s a b => some (m.setSc s (Scalar.condSet (m.scs s) (m.scs a) (bit b)), .unit)
  | .sSetBytes s buf => some (m.setSc s (Scalar.setBytes buf), .unit)
  | .sSetBytesStrict s buf =>
    let r := Scalar.setBytesStrict (m.scs s) buf
    some (m.setSc s r.1, .bool r.2)
  | .sSetReduced s buf => some (m.setSc s (Scalar.setReduced buf), .unit)
  | .sRand s buf => some (m.setSc s (Scalar.rand buf), .unit)
  | .sDerive s data => some (m.setSc s (Scalar.derive e.sha512 data), .unit)
  | .sDeriveShort s data => some (m.setSc s (Scalar.deriveShort (e.sha512 data)), .unit)
  | .sSetBigInt s x => some (m.setSc s (Scalar.setBigInt x), .unit)
  | .sSetUint64 s x => some (m.setSc s (Scalar.setUint64 x), .unit)
  | .sUnmarshalBinary s data =>
    let r := Scalar.unmarshalBinary (m.scs s) data
    some (m.setSc s r.1, .bool r.2)
  | .sUnmarshalText s txt => do
    let r ← Scalar.unmarshalText (m.scs s) txt
    some (m.setSc s r.1, .bool r.2)
  | .sBytes s => some (m, .bytes (Scalar.marshalBinary (m.scs s)))
  | .sMarshalText s => some (m, .bytes (Scalar.marshalText (m.scs s)))
  | .sBigInt s => some (m, .int (Scalar.bigInt (m.scs s)))
  | .sIsNonZeroI s => some (m, .int32 (Scalar.isNonZeroI (m.scs s)))
  | .sEqualsI s a => some (m, .int32 (Scalar.equalsI (m.scs s) (m.scs a)))
  | .sEquals s a => some (m, .bool (Scalar.equals (m.scs s) (m.scs a)))

/-- A program: the final contents of the variables and everything the calls returned. -/
def run (e : Env F) : Mem F → List Cmd → Option (Mem F × List Out)
  | m, [] => some (m, [])
  | m, c :: cs => do
    let (m', o) ← exec e m c
    let (m'', os) ← run e m' cs
    some (m'', o :: os)

end
end Ristretto.Model
