import Verif.Model.Elligator

/-!
# The String methods of package edwards25519

`fmt.Sprintf` and `hex.EncodeToString` are from the standard library and follow their documentation: `%v` of a value with
a `String` method is the text that method returns.
-/

namespace Ristretto.Model
open FieldOps

/-- The bytes of an ASCII string. -/
def ascii (s : String) : List UInt8 := s.toList.map fun c => UInt8.ofNat c.toNat

/-- `big.Int.String` for numbers that are not negative (math/big): decimal digits. -/
def decimal (n : Nat) : List UInt8 :=
  if n < 10 then [UInt8.ofNat (48 + n)] else decimal (n / 10) ++ [UInt8.ofNat (48 + n % 10)]
termination_by n
decreasing_by omega

/-- `hextable` (encoding/hex). -/
def hexSym (v : UInt8) : UInt8 := if v < 10 then 48 + v else 87 + v

/-- `hex.EncodeToString` (encoding/hex). -/
def hexEncode (bs : List UInt8) : List UInt8 := bs.flatMap fun (b : UInt8) => [hexSym (b >>> 4), hexSym (b &&& 15)]

variable {F : Type} [FieldOps F]

/-- `FieldElement.String` (field.go:182-184). -/
def feString (fe : F) : List UInt8 := decimal (feBigInt fe)

/-- `ExtendedPoint.String` (curve.go:431-434). -/
def ExtPt.string (p : ExtPt F) : List UInt8 :=
  ascii "ExtendedPoint(" ++ feString p.X ++ ascii ", " ++ feString p.Y ++ ascii ", " ++ feString p.Z ++ ascii ", " ++
    feString p.T ++ ascii "; " ++ hexEncode (ExtPt.ristretto p).toList ++ ascii ")"

/-- `CompletedPoint.String` (curve.go:439-444). -/
def ComplPt.string (p : ComplPt F) : List UInt8 :=
  let ep := p.toExtended
  ascii "CompletedPoint(" ++ feString p.X ++ ascii ", " ++ feString p.Y ++ ascii ", " ++ feString p.Z ++ ascii ", " ++
    feString p.T ++ ascii "; " ++ hexEncode (ExtPt.ristretto ep).toList ++ ascii ")"

/-- `JacobiPoint.String` (elligator.go:271-273). -/
def JacPt.string (p : JacPt F) : List UInt8 :=
  ascii "JacobiPoint(" ++ feString p.S ++ ascii ", " ++ feString p.T ++ ascii ")"

end Ristretto.Model
