/-!
# Which files of package edwards25519 a build consists of

The package has three implementations of field arithmetic.  The go command picks files by their names and by the build
constraints on their first lines.  This file is a model of that choice (the rules are those of `go help buildconstraint`), and
of what the files declare.  The definitions before `curve` model the go command and correspond to no lines of the repository;
the lines they are applied to are cited at each file.
-/

namespace Ristretto.Model.Build
set_option autoImplicit false

/-- A source file as far as the go command and the linker are concerned.  `declares` are the package-level names a file
defines (methods as `Type.Method`; for an assembly file the `TEXT` symbols), `external` the functions it declares without a
body.  `mentions` are the package-level names of which the last component occurs as an identifier in the file, which are more
than those it refers to.  The lists were extracted from the source text by a script. -/
structure SourceFile where
  name : String
  goBuild : Option String
  plusBuild : List String
  declares : List String
  external : List String
  mentions : List String

/-- Cuts a list at each occurrence of a separator. -/
def splitAt (c : Char) : List Char → List (List Char)
  | [] => [[]]
  | x :: l => if x = c then [] :: splitAt c l else
      match splitAt c l with
      | [] => [[x]]
      | w :: ws => (x :: w) :: ws

/-- Architectures known to the go command (go/build/syslist.go). -/
def knownArch : List String :=
  ["386", "amd64", "amd64p32", "arm", "armbe", "arm64", "arm64be", "loong64", "mips", "mipsle", "mips64", "mips64le",
   "mips64p32", "mips64p32le", "ppc", "ppc64", "ppc64le", "riscv", "riscv64", "s390", "s390x", "sparc", "sparc64", "wasm"]
/-- Likewise, operating systems. -/
def knownOS : List String :=
  ["aix", "android", "darwin", "dragonfly", "freebsd", "hurd", "illumos", "ios", "js", "linux", "nacl", "netbsd", "openbsd",
   "plan9", "solaris", "wasip1", "windows", "zos"]

/-- The tags a file name asks for: `name_GOOS_GOARCH`, `name_GOARCH` or `name_GOOS` before the first dot. -/
def nameTags (name : String) : List String :=
  let stem := name.toList.takeWhile (· ≠ '.')
  match ((splitAt '_' stem).drop 1).reverse.map String.ofList with
  | [] => []
  | [a] => if knownArch.contains a || knownOS.contains a then [a] else []
  | a :: o :: _ =>
    if knownArch.contains a && knownOS.contains o then [a, o]
    else if knownArch.contains a || knownOS.contains a then [a] else []

/-- Whether a file is a test. -/
def isTest (name : String) : Bool := "og.tset_".toList.isPrefixOf name.toList.reverse

/-- A `+build` line: options separated by spaces, one of which must hold; each is a list of terms separated by commas, all of
which must hold; a term is a tag or a negated tag. -/
def evalPlus (sat : String → Bool) (line : String) : Bool :=
  (splitAt ' ' line.toList).any fun opt => (splitAt ',' opt).all fun term =>
    match term with
    | '!' :: t => !sat (String.ofList t)
    | t => sat (String.ofList t)

/-- A token of a `//go:build` line. -/
inductive Tok where
  | tag (s : List Char)
  | and | or | not | opn | cls
  deriving DecidableEq

/-- The tokens of the text of a `//go:build` line. -/
def tokens : List Char → List Tok
  | [] => []
  | ' ' :: l => tokens l
  | '(' :: l => .opn :: tokens l
  | ')' :: l => .cls :: tokens l
  | '!' :: l => .not :: tokens l
  | '&' :: '&' :: l => .and :: tokens l
  | '|' :: '|' :: l => .or :: tokens l
  | c :: l =>
    match tokens l, l with
    | .tag s :: ts, d :: _ => if d.isAlphanum || d = '.' || d = '_' then .tag (c :: s) :: ts else .tag [c] :: .tag s :: ts
    | ts, _ => .tag [c] :: ts

mutual
/-- `expr = and { "||" and }`, evaluated while it is parsed. -/
def parseOr (sat : String → Bool) : Nat → List Tok → Option (Bool × List Tok)
  | 0, _ => none
  | n + 1, ts =>
    match parseAnd sat n ts with
    | some (v, .or :: r) => (parseOr sat n r).map fun x => (v || x.1, x.2)
    | x => x
/-- `and = not { "&&" not }`. -/
def parseAnd (sat : String → Bool) : Nat → List Tok → Option (Bool × List Tok)
  | 0, _ => none
  | n + 1, ts =>
    match parseNot sat n ts with
    | some (v, .and :: r) => (parseAnd sat n r).map fun x => (v && x.1, x.2)
    | x => x
/-- `not = "!" not | tag | "(" expr ")"`. -/
def parseNot (sat : String → Bool) : Nat → List Tok → Option (Bool × List Tok)
  | 0, _ => none
  | n + 1, .not :: r => (parseNot sat n r).map fun x => (!x.1, x.2)
  | _ + 1, .tag s :: r => some (sat (String.ofList s), r)
  | n + 1, .opn :: r =>
    match parseOr sat n r with
    | some (v, .cls :: r') => some (v, r')
    | _ => none
  | _ + 1, _ => none
end

/-- A `//go:build` line; `none` if it is not well-formed. -/
def evalGo (sat : String → Bool) (line : String) : Option Bool :=
  match parseOr sat (4 * line.toList.length) (tokens line.toList) with
  | some (v, []) => some v
  | _ => none

/-- Whether a build in which the tags `sat` are satisfied contains a file.  From Go 1.17 on (`new`) a `//go:build` line
replaces the `+build` lines, before it was a comment. -/
def selected (new : Bool) (sat : String → Bool) (f : SourceFile) : Bool :=
  !isTest f.name && (nameTags f.name).all sat &&
    (match new, f.goBuild with
     | true, some l => evalGo sat l == some true
     | _, _ => f.plusBuild.all (evalPlus sat))

/-- edwards25519/curve.go (curve.go:1-444 for the names; it has no constraint). -/
def curve : SourceFile where
  name := "curve.go"
  goBuild := none
  plusBuild := []
  declares :=
    ["ExtendedPoint.SetTorsion3", "ExtendedPoint.SetTorsion2", "ExtendedPoint.SetTorsion1",
    "ProjectivePoint.SetZero", "ExtendedPoint.SetZero", "ExtendedPoint.SetBase", "ExtendedPoint.Set",
    "ExtendedPoint.ConditionalSet", "CompletedPoint.AddExtended", "CompletedPoint.SubExtended",
    "CompletedPoint.DoubleProjective", "CompletedPoint.DoubleExtended", "ProjectivePoint.SetExtended",
    "ProjectivePoint.SetCompleted", "ExtendedPoint.Double", "ExtendedPoint.Add", "ExtendedPoint.Sub",
    "ExtendedPoint.SetCompleted", "ExtendedPoint.SetRistretto", "ExtendedPoint.Ristretto",
    "ExtendedPoint.RistrettoInto", "computeScalarWindow5", "ExtendedPoint.ScalarMult", "ExtendedPoint.Neg",
    "ExtendedPoint.RistrettoEqualsI", "ExtendedPoint.String", "CompletedPoint.String", "ExtendedPoint",
    "CompletedPoint", "ProjectivePoint"]
  external := []
  mentions :=
    ["CompletedPoint", "CompletedPoint.AddExtended", "CompletedPoint.DoubleExtended",
    "CompletedPoint.DoubleProjective", "CompletedPoint.String", "CompletedPoint.SubExtended", "ExtendedPoint",
    "ExtendedPoint.Add", "ExtendedPoint.ConditionalSet", "ExtendedPoint.Double", "ExtendedPoint.Neg",
    "ExtendedPoint.Ristretto", "ExtendedPoint.RistrettoEqualsI", "ExtendedPoint.RistrettoInto",
    "ExtendedPoint.ScalarMult", "ExtendedPoint.Set", "ExtendedPoint.SetBase", "ExtendedPoint.SetCompleted",
    "ExtendedPoint.SetRistretto", "ExtendedPoint.SetTorsion1", "ExtendedPoint.SetTorsion2",
    "ExtendedPoint.SetTorsion3", "ExtendedPoint.SetZero", "ExtendedPoint.String", "ExtendedPoint.Sub",
    "FieldElement", "FieldElement.Add", "FieldElement.BytesInto", "FieldElement.ConditionalSet",
    "FieldElement.DoubledSquare", "FieldElement.EqualsI", "FieldElement.InvSqrt", "FieldElement.IsNegativeI",
    "FieldElement.IsNonZeroI", "FieldElement.IsOneI", "FieldElement.Mul", "FieldElement.Neg", "FieldElement.Set",
    "FieldElement.SetBytes", "FieldElement.SetOne", "FieldElement.SetZero", "FieldElement.Square",
    "FieldElement.String", "FieldElement.Sub", "FieldElement.add", "FieldElement.sub", "JacobiPoint.String",
    "NielsPoint.ConditionalSet", "NielsPoint.Neg", "NielsPoint.Set", "NielsPoint.SetExtended",
    "NielsPoint.SetZero", "ProjectivePoint", "ProjectivePoint.SetCompleted", "ProjectivePoint.SetExtended",
    "ProjectivePoint.SetZero", "ScalarMultTable.ScalarMult", "computeScalarWindow5", "epBase", "equal15", "fe2D",
    "feD", "feI", "feInvSqrtMinusDMinusOne", "feMinusI", "feMinusOne", "feOne", "feZero", "negative"]

/-- edwards25519/elligator.go (elligator.go:1-273 for the names; it has no constraint). -/
def elligator : SourceFile where
  name := "elligator.go"
  goBuild := none
  plusBuild := []
  declares :=
    ["ExtendedPoint.RistrettoElligator2Inverse", "ExtendedPoint.ToJacobiQuarticRistretto", "JacobiPoint.Dual",
    "JacobiPoint.elligator2Inverse", "CompletedPoint.SetJacobiQuartic", "CompletedPoint.SetRistrettoElligator2",
    "JacobiPoint.String", "JacobiPoint"]
  external := []
  mentions :=
    ["CompletedPoint", "CompletedPoint.SetJacobiQuartic", "CompletedPoint.SetRistrettoElligator2",
    "CompletedPoint.String", "ExtendedPoint", "ExtendedPoint.ConditionalSet", "ExtendedPoint.Neg",
    "ExtendedPoint.RistrettoElligator2Inverse", "ExtendedPoint.Set", "ExtendedPoint.String",
    "ExtendedPoint.ToJacobiQuarticRistretto", "FieldElement", "FieldElement.Abs", "FieldElement.ConditionalSet",
    "FieldElement.EqualsI", "FieldElement.InvSqrt", "FieldElement.InvSqrtI", "FieldElement.IsNegativeI",
    "FieldElement.IsNonZeroI", "FieldElement.Mul", "FieldElement.Neg", "FieldElement.Set", "FieldElement.SetOne",
    "FieldElement.Square", "FieldElement.String", "FieldElement.add", "FieldElement.sub", "JacobiPoint",
    "JacobiPoint.Dual", "JacobiPoint.String", "JacobiPoint.elligator2Inverse", "NielsPoint.ConditionalSet",
    "NielsPoint.Neg", "NielsPoint.Set", "equal30", "feD", "feDMinusOneSquared", "feDoubleIInvSqrtMinusDMinusOne",
    "feDoubleInvSqrtMinusDMinusOne", "feDp1OverDm1", "feI", "feInvSqrt1pD", "feMinusOne", "feOne",
    "feOneMinusDSquared", "feSqrtID", "feZero"]

/-- edwards25519/field.go (field.go:1-356 for the names; it has no constraint). -/
def field : SourceFile where
  name := "field.go"
  goBuild := none
  plusBuild := []
  declares :=
    ["FieldElement.SetI", "FieldElement.SetZero", "FieldElement.SetOne", "FieldElement.double", "FieldElement.Add",
    "FieldElement.Sub", "FieldElement.Set", "FieldElement.Bytes", "FieldElement.Inverse", "FieldElement.Abs",
    "FieldElement.IsNegativeI", "FieldElement.IsNonZeroI", "FieldElement.IsOneI", "FieldElement.EqualsI",
    "FieldElement.Equals", "FieldElement.BigInt", "FieldElement.String", "FieldElement.SetBigInt",
    "FieldElement.Exp22523", "FieldElement.InvSqrt", "FieldElement.Sqrt", "FieldElement.InvSqrtI", "equal30",
    "equal15", "negative"]
  external := []
  mentions :=
    ["CompletedPoint.String", "ExtendedPoint.Add", "ExtendedPoint.ConditionalSet", "ExtendedPoint.Neg",
    "ExtendedPoint.Set", "ExtendedPoint.SetZero", "ExtendedPoint.String", "ExtendedPoint.Sub", "FieldElement",
    "FieldElement.Abs", "FieldElement.Add", "FieldElement.BigInt", "FieldElement.Bytes", "FieldElement.BytesInto",
    "FieldElement.ConditionalSet", "FieldElement.Equals", "FieldElement.EqualsI", "FieldElement.Exp22523",
    "FieldElement.InvSqrt", "FieldElement.InvSqrtI", "FieldElement.Inverse", "FieldElement.IsNegativeI",
    "FieldElement.IsNonZeroI", "FieldElement.IsOneI", "FieldElement.Mul", "FieldElement.Neg", "FieldElement.Set",
    "FieldElement.SetBigInt", "FieldElement.SetBytes", "FieldElement.SetI", "FieldElement.SetOne",
    "FieldElement.SetZero", "FieldElement.Sqrt", "FieldElement.Square", "FieldElement.String", "FieldElement.Sub",
    "FieldElement.add", "FieldElement.double", "FieldElement.normalize", "FieldElement.sub", "JacobiPoint.String",
    "NielsPoint.ConditionalSet", "NielsPoint.Neg", "NielsPoint.Set", "NielsPoint.SetZero",
    "ProjectivePoint.SetZero", "equal15", "equal30", "feI", "feOne", "feZero", "negative"]

/-- edwards25519/field_amd64.go (field_amd64.go:1-2 for the constraints, field_amd64.go:4-28 for the names). -/
def fieldAmd64 : SourceFile where
  name := "field_amd64.go"
  goBuild := some "amd64 && !go1.13 && !forcegeneric"
  plusBuild := ["amd64,!go1.13,!forcegeneric"]
  declares :=
    ["FieldElement.Mul", "FieldElement.Square", "FieldElement.DoubledSquare"]
  external := ["feMul", "feSquare"]
  mentions :=
    ["FieldElement", "FieldElement.DoubledSquare", "FieldElement.Mul", "FieldElement.Square", "FieldElement.add",
    "feMul", "feSquare"]

/-- edwards25519/field_amd64.s (field_amd64.s:1 for the constraint, field_amd64.s:6 and field_amd64.s:200 for the symbols). -/
def fieldAmd64S : SourceFile where
  name := "field_amd64.s"
  goBuild := none
  plusBuild := ["amd64 AND !go1.13"]
  declares :=
    ["feMul", "feSquare"]
  external := []
  mentions :=
    []

/-- edwards25519/field_generic.go (field_generic.go:1-2 for the constraints, field_generic.go:4-464 for the names). -/
def fieldGeneric : SourceFile where
  name := "field_generic.go"
  goBuild := some "(!amd64 && !go1.13) || forcegeneric"
  plusBuild := ["!amd64,!go1.13 forcegeneric"]
  declares :=
    ["FieldElement.Neg", "FieldElement.add", "FieldElement.sub", "load3", "load4", "FieldElement.normalize",
    "FieldElement.setReduced", "FieldElement.ConditionalSet", "FieldElement.BytesInto", "FieldElement.SetBytes",
    "FieldElement.Mul", "FieldElement.square", "FieldElement.Square", "FieldElement.DoubledSquare", "FieldElement",
    "feZero", "feOne", "feMinusOne", "feI", "feMinusI", "feD", "fe2D", "feInvSqrtMinusDMinusOne",
    "feDoubleInvSqrtMinusDMinusOne", "feDoubleIInvSqrtMinusDMinusOne", "feDMinusOneSquared", "feOneMinusDSquared",
    "feDp1OverDm1", "feSqrtID", "feInvSqrt1pD", "epZero", "epBase"]
  external := []
  mentions :=
    ["ExtendedPoint", "ExtendedPoint.ConditionalSet", "ExtendedPoint.Neg", "FieldElement",
    "FieldElement.BytesInto", "FieldElement.ConditionalSet", "FieldElement.DoubledSquare", "FieldElement.Mul",
    "FieldElement.Neg", "FieldElement.SetBytes", "FieldElement.Square", "FieldElement.add",
    "FieldElement.normalize", "FieldElement.setReduced", "FieldElement.square", "FieldElement.sub",
    "NielsPoint.ConditionalSet", "NielsPoint.Neg", "epBase", "epZero", "fe2D", "feD", "feDMinusOneSquared",
    "feDoubleIInvSqrtMinusDMinusOne", "feDoubleInvSqrtMinusDMinusOne", "feDp1OverDm1", "feI", "feInvSqrt1pD",
    "feInvSqrtMinusDMinusOne", "feMinusI", "feMinusOne", "feOne", "feOneMinusDSquared", "feSqrtID", "feZero",
    "load3", "load4"]

/-- edwards25519/field_mul64.go (field_mul64.go:1-2 for the constraints, field_mul64.go:4-297 for the names). -/
def fieldMul64 : SourceFile where
  name := "field_mul64.go"
  goBuild := some "go1.13 && !forcegeneric"
  plusBuild := ["go1.13,!forcegeneric"]
  declares :=
    ["FieldElement.Mul", "FieldElement.Square", "FieldElement.DoubledSquare"]
  external := []
  mentions :=
    ["FieldElement", "FieldElement.DoubledSquare", "FieldElement.Mul", "FieldElement.Square"]

/-- edwards25519/field_radix51.go (field_radix51.go:1-2 for the constraints, field_radix51.go:4-279 for the names). -/
def fieldRadix51 : SourceFile where
  name := "field_radix51.go"
  goBuild := some "(amd64 && !forcegeneric) || (go1.13 && !forcegeneric)"
  plusBuild := ["amd64,!forcegeneric go1.13,!forcegeneric"]
  declares :=
    ["FieldElement.Neg", "FieldElement.sub", "FieldElement.add", "FieldElement.normalize",
    "FieldElement.setReduced", "FieldElement.ConditionalSet", "FieldElement.BytesInto", "FieldElement.SetBytes",
    "FieldElement", "feZero", "feOne", "feMinusOne", "feI", "feMinusI", "feD", "fe2D", "feInvSqrtMinusDMinusOne",
    "feDoubleInvSqrtMinusDMinusOne", "feDoubleIInvSqrtMinusDMinusOne", "feDMinusOneSquared", "feOneMinusDSquared",
    "feDp1OverDm1", "feSqrtID", "feInvSqrt1pD", "epZero", "epBase"]
  external := []
  mentions :=
    ["ExtendedPoint", "ExtendedPoint.ConditionalSet", "ExtendedPoint.Neg", "FieldElement",
    "FieldElement.BytesInto", "FieldElement.ConditionalSet", "FieldElement.Neg", "FieldElement.SetBytes",
    "FieldElement.add", "FieldElement.normalize", "FieldElement.setReduced", "FieldElement.sub",
    "NielsPoint.ConditionalSet", "NielsPoint.Neg", "epBase", "epZero", "fe2D", "feD", "feDMinusOneSquared",
    "feDoubleIInvSqrtMinusDMinusOne", "feDoubleInvSqrtMinusDMinusOne", "feDp1OverDm1", "feI", "feInvSqrt1pD",
    "feInvSqrtMinusDMinusOne", "feMinusI", "feMinusOne", "feOne", "feOneMinusDSquared", "feSqrtID", "feZero"]

/-- edwards25519/table.go (table.go:1-217 for the names; it has no constraint). -/
def table : SourceFile where
  name := "table.go"
  goBuild := none
  plusBuild := []
  declares :=
    ["NielsPoint.SetZero", "NielsPoint.Set", "NielsPoint.ConditionalSet", "NielsPoint.Neg",
    "CompletedPoint.AddExtendedNiels", "CompletedPoint.SubExtendedNiels", "NielsPoint.SetExtended",
    "ScalarMultTable.Compute", "computeScalarWindow4", "ScalarMultTable.ScalarMult",
    "ScalarMultTable.VarTimeScalarMult", "ScalarMultTable.selectPoint", "ScalarMultTable.varTimeSelectPoint",
    "NielsPoint", "ScalarMultTable"]
  external := []
  mentions :=
    ["CompletedPoint", "CompletedPoint.AddExtendedNiels", "CompletedPoint.DoubleExtended",
    "CompletedPoint.DoubleProjective", "CompletedPoint.SubExtendedNiels", "ExtendedPoint", "ExtendedPoint.Add",
    "ExtendedPoint.ConditionalSet", "ExtendedPoint.Neg", "ExtendedPoint.ScalarMult", "ExtendedPoint.Set",
    "ExtendedPoint.SetCompleted", "ExtendedPoint.SetZero", "ExtendedPoint.Sub", "ExtendedPoint.VarTimeScalarMult",
    "FieldElement", "FieldElement.Add", "FieldElement.ConditionalSet", "FieldElement.Inverse", "FieldElement.Mul",
    "FieldElement.Neg", "FieldElement.Set", "FieldElement.SetOne", "FieldElement.SetZero", "FieldElement.Sub",
    "FieldElement.add", "FieldElement.sub", "NielsPoint", "NielsPoint.ConditionalSet", "NielsPoint.Neg",
    "NielsPoint.Set", "NielsPoint.SetExtended", "NielsPoint.SetZero", "ProjectivePoint",
    "ProjectivePoint.SetCompleted", "ProjectivePoint.SetExtended", "ProjectivePoint.SetZero", "ScalarMultTable",
    "ScalarMultTable.Compute", "ScalarMultTable.ScalarMult", "ScalarMultTable.VarTimeScalarMult",
    "ScalarMultTable.selectPoint", "ScalarMultTable.varTimeSelectPoint", "computeScalarWindow4", "equal30", "feD",
    "negative"]

/-- edwards25519/table_generic.go (table_generic.go:1-2 for the constraints, table_generic.go:4-1796 for the names). -/
def tableGeneric : SourceFile where
  name := "table_generic.go"
  goBuild := some "(!amd64 && !go1.13) || forcegeneric"
  plusBuild := ["!amd64,!go1.13 forcegeneric"]
  declares :=
    ["BaseScalarMultTable"]
  external := []
  mentions :=
    ["BaseScalarMultTable", "FieldElement", "NielsPoint", "ScalarMultTable"]

/-- edwards25519/table_radix51.go (table_radix51.go:1-2 for the constraints, table_radix51.go:4-1541 for the names). -/
def tableRadix51 : SourceFile where
  name := "table_radix51.go"
  goBuild := some "(amd64 && !forcegeneric) || (go1.13 && !forcegeneric)"
  plusBuild := ["amd64,!forcegeneric go1.13,!forcegeneric"]
  declares :=
    ["BaseScalarMultTable"]
  external := []
  mentions :=
    ["BaseScalarMultTable", "FieldElement", "NielsPoint", "ScalarMultTable"]

/-- edwards25519/vartime.go (vartime.go:1-117 for the names; it has no constraint). -/
def vartime : SourceFile where
  name := "vartime.go"
  goBuild := none
  plusBuild := []
  declares :=
    ["load8u", "computeScalar5NAF", "ExtendedPoint.VarTimeScalarMult"]
  external := []
  mentions :=
    ["CompletedPoint", "CompletedPoint.AddExtended", "CompletedPoint.DoubleProjective",
    "CompletedPoint.SubExtended", "ExtendedPoint", "ExtendedPoint.Add", "ExtendedPoint.Double",
    "ExtendedPoint.Set", "ExtendedPoint.SetCompleted", "ExtendedPoint.SetZero", "ExtendedPoint.VarTimeScalarMult",
    "FieldElement.Add", "FieldElement.Set", "FieldElement.SetZero", "NielsPoint.Set", "NielsPoint.SetZero",
    "ProjectivePoint", "ProjectivePoint.SetCompleted", "ProjectivePoint.SetZero",
    "ScalarMultTable.VarTimeScalarMult", "computeScalar5NAF", "load8u"]

/-- The files of package edwards25519 that are not tests. -/
def files : List SourceFile :=
  [curve, elligator, field, fieldAmd64, fieldAmd64S, fieldGeneric, fieldMul64, fieldRadix51, table, tableGeneric, tableRadix51, vartime]
/-- The files of a build. -/
def build (new : Bool) (sat : String → Bool) : List SourceFile := files.filter (selected new sat)

/-- Whether a file is in assembly. -/
def isAsm (f : SourceFile) : Bool := "s.".toList.isPrefixOf f.name.toList.reverse

/-- What package ristretto uses of package edwards25519, with the line of ristretto.go where it does so first
(ristretto.go:51-413; scalar.go uses nothing of it). -/
def clientUses : List (Nat × String) :=
  [(51, "ExtendedPoint"), (54, "ScalarMultTable"), (121, "FieldElement"), (122, "CompletedPoint"), (176, "BaseScalarMultTable"),
   (58, "ExtendedPoint.SetZero"), (64, "ExtendedPoint.SetBase"), (70, "ExtendedPoint.Set"), (76, "ExtendedPoint.Add"),
   (82, "ExtendedPoint.Double"), (88, "ExtendedPoint.Sub"), (94, "ExtendedPoint.Neg"), (100, "ExtendedPoint.RistrettoInto"),
   (106, "ExtendedPoint.Ristretto"), (112, "ExtendedPoint.SetRistretto"), (123, "FieldElement.SetBytes"),
   (124, "CompletedPoint.SetRistrettoElligator2"), (125, "ExtendedPoint.SetCompleted"), (134, "ScalarMultTable.ScalarMult"),
   (146, "ScalarMultTable.VarTimeScalarMult"), (154, "ExtendedPoint.ScalarMult"), (165, "ExtendedPoint.VarTimeScalarMult"),
   (283, "ExtendedPoint.RistrettoElligator2Inverse"), (287, "FieldElement.BytesInto"), (307, "ExtendedPoint.RistrettoEqualsI"),
   (317, "ExtendedPoint.ConditionalSet"), (413, "ScalarMultTable.Compute")]

end Ristretto.Model.Build
