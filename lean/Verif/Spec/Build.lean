import Verif.Model.Build

/-!
# What it takes for a set of files to compile and link
-/

namespace Ristretto.Build
open Model.Build
set_option autoImplicit false

/-- The names that Go files of a build declare, with or without a body. -/
def goNames (fs : List SourceFile) : List String :=
  (fs.filter fun f => !isAsm f).flatMap fun f => f.declares ++ f.external

/-- The functions that have a body in a Go file or in an assembly file. -/
def bodies (fs : List SourceFile) : List String := fs.flatMap SourceFile.declares

/-- A set of files fits together: no package-level name is declared twice, whatever a Go file mentions is declared, functions
declared without a body have one in an assembly file, and no symbol has two bodies. -/
structure Complete (fs : List SourceFile) : Prop where
  once : (goNames fs).Nodup
  known : ∀ f ∈ fs, ∀ n ∈ f.mentions, n ∈ goNames fs
  linked : ∀ f ∈ fs, ∀ n ∈ f.external, ∃ g ∈ fs, isAsm g = true ∧ n ∈ g.declares
  oneBody : (bodies fs).Nodup

/-- The Go file of a build that declares a name. -/
def fileOf (fs : List SourceFile) (n : String) : Option String :=
  (fs.find? fun f => !isAsm f && f.declares.contains n).map SourceFile.name

/-- Whether other packages may use a name: its last component begins with a capital letter, and so does the type of a method. -/
def exported (n : String) : Bool :=
  (splitAt '.' n.toList).all fun w => match w with
    | c :: _ => c.isUpper
    | [] => false

/-- The names of a build that other packages may use. -/
def api (fs : List SourceFile) : List String := (goNames fs).filter exported

end Ristretto.Build
