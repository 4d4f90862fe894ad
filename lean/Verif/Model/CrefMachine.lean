import Verif.Model.Cref

/-!
# Programs over the API of the package `cref` (cref/cref.go)

A program is a list of method calls on variables of the types `Fe25519`, `GroupGe` and `GroupScalar`.  Distinct
variables are distinct objects; the receiver and the arguments of a call may be the same variable (the C functions
compute the result in local variables, or read each coordinate before writing it: cref.c:2401-2450).

The accessors `GroupGe.X`, `Y`, `Z` and `T` (cref.go:58-72), which return pointers into a point, are in CrefCoords.
-/

namespace Ristretto.Model.Cref
set_option autoImplicit false

/-- A method call (cref.go:18-84).  The first number is the receiver, the others are arguments. -/
inductive CCmd
  | feUnpack (f : Nat) (buf : Bytes 32)
  | fePack (f : Nat)
  | geUnpack (g : Nat) (buf : Bytes 32)
  | gePack (g : Nat)
  | geElligator (g f : Nat)
  | geNeg (g x : Nat)
  | geAdd (g x y : Nat)
  | geDouble (g x : Nat)
  | geScalarMult (g x s : Nat)
  | scUnpack (s : Nat) (buf : Bytes 32)
  | scPack (s : Nat)
deriving DecidableEq

/-- What the caller sees: nothing, the contents of the buffer written, or the returned `int`. -/
inductive COut
  | unit
  | bytes (b : Bytes 32)
  | int (i : Int32)
deriving DecidableEq

/-- The variables.  Programs are written once for any implementation of the field functions; cref.c is the one on
limbs. -/
structure CMem (F : Type := Fe25) where
  fes : Nat → F
  pts : Nat → ExtPt F
  scs : Nat → Sc

/-- Go's zero values. -/
def CMem.init : CMem :=
  let z : Fe25 := ⟨0, 0, 0, 0, 0, 0, 0, 0, 0, 0⟩
  ⟨fun _ => z, fun _ => ⟨z, z, z, z⟩, fun _ => Vector.replicate 32 0⟩

section
variable {F : Type} [O : CrefOps F]

def CMem.setFe (m : CMem F) (f : Nat) (v : F) : CMem F := { m with fes := fun k => if k = f then v else m.fes k }
def CMem.setPt (m : CMem F) (g : Nat) (v : ExtPt F) : CMem F := { m with pts := fun k => if k = g then v else m.pts k }
def CMem.setSc (m : CMem F) (s : Nat) (v : Sc) : CMem F := { m with scs := fun k => if k = s then v else m.scs k }

/-- One call (cref.go:18-84). -/
def cexec (m : CMem F) : CCmd → CMem F × COut
  | .feUnpack f buf => (m.setFe f (O.unpack buf), .unit)
  | .fePack f => (m, .bytes (O.pack (m.fes f)))
  | .geUnpack g buf =>
    let r := geUnpack buf
    (m.setPt g r.1, .int r.2)
  | .gePack g => (m, .bytes (gePack (m.pts g)))
  | .geElligator g f => (m.setPt g (geElligator (m.fes f)), .unit)
  | .geNeg g x => (m.setPt g (geNeg (m.pts x)), .unit)
  | .geAdd g x y => (m.setPt g (geAdd (m.pts x) (m.pts y)), .unit)
  | .geDouble g x => (m.setPt g (geDouble (m.pts x)), .unit)
  | .geScalarMult g x s => (m.setPt g (geScalarMult (m.pts x) (m.scs s)), .unit)
  | .scUnpack s buf => (m.setSc s (scUnpack buf), .unit)
  | .scPack s => (m, .bytes (scPack (m.scs s)))

/-- A program: the final state and what the caller saw. -/
def crun : CMem F → List CCmd → CMem F × List COut
  | m, [] => (m, [])
  | m, c :: cs =>
    let r := cexec m c
    let rs := crun r.1 cs
    (rs.1, r.2 :: rs.2)

end

end Ristretto.Model.Cref
