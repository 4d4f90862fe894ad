import Verif.Model.CrefMachine

/-!
# The accessors of `GroupGe` (cref.go:58-72)

`X`, `Y`, `Z` and `T` return pointers to the coordinates.  The two methods of such a pointer are `Pack`, which reads the
coordinate, and `Unpack`, which overwrites it in place.  A pointer may also be passed to `Elligator`, even when it points
into the receiver.  Keeping a pointer is the same as calling the accessor again: the coordinates of a variable do not
move.
-/

namespace Ristretto.Model.Cref
set_option autoImplicit false

/-- Which accessor. -/
inductive Coord
  | X | Y | Z | T
deriving DecidableEq

/-- The coordinate an accessor points to (cref.go:58-72). -/
def Coord.get {F : Type} (q : ExtPt F) : Coord → F
  | .X => q.X
  | .Y => q.Y
  | .Z => q.Z
  | .T => q.T

/-- Assignment through the pointer (cref.go:58-72). -/
def Coord.set {F : Type} (q : ExtPt F) (v : F) : Coord → ExtPt F
  | .X => { q with X := v }
  | .Y => { q with Y := v }
  | .Z => { q with Z := v }
  | .T => { q with T := v }

/-- `g.X().Pack(buf)`, and so on (cref.go:22-24, 58-72): the contents of `buf`. -/
def coordPack (q : ExtPt Fe25) (c : Coord) : Bytes 32 := pack (c.get q)

/-- `g.X().Unpack(buf)`, and so on (cref.go:18-20, 58-72): the point `g` afterwards. -/
def coordUnpack (q : ExtPt Fe25) (c : Coord) (buf : Bytes 32) : ExtPt Fe25 := c.set q (unpack buf)

/-- A sequence of such calls on one variable. -/
def coordUnpacks (q : ExtPt Fe25) (cs : List (Coord × Bytes 32)) : ExtPt Fe25 :=
  cs.foldl (fun q c => coordUnpack q c.1 c.2) q

/-! ## Programs with accessors -/

/-- What a `*Fe25519` of a client points to: a variable, or a coordinate of a point (cref.go:58-72). -/
inductive FeRef
  | var (f : Nat)
  | coord (g : Nat) (c : Coord)
deriving DecidableEq

section
variable {F : Type} [O : CrefOps F]

/-- The field element under a pointer. -/
def CMem.read (m : CMem F) : FeRef → F
  | .var f => m.fes f
  | .coord g c => c.get (m.pts g)

/-- Overwrite the field element under a pointer. -/
def CMem.write (m : CMem F) (v : F) : FeRef → CMem F
  | .var f => m.setFe f v
  | .coord g c => m.setPt g (c.set (m.pts g) v)

/-- A method call; the methods that involve a `*Fe25519` are called on any pointer (cref.go:18-40). -/
inductive PtrCmd
  | call (c : CCmd)
  | unpackAt (r : FeRef) (buf : Bytes 32)
  | packAt (r : FeRef)
  | elligatorAt (g : Nat) (r : FeRef)
deriving DecidableEq

/-- One call.  `group_ge_elligator` does not write to the receiver before it has read its argument for the last time
(cref.c:2596-2650), so that the argument may be a coordinate of the receiver. -/
def ptrExec (m : CMem F) : PtrCmd → CMem F × COut
  | .call c => cexec m c
  | .unpackAt r buf => (m.write (O.unpack buf) r, .unit)
  | .packAt r => (m, .bytes (O.pack (m.read r)))
  | .elligatorAt g r => (m.setPt g (geElligator (m.read r)), .unit)

/-- A program: the final state and what the caller saw. -/
def ptrRun : CMem F → List PtrCmd → CMem F × List COut
  | m, [] => (m, [])
  | m, c :: cs =>
    let r := ptrExec m c
    let rs := ptrRun r.1 cs
    (rs.1, r.2 :: rs.2)

end

end Ristretto.Model.Cref
