import Verif.Model.CrefPtr

/-!
# What the functions of cref.h do to the variables of a client

A client has variables: field elements and points.  A cell is a field element variable or a coordinate of a point (`FeRef`).  `effect` is
what a call does when each variable simply has a value: the arguments are read, then the result is written.  Two functions are different
when their receiver is also an argument, because they write it before they have read all arguments: `fe25519_triple` and
`group_ge_multiscalarmult`.
-/

set_option autoImplicit false

namespace Ristretto.Spec.CrefPtr
open Ristretto Ristretto.Model
open Ristretto.Model.Cref (CrefOps CrefTab Sc Coord FeRef COut CMem)
open Ristretto.Model.CrefPtr (QCmd)

/-- The cells of a point. -/
def cells (g : Nat) : List FeRef := [.coord g .X, .coord g .Y, .coord g .Z, .coord g .T]

/-- The cells a call reads, of those that were there before. -/
def reads : QCmd → List FeRef
  | .setSc _ _ => []
  | .feUnpack _ _ => []
  | .fePack x => [x]
  | .feSetOne _ => []
  | .feSetZero _ => []
  | .feNeg _ x => [x]
  | .feAdd _ x y => [x, y]
  | .feSub _ x y => [x, y]
  | .feDouble _ x => [x]
  | .feTriple _ x => [x]
  | .feMul _ x y => [x, y]
  | .feSquare _ x => [x]
  | .feSquareDouble _ x => [x]
  | .feInvert _ x => [x]
  | .fePow2523 _ x => [x]
  | .feInvsqrt _ x => [x]
  | .feSqrt _ x => [x]
  | .feInvsqrti _ x => [x]
  | .feSqrti _ x => [x]
  | .feAbs _ x => [x]
  | .feCmov r x _ => [r, x]
  | .feIsZero x => [x]
  | .feIsOne x => [x]
  | .feIsNegative x => [x]
  | .feIsEq x y => [x, y]
  | .geUnpack _ _ => []
  | .gePack g => cells g
  | .geFromJacobiQuartic _ s t => [s, t]
  | .geElligator _ f => [f]
  | .geNeg _ x => cells x
  | .geAdd _ x y => cells x ++ cells y
  | .geDouble _ x => [.coord x .X, .coord x .Y, .coord x .Z]
  | .geScalarMult _ x _ => cells x
  | .geScalarMultBase _ _ => []
  | .geMultiScalarMult g xs => ((xs.map Prod.fst).filter (· ≠ g)).flatMap cells
  | .geEquals x y => [.coord x .X, .coord x .Y, .coord y .X, .coord y .Y]
  | .geIsNeutral x => [.coord x .X, .coord x .Y, .coord x .Z]

/-- The cells a call writes. -/
def writes : QCmd → List FeRef
  | .setSc _ _ => []
  | .feUnpack r _ => [r]
  | .fePack _ => []
  | .feSetOne r => [r]
  | .feSetZero r => [r]
  | .feNeg r _ => [r]
  | .feAdd r _ _ => [r]
  | .feSub r _ _ => [r]
  | .feDouble r _ => [r]
  | .feTriple r _ => [r]
  | .feMul r _ _ => [r]
  | .feSquare r _ => [r]
  | .feSquareDouble r _ => [r]
  | .feInvert r _ => [r]
  | .fePow2523 r _ => [r]
  | .feInvsqrt r _ => [r]
  | .feSqrt r _ => [r]
  | .feInvsqrti r _ => [r]
  | .feSqrti r _ => [r]
  | .feAbs r _ => [r]
  | .feCmov r _ _ => [r]
  | .feIsZero _ => []
  | .feIsOne _ => []
  | .feIsNegative _ => []
  | .feIsEq _ _ => []
  | .geUnpack g _ => cells g
  | .gePack _ => []
  | .geFromJacobiQuartic g _ _ => cells g
  | .geElligator g _ => cells g
  | .geNeg g _ => cells g
  | .geAdd g _ _ => cells g
  | .geDouble g _ => cells g
  | .geScalarMult g _ _ => cells g
  | .geScalarMultBase g _ => cells g
  | .geMultiScalarMult g _ => cells g
  | .geEquals _ _ => []
  | .geIsNeutral _ => []

/-- Every call reads only cells that are in `D` or have been written before. -/
def SetBeforeRead : (FeRef → Prop) → List QCmd → Prop
  | _, [] => True
  | D, c :: cs => (∀ a ∈ reads c, D a) ∧ SetBeforeRead (fun a => D a ∨ a ∈ writes c) cs

/-- The cells that are set after a program. -/
def setAfter : (FeRef → Prop) → List QCmd → FeRef → Prop
  | D, [] => D
  | D, c :: cs => setAfter (fun a => D a ∨ a ∈ writes c) cs

section
variable {F : Type} [O : CrefOps F] [T : CrefTab F]

/-- What a call does to the values of the variables, and what it returns. -/
def effect (m : CMem F) : QCmd → CMem F × COut
  | .setSc s v => (m.setSc s v, .unit)
  | .feUnpack r buf => (m.write (O.unpack buf) r, .unit)
  | .fePack x => (m, .bytes (O.pack (m.read x)))
  | .feSetOne r => (m.write O.one r, .unit)
  | .feSetZero r => (m.write O.zero r, .unit)
  | .feNeg r x => (m.write (O.neg (m.read x)) r, .unit)
  | .feAdd r x y => (m.write (O.add (m.read x) (m.read y)) r, .unit)
  | .feSub r x y => (m.write (O.sub (m.read x) (m.read y)) r, .unit)
  | .feDouble r x => (m.write (Cref.fdouble (m.read x)) r, .unit)
  | .feTriple r x =>
    let m := m.write (O.add (m.read x) (m.read x)) r
    (m.write (O.add (m.read r) (m.read x)) r, .unit)
  | .feMul r x y => (m.write (O.mul (m.read x) (m.read y)) r, .unit)
  | .feSquare r x => (m.write (O.square (m.read x)) r, .unit)
  | .feSquareDouble r x => (m.write (O.squareDouble (m.read x)) r, .unit)
  | .feInvert r x => (m.write (Cref.invert (m.read x)) r, .unit)
  | .fePow2523 r x => (m.write (Cref.pow2523 (m.read x)) r, .unit)
  | .feInvsqrt r x => (m.write (Cref.invsqrt (m.read x)) r, .unit)
  | .feSqrt r x => (m.write (Cref.fsqrt (m.read x)) r, .unit)
  | .feInvsqrti r x => (m.write (Cref.invsqrti (m.read x)).1 r, .int (Cref.invsqrti (m.read x)).2)
  | .feSqrti r x => (m.write (Cref.fsqrti (m.read x)).1 r, .int (Cref.fsqrti (m.read x)).2)
  | .feAbs r x => (m.write (Cref.fabs (m.read x)) r, .unit)
  | .feCmov r x b => (m.write (O.cmov (m.read r) (m.read x) b) r, .unit)
  | .feIsZero x => (m, .int (Cref.iszero (m.read x)))
  | .feIsOne x => (m, .int (Cref.isone (m.read x)))
  | .feIsNegative x => (m, .int (Cref.isnegative (m.read x)))
  | .feIsEq x y => (m, .int (Cref.iseq (m.read x) (m.read y)))
  | .geUnpack g buf => (m.setPt g (Cref.geUnpack buf).1, .int (Cref.geUnpack (F := F) buf).2)
  | .gePack g => (m, .bytes (Cref.gePack (m.pts g)))
  | .geFromJacobiQuartic g s t => (m.setPt g (Cref.fromJacobiQuartic (m.read s) (m.read t)), .unit)
  | .geElligator g f => (m.setPt g (Cref.geElligator (m.read f)), .unit)
  | .geNeg g x => (m.setPt g (Cref.geNeg (m.pts x)), .unit)
  | .geAdd g x y => (m.setPt g (Cref.geAdd (m.pts x) (m.pts y)), .unit)
  | .geDouble g x => (m.setPt g (Cref.geDouble (m.pts x)), .unit)
  | .geScalarMult g x s => (m.setPt g (Cref.geScalarMult (m.pts x) (m.scs s)), .unit)
  | .geScalarMultBase g s => (m.setPt g (Cref.scalarMultBaseWith T.tab (m.scs s)), .unit)
  | .geMultiScalarMult g xs =>
    (xs.foldl (fun m xs => m.setPt g (Cref.geAdd (m.pts g) (Cref.geScalarMult (m.pts xs.1) (m.scs xs.2)))) (m.setPt g Cref.neutral), .unit)
  | .geEquals x y => (m, .int (Cref.geEquals (m.pts x) (m.pts y)))
  | .geIsNeutral x => (m, .int (Cref.geIsNeutral (m.pts x)))

/-- The effect of a program. -/
def effects : CMem F → List QCmd → CMem F × List COut
  | m, [] => (m, [])
  | m, c :: cs =>
    let r := effect m c
    let rs := effects r.1 cs
    (rs.1, r.2 :: rs.2)

end

/-- The call with the variables of Model/CrefApi.lean as pointers, for the functions on field elements and points. -/
def ofK : Cref.KCmd → Option QCmd
  | .go (.feUnpack f buf) => some (.feUnpack (.var f) buf)
  | .go (.fePack f) => some (.fePack (.var f))
  | .go (.geUnpack g buf) => some (.geUnpack g buf)
  | .go (.gePack g) => some (.gePack g)
  | .go (.geElligator g f) => some (.geElligator g (.var f))
  | .go (.geNeg g x) => some (.geNeg g x)
  | .go (.geAdd g x y) => some (.geAdd g x y)
  | .go (.geDouble g x) => some (.geDouble g x)
  | .go (.geScalarMult g x s) => some (.geScalarMult g x s)
  | .feSetOne r => some (.feSetOne (.var r))
  | .feSetZero r => some (.feSetZero (.var r))
  | .feNeg r x => some (.feNeg (.var r) (.var x))
  | .feAdd r x y => some (.feAdd (.var r) (.var x) (.var y))
  | .feSub r x y => some (.feSub (.var r) (.var x) (.var y))
  | .feDouble r x => some (.feDouble (.var r) (.var x))
  | .feTriple r x => some (.feTriple (.var r) (.var x))
  | .feMul r x y => some (.feMul (.var r) (.var x) (.var y))
  | .feSquare r x => some (.feSquare (.var r) (.var x))
  | .feSquareDouble r x => some (.feSquareDouble (.var r) (.var x))
  | .feInvert r x => some (.feInvert (.var r) (.var x))
  | .fePow2523 r x => some (.fePow2523 (.var r) (.var x))
  | .feAbs r x => some (.feAbs (.var r) (.var x))
  | .feCmov r x b => some (.feCmov (.var r) (.var x) (if b then 1 else 0))
  | .feIsZero x => some (.feIsZero (.var x))
  | .feIsOne x => some (.feIsOne (.var x))
  | .feIsNegative x => some (.feIsNegative (.var x))
  | .feIsEq x y => some (.feIsEq (.var x) (.var y))
  | .geScalarMultBase r s => some (.geScalarMultBase r s)
  | .geMultiScalarMult r xs => some (.geMultiScalarMult r xs)
  | .geEquals x y => some (.geEquals x y)
  | .geIsNeutral x => some (.geIsNeutral x)
  | _ => none

end Ristretto.Spec.CrefPtr
