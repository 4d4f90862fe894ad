import Verif.Model.CrefLoops

/-!
# Which scalar variables a call of the C reference implementation uses

The arguments of the functions, as declared in cref.h:92-154: a `const group_scalar *` is read, any other `group_scalar *` is written.
-/

set_option autoImplicit false

namespace Ristretto.Spec
open Ristretto.Model Ristretto.Model.Cref

/-- The scalar variables a call reads. -/
def readsSc : KCmd → List Nat
  | .go (.geScalarMult _ _ s) => [s]
  | .go (.scPack s) => [s]
  | .scAdd _ x y => [x, y]
  | .scSub _ x y => [x, y]
  | .scNegate _ x => [x]
  | .scMul _ x y => [x, y]
  | .scSquare _ x => [x]
  | .scInvert _ x => [x]
  | .scIsOne x => [x]
  | .scIsZero x => [x]
  | .scEquals x y => [x, y]
  | .scTstbit x _ => [x]
  | .scBitlen x => [x]
  | .geScalarMultBase _ s => [s]
  | .geMultiScalarMult _ xs => xs.map Prod.snd
  | _ => []

/-- The scalar variable a call sets. -/
def setsSc : KCmd → List Nat
  | .go (.scUnpack s _) => [s]
  | .scSetZero r => [r]
  | .scSetOne r => [r]
  | .scAdd r _ _ => [r]
  | .scSub r _ _ => [r]
  | .scNegate r _ => [r]
  | .scMul r _ _ => [r]
  | .scSquare r _ => [r]
  | .scInvert r _ => [r]
  | .scFrom64 r _ => [r]
  | _ => []

/-- The program reads no scalar variable before it has been set; those in `D` are set at the start. -/
def SetBeforeRead (D : Nat → Prop) : List KCmd → Prop
  | [] => True
  | c :: cs => (∀ n ∈ readsSc c, D n) ∧ SetBeforeRead (fun n => D n ∨ n ∈ setsSc c) cs

/-- The scalar variables that are set after a program. -/
def setAfter (D : Nat → Prop) (cs : List KCmd) : Nat → Prop := fun n => D n ∨ ∃ c ∈ cs, n ∈ setsSc c

/-- The memory with arrays holds the state: every scalar variable is an array of 32 cells, and those in `D` have all cells set, with the
digits of the scalar. -/
structure Rep {F : Type} (D : Nat → Prop) (l : CrefLoops.LMem F) (m : CMem F) : Prop where
  fes : l.fes = m.fes
  pts : l.pts = m.pts
  len : ∀ n, (l.scs (.var n)).length = 32
  scs : ∀ n, D n → l.scs (.var n) = CrefLoops.full (m.scs n).toList

end Ristretto.Spec
