import Verif.Model.Alias
import Verif.Model.Field

/-!
# Powers and roots of field elements, statement by statement

`Inverse`, `Exp22523`, `InvSqrt`, `Sqrt` and `InvSqrtI` on the memory of `Verif.Model.Alias`, for receivers and arguments
that may be the same variable.
-/

namespace Ristretto.Model.Alias
open FieldOps
set_option autoImplicit false

/-- An operand of a statement: a local variable or the argument `a` of the function. -/
inductive Reg where
  | t (k : Nat)
  | a
deriving DecidableEq

/-- The statements of `Inverse` and `Exp22523`. -/
inductive FOp where
  /-- `td.Square(s)` -/
  | sq (d : Nat) (s : Reg)
  /-- `for i = 1; i < n + 1; i++ { td.Square(&td) }` -/
  | sqn (n d : Nat)
  /-- `td.Mul(x, y)` -/
  | mul (d : Nat) (x y : Reg)

/-- The address of an operand; the local variables of the function are numbered from `b`. -/
def Reg.addr (b : Nat) (a : Addr) : Reg → Addr
  | .t k => lf (b + k)
  | .a => a

/-- `n` squarings in place. -/
def sqnI : Nat → Addr → FMem → FMem
  | 0, _, m => m
  | n + 1, d, m => sqnI n d (squareI d d m)

/-- One statement. -/
def FOp.runI (b : Nat) (a : Addr) (m : FMem) : FOp → FMem
  | .sq d s => squareI (lf (b + d)) (s.addr b a) m
  | .sqn n d => sqnI n (lf (b + d)) m
  | .mul d x y => mulI (lf (b + d)) (x.addr b a) (y.addr b a) m

/-- The statements of `Inverse` before the last (field.go:62-107). -/
def inverseOps : List FOp :=
  [.sq 0 .a, .sq 1 (.t 0), .sq 1 (.t 1), .mul 1 .a (.t 1), .mul 0 (.t 0) (.t 1), .sq 2 (.t 0), .mul 1 (.t 1) (.t 2),
   .sq 2 (.t 1), .sqn 4 2, .mul 1 (.t 2) (.t 1), .sq 2 (.t 1), .sqn 9 2, .mul 2 (.t 2) (.t 1), .sq 3 (.t 2), .sqn 19 3,
   .mul 2 (.t 3) (.t 2), .sq 2 (.t 2), .sqn 9 2, .mul 1 (.t 2) (.t 1), .sq 2 (.t 1), .sqn 49 2, .mul 2 (.t 2) (.t 1),
   .sq 3 (.t 2), .sqn 99 3, .mul 2 (.t 3) (.t 2), .sq 2 (.t 2), .sqn 49 2, .mul 1 (.t 2) (.t 1), .sq 1 (.t 1), .sqn 4 1]

/-- `FieldElement.Inverse` (field.go:58-109); the variables t0, ..., t3 are `loc 20`, ..., `loc 23`. -/
def inverseI (fe a : Addr) (m : FMem) : FMem :=
  mulI fe (lf 21) (lf 20) (inverseOps.foldl (FOp.runI 20 a) m)

/-- The statements of `Exp22523` before the last (field.go:211-264). -/
def exp22523Ops : List FOp :=
  [.sq 0 .a, .sqn 0 0, .sq 1 (.t 0), .sqn 1 1, .mul 1 .a (.t 1), .mul 0 (.t 0) (.t 1), .sq 0 (.t 0), .sqn 0 0,
   .mul 0 (.t 1) (.t 0), .sq 1 (.t 0), .sqn 4 1, .mul 0 (.t 1) (.t 0), .sq 1 (.t 0), .sqn 9 1, .mul 1 (.t 1) (.t 0),
   .sq 2 (.t 1), .sqn 19 2, .mul 1 (.t 2) (.t 1), .sq 1 (.t 1), .sqn 9 1, .mul 0 (.t 1) (.t 0), .sq 1 (.t 0), .sqn 49 1,
   .mul 1 (.t 1) (.t 0), .sq 2 (.t 1), .sqn 99 2, .mul 1 (.t 2) (.t 1), .sq 1 (.t 1), .sqn 49 1, .mul 0 (.t 1) (.t 0),
   .sq 0 (.t 0), .sqn 1 0]

/-- `FieldElement.Exp22523` (field.go:207-266); the variables t0, t1, t2 are `loc 30`, `loc 31`, `loc 32`. -/
def exp22523I (fe a : Addr) (m : FMem) : FMem :=
  mulI fe (lf 30) a (exp22523Ops.foldl (FOp.runI 30 a) m)

/-- `FieldElement.InvSqrt` (field.go:269-286); den2, den3, den4, den6, chk, t, t2 are `loc 40`, ..., `loc 46`, and the
constant `feI` is a value. -/
def invSqrtS (fe a : Addr) (m : FMem) : FMem :=
  let m := squareI (lf 40) a m
  let m := mulI (lf 41) (lf 40) a m
  let m := squareI (lf 42) (lf 40) m
  let m := mulI (lf 43) (lf 40) (lf 42) m
  let m := mulI (lf 45) (lf 43) a m
  let m := exp22523I (lf 45) (lf 45) m
  let m := mulI (lf 45) (lf 45) (lf 41) m
  let m := storeI (lf 46) (Fe51.mul (m (lf 45)) feI) m
  let m := squareI (lf 44) (lf 45) m
  let m := mulI (lf 44) (lf 44) a m
  let m := setI fe (lf 45) m
  condSetI fe (lf 46) (1 - isOneI (m (lf 44))) m

/-- `FieldElement.Sqrt` (field.go:289-299); aCopy and feNeg are `loc 50` and `loc 51`. -/
def sqrtS (fe a : Addr) (m : FMem) : FMem :=
  let m := setI (lf 50) a m
  let m := invSqrtS fe a m
  let m := mulI fe fe (lf 50) m
  let m := negI (lf 51) fe m
  condSetI fe (lf 51) (isNegativeI (m fe)) m

/-- `FieldElement.InvSqrtI` (field.go:303-335); den2, den3, den4, den6, chk, t, corr are `loc 60`, ..., `loc 66`. -/
def invSqrtIS (fe a : Addr) (m : FMem) : FMem × Int32 :=
  let m := squareI (lf 60) a m
  let m := mulI (lf 61) (lf 60) a m
  let m := squareI (lf 62) (lf 60) m
  let m := mulI (lf 63) (lf 60) (lf 62) m
  let m := mulI (lf 65) (lf 63) a m
  let m := exp22523I (lf 65) (lf 65) m
  let m := mulI (lf 65) (lf 65) (lf 61) m
  let m := squareI (lf 64) (lf 65) m
  let m := mulI (lf 64) (lf 64) a m
  let inCaseA := isOneI (m (lf 64))
  let inCaseD := feEqualsI (m (lf 64)) feI
  let m := negI (lf 64) (lf 64) m
  let inCaseB := isOneI (m (lf 64))
  let m := storeI (lf 66) feOne m
  let m := storeI (lf 66) (Fe51.condSet (m (lf 66)) feI (inCaseB + inCaseD)) m
  let m := mulI (lf 65) (lf 65) (lf 66) m
  let m := setI fe (lf 65) m
  (m, inCaseA + inCaseB)

end Ristretto.Model.Alias
