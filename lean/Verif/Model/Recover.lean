import Verif.Model.Conc

/-!
# Programs that recover from panics

A client may call a method under `defer recover()`.  What it finds in its variables after a panic is what the stores
before the panic have left there.  The programs of `Verif.Model.Conc`, sequences of loads and stores, tell: here the memory
at a panic is kept.  The failure of the generator, `Rand`'s reason to panic, is also a call here.
-/

namespace Ristretto.Model.Conc
open FieldOps
set_option autoImplicit false

/-- A program run alone: its result (`none`: it panicked) and the memory it leaves in either case. -/
def Prog.runKeep {L : Type} {V : L → Type} {α : Type} [DecidableEq L] : Prog V α → Memory V → Option α × Memory V
  | .ret a, m => (some a, m)
  | .fail, m => (none, m)
  | .ld l k, m => (k (m l)).runKeep m
  | .st l v k, m => k.runKeep (Function.update m l v)

/-- A call. -/
inductive RCmd where
  | call (c : Cmd)
  /-- `Point.Rand` when `rand.Read` returns an error (ristretto.go:189-195) -/
  | pRandFails (p : Nat)
  /-- `Scalar.Rand` when `rand.Read` returns an error (scalar.go:703-709) -/
  | sRandFails (s : Nat)

section
variable {F : Type} [FieldOps F] [Words F]

/-- One call as a sequence of loads and stores.  `Rand` panics before it touches its receiver (ristretto.go:191-193,
scalar.go:705-707). -/
def rcallP (e : Env F) : RCmd → M F Out
  | .call c => callP e c
  | .pRandFails _ => .fail
  | .sRandFails _ => .fail

/-- Calls one after another, recovering from every panic: what each returned (`none`: it panicked), and the memory. -/
def recoverRun (e : Env F) : List RCmd → Memory (Val F) → List (Option Out) × Memory (Val F)
  | [], m => ([], m)
  | c :: cs, m =>
    let r := (rcallP e c).runKeep m
    let rs := recoverRun e cs r.2
    (r.1 :: rs.1, rs.2)

end
end Ristretto.Model.Conc
