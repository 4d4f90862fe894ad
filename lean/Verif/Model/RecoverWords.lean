import Verif.Model.Recover

/-!
# Programs that recover from panics and put arbitrary words into scalars

`Scalar` is an array type (scalar.go:20), so clients may assign to its words.  The variable-time multiplications with a table then
have a further reason to panic, the index of the top digit (table.go:207-217), and do so after they have overwritten their
receiver.
-/

namespace Ristretto.Model.Conc
open FieldOps
set_option autoImplicit false

/-- A call, or the assignment `*s = Scalar{w0, ..., w7}` to the array of scalar.go:20. -/
inductive QCmd where
  | call (c : RCmd)
  | put (s : Nat) (w : Scalar)

section
variable {F : Type} [FieldOps F] [Words F]

/-- One call, or assignment (eight stores, scalar.go:20), as a sequence of loads and stores. -/
def qcallP (e : Env F) : QCmd → M F Out
  | .call c => rcallP e c
  | .put s w => do stSc s w; return .unit

/-- Client code: calls one after another, recovering from every panic (those of table.go:207-217 among them): what each returned (`none`: it panicked), and the memory. -/
def qrecoverRun (e : Env F) : List QCmd → Memory (Val F) → List (Option Out) × Memory (Val F)
  | [], m => ([], m)
  | c :: cs, m =>
    let r := (qcallP e c).runKeep m
    let rs := qrecoverRun e cs r.2
    (r.1 :: rs.1, rs.2)

end
end Ristretto.Model.Conc
