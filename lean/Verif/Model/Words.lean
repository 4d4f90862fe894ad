import Verif.Model.Machine

/-!
# Programs that also write the words of scalars

`Scalar` is an array type (scalar.go:20): a client may assign to its words, and so hand the methods numbers that are not
reduced modulo `l`.
-/

namespace Ristretto.Model.Words
set_option autoImplicit false

/-- A step of a program: a call, or the assignment `*s = Scalar{w0, ..., w7}`. -/
inductive WCmd where
  | call (c : Cmd)
  | put (s : Nat) (w : Scalar)

section
variable {F : Type} [FieldOps F]

/-- One step. -/
def wexec (e : Env F) (m : Mem F) : WCmd → Option (Mem F × Out)
  | .call c => exec e m c
  | .put s w => some (m.setSc s w, .unit)

/-- A program. -/
def wrun (e : Env F) : Mem F → List WCmd → Option (Mem F × List Out)
  | m, [] => some (m, [])
  | m, c :: cs => do
    let (m', o) ← wexec e m c
    let (m'', os) ← wrun e m' cs
    some (m'', o :: os)

end
end Ristretto.Model.Words
