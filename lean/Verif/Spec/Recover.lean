import Verif.Spec.Machine
import Verif.Model.Recover

/-!
# Programs that recover from panics, on group elements and residues

A call that panics does nothing.
-/

namespace Ristretto
open Model Model.Conc
set_option autoImplicit false

/-- One call: `none` is a panic. -/
noncomputable def arcall (sha256 : List UInt8 → Bytes 32) (sha512 : List UInt8 → Bytes 64) (a : AState) :
    RCmd → Option (AState × Out)
  | .call c => aexec sha256 sha512 a c
  | .pRandFails _ => none
  | .sRandFails _ => none

/-- Calls one after another. -/
noncomputable def arecover (sha256 : List UInt8 → Bytes 32) (sha512 : List UInt8 → Bytes 64) :
    AState → List RCmd → List (Option Out) × AState
  | a, [] => ([], a)
  | a, c :: cs =>
    match arcall sha256 sha512 a c with
    | none => let r := arecover sha256 sha512 a cs; (none :: r.1, r.2)
    | some (a', o) => let r := arecover sha256 sha512 a' cs; (some o :: r.1, r.2)

end Ristretto
