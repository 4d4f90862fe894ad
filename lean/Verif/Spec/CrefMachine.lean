import Verif.Spec.Machine
import Verif.Model.CrefMachine

/-!
# The abstract machine of the package `cref`

A `Fe25519` is an element of GF(2^255-19), a `GroupGe` an element of the Ristretto group (`none`: never set, or the
receiver of a failed `Unpack`), a `GroupScalar` an element of `ℤ/l`.
-/

namespace Ristretto
set_option autoImplicit false
open Model Model.Cref

/-- The contents of the variables. -/
structure CState where
  fes : ℕ → Fp
  pts : ℕ → Option RGroup
  scs : ℕ → ZMod l

/-- Nothing set. -/
def CState.init : CState := ⟨fun _ => 0, fun _ => none, fun _ => 0⟩

def CState.setFe (a : CState) (f : ℕ) (v : Fp) : CState := { a with fes := fun k => if k = f then v else a.fes k }
def CState.setPt (a : CState) (g : ℕ) (v : Option RGroup) : CState :=
  { a with pts := fun k => if k = g then v else a.pts k }
def CState.setSc (a : CState) (s : ℕ) (v : ZMod l) : CState := { a with scs := fun k => if k = s then v else a.scs k }

/-- The canonical 32 bytes of a field element. -/
def feBytes (x : Fp) : Bytes 32 := littleEndian x.val

/-- The group element `Unpack` takes 32 bytes for: those bytes are first read as a field element, ignoring the top bit
and reducing modulo 2^255-19. -/
noncomputable def crefDecode (buf : Bytes 32) : Option RGroup := decode (feBytes (feOfBytes buf))

/-- One call. -/
noncomputable def caexec (a : CState) : CCmd → CState × COut
  | .feUnpack f buf => (a.setFe f (feOfBytes buf), .unit)
  | .fePack f => (a, .bytes (feBytes (a.fes f)))
  | .geUnpack g buf => (a.setPt g (crefDecode buf), .int (if (crefDecode buf).isSome then 0 else -1))
  | .gePack g => (a, .bytes (encO (a.pts g)))
  | .geElligator g f => (a.setPt g (some (ellMap (a.fes f))), .unit)
  | .geNeg g x => (a.setPt g (negO (a.pts x)), .unit)
  | .geAdd g x y => (a.setPt g (addO (a.pts x) (a.pts y)), .unit)
  | .geDouble g x => (a.setPt g (dblO (a.pts x)), .unit)
  | .geScalarMult g x s => (a.setPt g (smulO (a.scs s) (a.pts x)), .unit)
  | .scUnpack s buf => (a.setSc s ((leVal buf % 2 ^ 253 : ℕ) : ZMod l), .unit)
  | .scPack s => (a, .bytes (scBytes (a.scs s)))

/-- A program. -/
noncomputable def carun : CState → List CCmd → CState × List COut
  | a, [] => (a, [])
  | a, c :: cs =>
    let r := caexec a c
    let rs := carun r.1 cs
    (rs.1, r.2 :: rs.2)

/-! ## The same program in both packages -/

/-- The program over the Go package with the same effect.  `Fe25519` variables only carry a buffer from
`Fe25519.Unpack` to `GroupGe.Elligator`; `fe` is the buffer last unpacked into each. -/
def toGo : (ℕ → Bytes 32) → List CCmd → List Cmd
  | _, [] => []
  | fe, .feUnpack f buf :: cs => toGo (fun k => if k = f then buf else fe k) cs
  | fe, .fePack _ :: cs => toGo fe cs
  | fe, .geUnpack g buf :: cs => .pSetBytes g buf :: toGo fe cs
  | fe, .gePack g :: cs => .pBytes g :: toGo fe cs
  | fe, .geElligator g f :: cs => .pSetElligator g (fe f) :: toGo fe cs
  | fe, .geNeg g x :: cs => .pNeg g x :: toGo fe cs
  | fe, .geAdd g x y :: cs => .pAdd g x y :: toGo fe cs
  | fe, .geDouble g x :: cs => .pDouble g x :: toGo fe cs
  | fe, .geScalarMult g x s :: cs => .pScalarMult g x s :: toGo fe cs
  | fe, .scUnpack s buf :: cs => .sSetBytes s buf :: toGo fe cs
  | fe, .scPack s :: cs => .sBytes s :: toGo fe cs

/-- What the caller of the Go package should see: `Unpack` returns 0 for success, `SetBytes` returns `true`; calls on
`Fe25519` have no counterpart. -/
def seen : List CCmd → List COut → List Out
  | .feUnpack _ _ :: cs, _ :: os => seen cs os
  | .fePack _ :: cs, _ :: os => seen cs os
  | _ :: cs, .unit :: os => .unit :: seen cs os
  | _ :: cs, .bytes b :: os => .bytes b.toList :: seen cs os
  | _ :: cs, .int i :: os => .bool (i = 0) :: seen cs os
  | _, _ => []

end Ristretto
