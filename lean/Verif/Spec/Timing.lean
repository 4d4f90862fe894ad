import Verif.Model.Machine

/-!
# What may be revealed by a call

`shape` keeps of a call what is public: the method, the variables, the lengths of slices.  `verdict` keeps of what a call returns
the success or failure of the methods that may fail.  A call of a constant-time method may reveal nothing else.
-/

namespace Ristretto
open Model
set_option autoImplicit false

/-- False for the methods that are not meant for secrets: those documented as `Public`, the text formats, and those that use
`math/big`; and for `Lizard`, which reveals a little more than it returns (`C46_lizard`). -/
def constTime : Cmd → Bool
  | .pPublicScalarMult .. | .pPublicScalarMultBase .. | .pPublicScalarMultTable .. => false
  | .pMarshalText .. | .pUnmarshalText .. | .sMarshalText .. | .sUnmarshalText .. => false
  | .sSetBigInt .. | .sBigInt .. | .pLizard .. => false
  | _ => true

/-- The call with all data replaced by zeros; only lengths of slices are kept. -/
def shape : Cmd → Cmd
  | .pSetBytes p _ => .pSetBytes p (Vector.replicate 32 0)
  | .pSetElligator p _ => .pSetElligator p (Vector.replicate 32 0)
  | .pRand p _ => .pRand p (Vector.replicate 32 0)
  | .pDerive p data => .pDerive p (List.replicate data.length 0)
  | .pDeriveDalek p data => .pDeriveDalek p (List.replicate data.length 0)
  | .pSetLizard p _ => .pSetLizard p (Vector.replicate 16 0)
  | .pLizardInto p _ => .pLizardInto p (Vector.replicate 16 0)
  | .pCondSet p q _ => .pCondSet p q false
  | .pUnmarshalBinary p data => .pUnmarshalBinary p (List.replicate data.length 0)
  | .pUnmarshalText p txt => .pUnmarshalText p (List.replicate txt.length 0)
  | .sCondSet s a _ => .sCondSet s a false
  | .sSetBytes s _ => .sSetBytes s (Vector.replicate 32 0)
  | .sSetBytesStrict s _ => .sSetBytesStrict s (Vector.replicate 32 0)
  | .sSetReduced s _ => .sSetReduced s (Vector.replicate 64 0)
  | .sRand s _ => .sRand s (Vector.replicate 64 0)
  | .sDerive s data => .sDerive s (List.replicate data.length 0)
  | .sDeriveShort s data => .sDeriveShort s (List.replicate data.length 0)
  | .sSetBigInt s _ => .sSetBigInt s 0
  | .sSetUint64 s _ => .sSetUint64 s 0
  | .sUnmarshalBinary s data => .sUnmarshalBinary s (List.replicate data.length 0)
  | .sUnmarshalText s txt => .sUnmarshalText s (List.replicate txt.length 0)
  | c => c

/-- Success or failure of `SetBytesStrict`, `UnmarshalBinary` and `LizardInto`; nothing of other results. -/
def verdict : Cmd → Out → Option Out
  | .sSetBytesStrict .., o | .pUnmarshalBinary .., o => some o
  | .pLizardInto .., .lizardInto err _ => some (.lizardInto err none)
  | _, _ => none

/-- The verdicts of the calls of a program. -/
def verdicts (prog : List Cmd) (outs : List Out) : List (Option Out) := List.zipWith verdict prog outs

/-- All tables have the dimensions of Go's `[32][8]NielsPoint`. -/
def TabShape {F : Type} (t : Table F) : Prop := t.map List.length = List.replicate 32 8

end Ristretto
