import Verif.Model.Conc

/-!
# Which variables a call uses, and what a data race is
-/

namespace Ristretto.Spec.Conc
open Model Model.Conc
set_option autoImplicit false

/-- A variable of the client: a `Point`, a `Scalar` or a `ScalarMultTable`. -/
inductive Var where
  | pt (n : Nat)
  | sc (n : Nat)
  | tab (n : Nat)
deriving DecidableEq

/-- The variables that occur in a call: the receiver and the arguments. -/
def uses : Cmd → List Var
  | .pZero p | .pBase p | .pBytes p | .pSetBytes p _ | .pSetElligator p _ | .pRand p _ | .pDerive p _
  | .pDeriveDalek p _ | .pSetLizard p _ | .pLizard p | .pLizardInto p _ | .pUnmarshalBinary p _
  | .pMarshalText p | .pUnmarshalText p _ => [.pt p]
  | .pSet p q | .pDouble p q | .pNeg p q | .pEqualsI p q | .pEquals p q | .pCondSet p q _ => [.pt p, .pt q]
  | .pAdd p q r | .pSub p q r => [.pt p, .pt q, .pt r]
  | .pScalarMult p q s | .pPublicScalarMult p q s => [.pt p, .pt q, .sc s]
  | .pScalarMultBase p s | .pPublicScalarMultBase p s => [.pt p, .sc s]
  | .pScalarMultTable p t s | .pPublicScalarMultTable p t s => [.pt p, .tab t, .sc s]
  | .tCompute t p => [.tab t, .pt p]
  | .sZero s | .sOne s | .sSetBytes s _ | .sSetBytesStrict s _ | .sSetReduced s _ | .sRand s _
  | .sDerive s _ | .sDeriveShort s _ | .sSetBigInt s _ | .sSetUint64 s _ | .sUnmarshalBinary s _
  | .sUnmarshalText s _ | .sBytes s | .sMarshalText s | .sBigInt s | .sIsNonZeroI s => [.sc s]
  | .sSet s a | .sNeg s a | .sSquare s a | .sInverse s a | .sCondSet s a _ | .sEqualsI s a
  | .sEquals s a => [.sc s, .sc a]
  | .sAdd s a b | .sSub s a b | .sMul s a b => [.sc s, .sc a, .sc b]
  | .sMulAdd s a b c | .sMulSub s a b c => [.sc s, .sc a, .sc b, .sc c]

/-- The variables a call is documented to set: its receiver, unless it only inspects it. -/
def sets : Cmd → List Var
  | .pBytes _ | .pLizard _ | .pLizardInto _ _ | .pEqualsI _ _ | .pEquals _ _ | .pMarshalText _
  | .sBytes _ | .sMarshalText _ | .sBigInt _ | .sIsNonZeroI _ | .sEqualsI _ _ | .sEquals _ _ => []
  | .pZero p | .pBase p | .pSet p _ | .pAdd p _ _ | .pDouble p _ | .pSub p _ _ | .pNeg p _
  | .pSetBytes p _ | .pSetElligator p _ | .pRand p _ | .pDerive p _ | .pDeriveDalek p _
  | .pSetLizard p _ | .pCondSet p _ _ | .pUnmarshalBinary p _ | .pUnmarshalText p _
  | .pScalarMult p _ _ | .pPublicScalarMult p _ _ | .pScalarMultBase p _
  | .pPublicScalarMultBase p _ | .pScalarMultTable p _ _ | .pPublicScalarMultTable p _ _ => [.pt p]
  | .tCompute t _ => [.tab t]
  | .sZero s | .sOne s | .sSet s _ | .sAdd s _ _ | .sSub s _ _ | .sNeg s _ | .sMul s _ _
  | .sSquare s _ | .sMulAdd s _ _ _ | .sMulSub s _ _ _ | .sInverse s _ | .sCondSet s _ _
  | .sSetBytes s _ | .sSetBytesStrict s _ | .sSetReduced s _ | .sRand s _ | .sDerive s _
  | .sDeriveShort s _ | .sSetBigInt s _ | .sSetUint64 s _ | .sUnmarshalBinary s _
  | .sUnmarshalText s _ => [.sc s]

/-- In the generic build `Lizard` and `LizardInto` also write to their receiver. -/
def setsGeneric : Cmd → List Var
  | .pLizard p | .pLizardInto p _ => [.pt p]
  | c => sets c

/-- The rule of the Go memory model for goroutines that do not synchronise: what one of them sets, no
other one uses. -/
def Separate {ι : Type} (sets : Cmd → List Var) (progs : ι → List Cmd) : Prop :=
  ∀ i j, i ≠ j → ∀ c ∈ progs i, ∀ x ∈ sets c, ∀ d ∈ progs j, x ∉ uses d

/-- The two memories agree on a variable. -/
def Same {F : Type} (v w : Mem F) : Var → Prop
  | .pt p => v.pts p = w.pts p
  | .sc s => v.scs s = w.scs s
  | .tab t => v.tabs t = w.tabs t

section
variable {L : Type} {V : L → Type} {α ι : Type}

/-- The program is about to store to `l`. -/
inductive Stores (l : L) : Prog V α → Prop
  | st (v : V l) (k : Prog V α) : Stores l (.st l v k)

/-- The program is about to load or store `l`. -/
inductive Accesses (l : L) : Prog V α → Prop
  | ld (k : V l → Prog V α) : Accesses l (.ld l k)
  | st (v : V l) (k : Prog V α) : Accesses l (.st l v k)

/-- Two goroutines are about to access the same word, and one of the accesses is a store. -/
def Race (c : Conf ι V α) : Prop := ∃ i j l, i ≠ j ∧ Stores l (c.threads i) ∧ Accesses l (c.threads j)

/-- All goroutines have returned. -/
def Finished (c : Conf ι V α) : Prop := ∀ i, ∃ a, c.threads i = .ret a
end

end Ristretto.Spec.Conc
