import Verif.Proofs.AliasMachine
import Verif.Proofs.AliasField
import Verif.Props.Machine

/-!
# C14: arguments may alias the receiver

The theorems of the other files speak about functions on values.  Go passes pointers, and the
receiver may be the same variable as an argument, so a store to the receiver can change an argument
that has not been read yet.  `execI` and `runI` (Model/Alias.lean) execute the methods on a memory of
limbs and words, with loads and stores in the order of the source and local variables with any
contents.  `Base.var n` is the `n`-th variable of the client.
-/

namespace Ristretto.Props
open Model Proofs Model.Alias Proofs.Alias
set_option autoImplicit false

/-- The contents of the point variable `p` after the call `c` (`none`: panic). -/
def pointAfter (e : Env Fe51) (m : PMem) (c : Cmd) (p : Nat) : Option (ExtPt Fe51) :=
  (execI e m c).map fun r => pt r.1.fe (.var p)

/-- The contents of the scalar variable `s` after the call `c`. -/
def scalarAfter (e : Env Fe51) (m : PMem) (c : Cmd) (s : Nat) : Option Scalar :=
  (execI e m c).map fun r => r.1.sc (.var s)

theorem pointAfter_eq (e : Env Fe51) (m : PMem) (c : Cmd) (p : Nat) :
    pointAfter e m c p = (exec e m.view c).map fun r => r.1.pts p := by
  rw [← execI_view, Option.map_map]; rfl

theorem scalarAfter_eq (e : Env Fe51) (m : PMem) (c : Cmd) (s : Nat) :
    scalarAfter e m c s = (exec e m.view c).map fun r => r.1.scs s := by
  rw [← execI_view, Option.map_map]; rfl

/-- **C14**, points: the result of a method depends only on the contents of its arguments, not on
which of the variables coincide.  (Take `p' q' r'` distinct for the comparison with the call without
aliasing.) -/
theorem C14_points (e : Env Fe51) (m m' : PMem) (p q r s p' q' r' s' : Nat) (b : Bool)
    (hp : pt m.fe (.var p) = pt m'.fe (.var p')) (hq : pt m.fe (.var q) = pt m'.fe (.var q'))
    (hr : pt m.fe (.var r) = pt m'.fe (.var r')) (hs : m.sc (.var s) = m'.sc (.var s')) :
    pointAfter e m (.pSet p q) p = pointAfter e m' (.pSet p' q') p' ∧
    pointAfter e m (.pNeg p q) p = pointAfter e m' (.pNeg p' q') p' ∧
    pointAfter e m (.pDouble p q) p = pointAfter e m' (.pDouble p' q') p' ∧
    pointAfter e m (.pAdd p q r) p = pointAfter e m' (.pAdd p' q' r') p' ∧
    pointAfter e m (.pSub p q r) p = pointAfter e m' (.pSub p' q' r') p' ∧
    pointAfter e m (.pCondSet p q b) p = pointAfter e m' (.pCondSet p' q' b) p' ∧
    pointAfter e m (.pScalarMult p q s) p = pointAfter e m' (.pScalarMult p' q' s') p' ∧
    pointAfter e m (.pPublicScalarMult p q s) p = pointAfter e m' (.pPublicScalarMult p' q' s') p' := by
  have hp' : m.view.pts p = m'.view.pts p' := hp
  have hq' : m.view.pts q = m'.view.pts q' := hq
  have hr' : m.view.pts r = m'.view.pts r' := hr
  have hs' : m.view.scs s = m'.view.scs s' := hs
  simp only [pointAfter_eq, exec, Option.map_some, Mem.setPt, if_true, hp', hq', hr', hs', true_and]
  cases Point.publicScalarMult (m'.view.pts q') (m'.view.scs s') <;> simp

/-- **C14**, scalars. -/
theorem C14_scalars (e : Env Fe51) (m m' : PMem) (s a b c s' a' b' c' : Nat) (f : Bool)
    (hs : m.sc (.var s) = m'.sc (.var s')) (ha : m.sc (.var a) = m'.sc (.var a'))
    (hb : m.sc (.var b) = m'.sc (.var b')) (hc : m.sc (.var c) = m'.sc (.var c')) :
    scalarAfter e m (.sSet s a) s = scalarAfter e m' (.sSet s' a') s' ∧
    scalarAfter e m (.sAdd s a b) s = scalarAfter e m' (.sAdd s' a' b') s' ∧
    scalarAfter e m (.sSub s a b) s = scalarAfter e m' (.sSub s' a' b') s' ∧
    scalarAfter e m (.sNeg s a) s = scalarAfter e m' (.sNeg s' a') s' ∧
    scalarAfter e m (.sMul s a b) s = scalarAfter e m' (.sMul s' a' b') s' ∧
    scalarAfter e m (.sSquare s a) s = scalarAfter e m' (.sSquare s' a') s' ∧
    scalarAfter e m (.sMulAdd s a b c) s = scalarAfter e m' (.sMulAdd s' a' b' c') s' ∧
    scalarAfter e m (.sMulSub s a b c) s = scalarAfter e m' (.sMulSub s' a' b' c') s' ∧
    scalarAfter e m (.sInverse s a) s = scalarAfter e m' (.sInverse s' a') s' ∧
    scalarAfter e m (.sCondSet s a f) s = scalarAfter e m' (.sCondSet s' a' f) s' := by
  have hs' : m.view.scs s = m'.view.scs s' := hs
  have ha' : m.view.scs a = m'.view.scs a' := ha
  have hb' : m.view.scs b = m'.view.scs b' := hb
  have hc' : m.view.scs c = m'.view.scs c' := hc
  simp only [scalarAfter_eq, exec, Option.map_some, Mem.setSc, if_true, hs', ha', hb', hc', and_true]

/-- **C14**, field elements: `add`, `sub`, `Neg`, `Add`, `Sub`, `Mul`, `Square`, `DoubledSquare`,
`setReduced`, `ConditionalSet` on the limbs in memory. -/
theorem C14_field (m m' : FMem) (x a b x' a' b' : Addr) (f : Int32)
    (hx : m x = m' x') (ha : m a = m' a') (hb : m b = m' b') :
    addI x a b m x = addI x' a' b' m' x' ∧
    subI x a b m x = subI x' a' b' m' x' ∧
    negI x a m x = negI x' a' m' x' ∧
    feAddI x a b m x = feAddI x' a' b' m' x' ∧
    feSubI x a b m x = feSubI x' a' b' m' x' ∧
    mulI x a b m x = mulI x' a' b' m' x' ∧
    squareI x a m x = squareI x' a' m' x' ∧
    doubledSquareI x a m x = doubledSquareI x' a' m' x' ∧
    setReducedI x a m x = setReducedI x' a' m' x' ∧
    condSetI x a f m x = condSetI x' a' f m' x' := by
  simp only [addI_eq, subI_eq, negI_eq, feAddI_eq, feSubI_eq, mulI_eq, squareI_eq, doubledSquareI_eq,
    setReducedI_eq, condSetI_eq, assign_apply, if_true, hx, ha, hb, and_true]

/-- A field element of the client: a variable, or a coordinate of a point variable. -/
def clientFe (n fld : Nat) : Addr := ⟨.var n, fld⟩

theorem clientFe_free (n fld : Nat) : FreeF (clientFe n fld) := by
  intro k _ _ h
  exact Base.noConfusion (congrArg Addr.base h)

/-- **C14**, powers and roots of field elements: `Inverse`, `Exp22523`, `InvSqrt`, `Sqrt` and `InvSqrtI`, statement by
statement on the limbs in memory, give a result that depends only on the contents of the argument, also when receiver and
argument are the same variable, and change no other variable of the client. -/
theorem C14_roots (m m' : FMem) (n i k j n' i' k' j' : Nat)
    (ha : m (clientFe k j) = m' (clientFe k' j')) :
    let x := clientFe n i
    let a := clientFe k j
    let x' := clientFe n' i'
    let a' := clientFe k' j'
    (inverseI x a m x = inverseI x' a' m' x' ∧
     exp22523I x a m x = exp22523I x' a' m' x' ∧
     invSqrtS x a m x = invSqrtS x' a' m' x' ∧
     sqrtS x a m x = sqrtS x' a' m' x' ∧
     (invSqrtIS x a m).1 x = (invSqrtIS x' a' m').1 x' ∧
     (invSqrtIS x a m).2 = (invSqrtIS x' a' m').2) ∧
    ∀ n₂ i₂, clientFe n₂ i₂ ≠ x →
      inverseI x a m (clientFe n₂ i₂) = m (clientFe n₂ i₂) ∧
      exp22523I x a m (clientFe n₂ i₂) = m (clientFe n₂ i₂) ∧
      invSqrtS x a m (clientFe n₂ i₂) = m (clientFe n₂ i₂) ∧
      sqrtS x a m (clientFe n₂ i₂) = m (clientFe n₂ i₂) ∧
      (invSqrtIS x a m).1 (clientFe n₂ i₂) = m (clientFe n₂ i₂) := by
  have fr := clientFe_free
  have h50 : ∀ {y}, FreeF y → ∀ n, 20 ≤ n → n < 50 → y ≠ lf n := fun h n h1 h2 => h n h1 (by omega)
  simp only
  refine ⟨?_, fun n₂ i₂ hne => ?_⟩
  · rw [inverseI_eq _ _ _ (fr k j).above20 _ (fr n i).above20, inverseI_eq _ _ _ (fr k' j').above20 _ (fr n' i').above20,
      exp22523I_eq _ _ _ (fr k j).above30 _ (fr n i).above30, exp22523I_eq _ _ _ (fr k' j').above30 _ (fr n' i').above30,
      invSqrtS_eq _ _ _ (fr n i) (fr k j) _ (h50 (fr n i)), invSqrtS_eq _ _ _ (fr n' i') (fr k' j') _ (h50 (fr n' i')),
      sqrtS_eq _ _ _ (fr n i) (fr k j) _ (fr n i), sqrtS_eq _ _ _ (fr n' i') (fr k' j') _ (fr n' i'),
      (invSqrtIS_eq _ _ _ (fr n i) (fr k j)).1 _ (fr n i), (invSqrtIS_eq _ _ _ (fr n' i') (fr k' j')).1 _ (fr n' i'),
      (invSqrtIS_eq _ _ _ (fr n i) (fr k j)).2, (invSqrtIS_eq _ _ _ (fr n' i') (fr k' j')).2]
    simp only [assign_apply, if_true, ha, and_self]
  · rw [inverseI_eq _ _ _ (fr k j).above20 _ (fr n₂ i₂).above20,
      exp22523I_eq _ _ _ (fr k j).above30 _ (fr n₂ i₂).above30,
      invSqrtS_eq _ _ _ (fr n i) (fr k j) _ (h50 (fr n₂ i₂)),
      sqrtS_eq _ _ _ (fr n i) (fr k j) _ (fr n₂ i₂),
      (invSqrtIS_eq _ _ _ (fr n i) (fr k j)).1 _ (fr n₂ i₂)]
    simp only [assign_apply, if_neg hne, and_self]

/-- **C14**: these statements compute the functions about which C19 speaks. -/
theorem C14_roots_values (m : FMem) (n i k j : Nat) :
    let x := clientFe n i
    let a := clientFe k j
    inverseI x a m x = feInverse (m a) ∧ exp22523I x a m x = exp22523 (m a) ∧
    invSqrtS x a m x = invSqrt (m a) ∧ sqrtS x a m x = feSqrt (m a) ∧
    (invSqrtIS x a m).1 x = (invSqrtI (m a)).1 ∧ (invSqrtIS x a m).2 = (invSqrtI (m a)).2 := by
  have fr := clientFe_free
  simp only
  rw [inverseI_eq _ _ _ (fr k j).above20 _ (fr n i).above20,
    exp22523I_eq _ _ _ (fr k j).above30 _ (fr n i).above30,
    invSqrtS_eq _ _ _ (fr n i) (fr k j) _ (fun l h1 h2 => fr n i l h1 (by omega)),
    sqrtS_eq _ _ _ (fr n i) (fr k j) _ (fr n i),
    (invSqrtIS_eq _ _ _ (fr n i) (fr k j)).1 _ (fr n i), (invSqrtIS_eq _ _ _ (fr n i) (fr k j)).2]
  simp only [assign_apply, if_true, and_self]

/-- Not vacuous: in place (`fe.Sqrt(fe)`) against two variables, other memories. -/
example (v : Fe51) : sqrtS (clientFe 0 0) (clientFe 0 0) (fun _ => v) (clientFe 0 0) =
    sqrtS (clientFe 1 0) (clientFe 2 0) (fun y => if y = clientFe 2 0 then v else FieldOps.feOne) (clientFe 1 0) :=
  (C14_roots (fun _ => v) _ 0 0 0 0 1 0 2 0 (by simp)).1.2.2.2.1

/-- **C14**, `Abs`, statement by statement: the receiver, which may be the argument, gets the absolute value of the argument,
and no other variable of the client changes. -/
theorem C14_abs (m : FMem) (n i k j : Nat) :
    absI (clientFe n i) (clientFe k j) m (clientFe n i) = feAbs (m (clientFe k j)) ∧
    ∀ n' i', clientFe n' i' ≠ clientFe n i → absI (clientFe n i) (clientFe k j) m (clientFe n' i') = m (clientFe n' i') := by
  have fr : ∀ n i, clientFe n i ≠ lf 0 := fun n i h => Base.noConfusion (congrArg Addr.base h)
  refine ⟨?_, fun n' i' h => ?_⟩
  · rw [absI_eq _ _ _ (fr n i) (fr k j) _ (fr n i), assign_apply, if_pos rfl]
  · rw [absI_eq _ _ _ (fr n i) (fr k j) _ (fr n' i'), assign_apply, if_neg h]

/-- In place. -/
example (v : Fe51) : absI (clientFe 0 0) (clientFe 0 0) (fun _ => v) (clientFe 0 0) = feAbs v := (C14_abs (fun _ => v) 0 0 0 0).1

/-- The receiver of a call, if it is a point, scalar or table variable that the call may change. -/
def Cmd.receivers : Cmd → List (Nat ⊕ Nat ⊕ Nat)
  | .pZero p | .pBase p | .pSet p _ | .pAdd p _ _ | .pDouble p _ | .pSub p _ _ | .pNeg p _
  | .pSetBytes p _ | .pSetElligator p _ | .pRand p _ | .pDerive p _ | .pDeriveDalek p _
  | .pSetLizard p _ | .pCondSet p _ _ | .pUnmarshalBinary p _ | .pUnmarshalText p _
  | .pScalarMult p _ _ | .pPublicScalarMult p _ _ | .pScalarMultBase p _
  | .pPublicScalarMultBase p _ | .pScalarMultTable p _ _ | .pPublicScalarMultTable p _ _ => [.inl p]
  | .tCompute t _ => [.inr (.inr t)]
  | .sZero s | .sOne s | .sSet s _ | .sAdd s _ _ | .sSub s _ _ | .sNeg s _ | .sMul s _ _
  | .sSquare s _ | .sMulAdd s _ _ _ | .sMulSub s _ _ _ | .sInverse s _ | .sCondSet s _ _
  | .sSetBytes s _ | .sSetBytesStrict s _ | .sSetReduced s _ | .sRand s _ | .sDerive s _
  | .sDeriveShort s _ | .sSetBigInt s _ | .sSetUint64 s _ | .sUnmarshalBinary s _
  | .sUnmarshalText s _ => [.inr (.inl s)]
  | .pBytes _ | .pLizard _ | .pLizardInto _ _ | .pEqualsI _ _ | .pEquals _ _ | .pMarshalText _
  | .sBytes _ | .sMarshalText _ | .sBigInt _ | .sIsNonZeroI _ | .sEqualsI _ _ | .sEquals _ _ => []

/-- **C14**: no call changes a variable other than its receiver; calls that only read change
nothing. -/
theorem C14_frame (e : Env Fe51) (m m' : PMem) (c : Cmd) (o : Out) (h : execI e m c = some (m', o)) :
    (∀ p, .inl p ∉ Cmd.receivers c → pt m'.fe (.var p) = pt m.fe (.var p)) ∧
    (∀ s, .inr (.inl s) ∉ Cmd.receivers c → m'.sc (.var s) = m.sc (.var s)) ∧
    (∀ t, .inr (.inr t) ∉ Cmd.receivers c → m'.tabs t = m.tabs t) := by
  have hv : exec e m.view c = some (m'.view, o) := by rw [← execI_view, h]; rfl
  have key : (∀ p, .inl p ∉ Cmd.receivers c → m'.view.pts p = m.view.pts p) ∧
      (∀ s, .inr (.inl s) ∉ Cmd.receivers c → m'.view.scs s = m.view.scs s) ∧
      (∀ t, .inr (.inr t) ∉ Cmd.receivers c → m'.view.tabs t = m.view.tabs t) := by
    generalize m'.view = v' at hv
    generalize m.view = v at hv
    cases c <;> simp only [exec, Option.some.injEq, Prod.mk.injEq, Option.bind_eq_bind,
      Option.bind_eq_some_iff] at hv <;>
    first
    | (obtain ⟨rfl, -⟩ := hv
       simp +contextual [Cmd.receivers, Mem.setPt, Mem.setSc, Mem.setTab]
       done)
    | (obtain ⟨rfl, -⟩ := hv
       refine ⟨fun k _ => ?_, fun _ _ => rfl, fun _ _ => rfl⟩
       simp only [Mem.setPt]
       split
       · rename_i e; rw [e]; rfl
       · rfl)
    | (obtain ⟨r, -, rfl, -⟩ := hv
       simp +contextual [Cmd.receivers, Mem.setPt, Mem.setSc, Mem.setTab])
  exact key

/-- **C14** for whole programs, with C42: the outputs of every program, whatever variables coincide
in its calls, are those of the abstract machine on group elements and `ℤ/l`, and the memory denotes
the abstract state again. -/
theorem C14_refinement (sha512 : List UInt8 → Bytes 64) (prog : List Cmd) (m : PMem) (a : AState)
    (h : Denotes m.view a) :
    (runI (goEnv sha512) m prog).map Prod.snd = (arun Sha256.sha256 sha512 a prog).map Prod.snd ∧
    ∀ m' outs, runI (goEnv sha512) m prog = some (m', outs) →
      ∃ a', arun Sha256.sha256 sha512 a prog = some (a', outs) ∧ Denotes m'.view a' := by
  have hv := runI_view (goEnv sha512) prog m
  obtain ⟨h1, h2⟩ := C42_simulation sha512 prog m.view a h
  constructor
  · rw [← h1, ← hv, Option.map_map]; rfl
  · intro m' outs hm
    exact h2 _ _ (by rw [← hv, hm]; rfl)

/-- A memory of Go's zero values; the limbs of the local variables are arbitrary. -/
def PMem.init (loc : FMem) (sloc : SMem) : PMem :=
  (⟨loc, sloc, fun _ => []⟩ : PMem).store Mem.init

theorem PMem.init_denotes (loc : FMem) (sloc : SMem) :
    Denotes (PMem.init loc sloc).view AState.init := by
  unfold PMem.init
  rw [store_view]; exact Props.init_denotes

/-- `p.Add(p, p)`, `p.Sub(p, q)`, `p.ScalarMult(p, s)`, `s.Add(s, s)`, `s.Inverse(s)` in place. -/
example (sha512 : List UInt8 → Bytes 64) (loc : FMem) (sloc : SMem) :
    (runI (goEnv sha512) (PMem.init loc sloc)
      [.pBase 0, .pBase 1, .pAdd 0 0 0, .pSub 0 0 1, .pEquals 0 1, .sOne 0, .sAdd 0 0 0,
        .pScalarMult 0 0 0, .pDouble 1 1, .pEquals 0 1, .sInverse 0 0, .sInverse 0 0, .sBigInt 0]).map
      Prod.snd =
    some [.unit, .unit, .unit, .unit, .bool true, .unit, .unit, .unit, .unit, .bool true, .unit, .unit,
      .int 2] := by
  rw [(C14_refinement sha512 _ _ _ (PMem.init_denotes loc sloc)).1]
  have h2 : ((1 + 1 : ZMod l).cast : ℤ) = 2 := by decide +kernel
  have h3 : (1 + 1 : ZMod l).val = 2 := by decide +kernel
  simp [arun, aexec, AState.setPt, AState.setSc, addO, subO, dblO, smulO, eqO, h2, h3]

end Ristretto.Props
