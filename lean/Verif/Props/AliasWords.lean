import Verif.Props.Conc
import Verif.Props.Alias
import Verif.Proofs.AliasGeneric

/-!
# C14 in the other builds

`callP` and `goP` (Model/Conc.lean) are the methods as sequences of loads and stores of single words, for each of the field
backends.  The variables of a call may coincide in any way.
-/

namespace Ristretto.Props
open Model Model.Conc Spec.Conc Proofs.Conc
set_option autoImplicit false

section
variable {F : Type} [FieldOps F] [Words F] [LawfulWords F]

/-- The contents of the point variable `p` after the loads and stores of the call `c` (`none`: panic). -/
def pointAfterWords (e : Env F) (m : Memory (Val F)) (c : Cmd) (p : Nat) : Option (ExtPt F) :=
  ((callP e c).run m).map fun r => (view r.2).pts p

/-- The contents of the scalar variable `s`. -/
def scalarAfterWords (e : Env F) (m : Memory (Val F)) (c : Cmd) (s : Nat) : Option Scalar :=
  ((callP e c).run m).map fun r => (view r.2).scs s

theorem callP_run (e : Env F) (m : Memory (Val F)) (c : Cmd) :
    ((callP e c).run m).map (fun r => (view r.2, r.1)) = exec e (view m) c := spec_call e (view m) c m rfl

theorem pointAfterWords_eq (e : Env F) (m : Memory (Val F)) (c : Cmd) (p : Nat) :
    pointAfterWords e m c p = (exec e (view m) c).map fun r => r.1.pts p := by
  rw [← callP_run, Option.map_map]; rfl

theorem scalarAfterWords_eq (e : Env F) (m : Memory (Val F)) (c : Cmd) (s : Nat) :
    scalarAfterWords e m c s = (exec e (view m) c).map fun r => r.1.scs s := by
  rw [← callP_run, Option.map_map]; rfl

/-- **C14**, points, in every build (`F` is the backend): what a method leaves in its receiver depends only on the contents of its
arguments, not on which variables coincide. -/
theorem C14_points_words (e : Env F) (m m' : Memory (Val F)) (p q r s p' q' r' s' : Nat) (b : Bool)
    (hp : (view m).pts p = (view m').pts p') (hq : (view m).pts q = (view m').pts q')
    (hr : (view m).pts r = (view m').pts r') (hs : (view m).scs s = (view m').scs s') :
    pointAfterWords e m (.pSet p q) p = pointAfterWords e m' (.pSet p' q') p' ∧
    pointAfterWords e m (.pNeg p q) p = pointAfterWords e m' (.pNeg p' q') p' ∧
    pointAfterWords e m (.pDouble p q) p = pointAfterWords e m' (.pDouble p' q') p' ∧
    pointAfterWords e m (.pAdd p q r) p = pointAfterWords e m' (.pAdd p' q' r') p' ∧
    pointAfterWords e m (.pSub p q r) p = pointAfterWords e m' (.pSub p' q' r') p' ∧
    pointAfterWords e m (.pCondSet p q b) p = pointAfterWords e m' (.pCondSet p' q' b) p' ∧
    pointAfterWords e m (.pScalarMult p q s) p = pointAfterWords e m' (.pScalarMult p' q' s') p' ∧
    pointAfterWords e m (.pPublicScalarMult p q s) p = pointAfterWords e m' (.pPublicScalarMult p' q' s') p' := by
  simp only [pointAfterWords_eq, exec, Option.map_some, Mem.setPt, if_true, hp, hq, hr, hs, true_and]
  cases Point.publicScalarMult ((view m').pts q') ((view m').scs s') <;> simp

/-- **C14**, scalars, in every build. -/
theorem C14_scalars_words (e : Env F) (m m' : Memory (Val F)) (s a b c s' a' b' c' : Nat) (f : Bool)
    (hs : (view m).scs s = (view m').scs s') (ha : (view m).scs a = (view m').scs a')
    (hb : (view m).scs b = (view m').scs b') (hc : (view m).scs c = (view m').scs c') :
    scalarAfterWords e m (.sSet s a) s = scalarAfterWords e m' (.sSet s' a') s' ∧
    scalarAfterWords e m (.sAdd s a b) s = scalarAfterWords e m' (.sAdd s' a' b') s' ∧
    scalarAfterWords e m (.sSub s a b) s = scalarAfterWords e m' (.sSub s' a' b') s' ∧
    scalarAfterWords e m (.sNeg s a) s = scalarAfterWords e m' (.sNeg s' a') s' ∧
    scalarAfterWords e m (.sMul s a b) s = scalarAfterWords e m' (.sMul s' a' b') s' ∧
    scalarAfterWords e m (.sSquare s a) s = scalarAfterWords e m' (.sSquare s' a') s' ∧
    scalarAfterWords e m (.sMulAdd s a b c) s = scalarAfterWords e m' (.sMulAdd s' a' b' c') s' ∧
    scalarAfterWords e m (.sMulSub s a b c) s = scalarAfterWords e m' (.sMulSub s' a' b' c') s' ∧
    scalarAfterWords e m (.sInverse s a) s = scalarAfterWords e m' (.sInverse s' a') s' ∧
    scalarAfterWords e m (.sCondSet s a f) s = scalarAfterWords e m' (.sCondSet s' a' f) s' := by
  simp only [scalarAfterWords_eq, exec, Option.map_some, Mem.setSc, if_true, hs, ha, hb, hc, and_true]

/-- **C14** for whole programs in every build: the loads and stores of any program, whatever variables coincide in its calls, leave in
memory and return what the functions on values give. -/
theorem C14_programs_words (e : Env F) (prog : List Cmd) (m : Memory (Val F)) :
    ((goP e prog).run m).map (fun r => (view r.2, r.1)) = run e (view m) prog := spec_go e prog (view m) m rfl

end

/-- `p.Add(p, p)` in the generic build against `p.Add(q, r)` with three variables of the same contents. -/
example (sha512 : List UInt8 → Bytes 64) (m m' : Memory (Val Fe25)) (h : ∀ k, (view m').pts k = (view m).pts 0)
    (hs : (view m').scs 0 = (view m).scs 0) :
    pointAfterWords (genericEnv sha512) m (.pAdd 0 0 0) 0 = pointAfterWords (genericEnv sha512) m' (.pAdd 1 2 3) 1 :=
  (C14_points_words (genericEnv sha512) m m' 0 0 0 0 1 2 3 0 true (h 1).symm (h 2).symm (h 3).symm hs.symm).2.2.2.1

section
open Model.Alias25 Proofs.Alias25

/-- **C14**, field elements of the generic build, statement by statement on the limbs in memory: the result depends only on the contents of
the arguments, and no other element changes. -/
theorem C14_field_generic (m m' : Mem25) (x a b x' a' b' : Nat) (f : Int32) (hx : m x = m' x') (ha : m a = m' a') (hb : m b = m' b') :
    (addI25 x a b m x = addI25 x' a' b' m' x' ∧
     subI25 x a b m x = subI25 x' a' b' m' x' ∧
     negI25 x a m x = negI25 x' a' m' x' ∧
     feAddI25 x a b m x = feAddI25 x' a' b' m' x' ∧
     feSubI25 x a b m x = feSubI25 x' a' b' m' x' ∧
     mulI25 x a b m x = mulI25 x' a' b' m' x' ∧
     squareI25 x a m x = squareI25 x' a' m' x' ∧
     doubledSquareI25 x a m x = doubledSquareI25 x' a' m' x' ∧
     normalizeI25 x m x = normalizeI25 x' m' x' ∧
     condSetI25 x a f m x = condSetI25 x' a' f m' x') ∧
    ∀ y, y ≠ x →
      addI25 x a b m y = m y ∧ subI25 x a b m y = m y ∧ negI25 x a m y = m y ∧ feAddI25 x a b m y = m y ∧ feSubI25 x a b m y = m y ∧
      mulI25 x a b m y = m y ∧ squareI25 x a m y = m y ∧ doubledSquareI25 x a m y = m y ∧ normalizeI25 x m y = m y ∧
      condSetI25 x a f m y = m y := by
  simp only [addI25_eq, subI25_eq, negI25_eq, feAddI25_eq, feSubI25_eq, mulI25_eq, squareI25_eq, doubledSquareI25_eq, normalizeI25_eq,
    condSetI25_eq, assign25, if_true, hx, ha, hb, and_true, true_and]
  intro y hy
  simp only [hy, if_false, and_self]

/-- **C14**: these statements compute the functions about which C49 speaks. -/
theorem C14_field_generic_values (m : Mem25) (x a b : Nat) (f : Int32) :
    addI25 x a b m x = Fe25.add (m a) (m b) ∧ subI25 x a b m x = Fe25.sub (m a) (m b) ∧ negI25 x a m x = Fe25.neg (m a) ∧
    feAddI25 x a b m x = feAdd (m a) (m b) ∧ feSubI25 x a b m x = feSub (m a) (m b) ∧
    mulI25 x a b m x = Fe25.mul (m a) (m b) ∧ squareI25 x a m x = Fe25.square (m a) ∧
    doubledSquareI25 x a m x = Fe25.doubledSquare (m a) ∧ normalizeI25 x m x = Fe25.normalize (m x) ∧
    condSetI25 x a f m x = Fe25.condSet (m x) (m a) f := by
  simp only [addI25_eq, subI25_eq, negI25_eq, feAddI25_eq, feSubI25_eq, mulI25_eq, squareI25_eq, doubledSquareI25_eq, normalizeI25_eq,
    condSetI25_eq, assign25, if_true, true_and, and_true]
  exact ⟨rfl, rfl⟩

/-- `x.add(x, x)` in place against three elements. -/
example (v : Fe25) : addI25 0 0 0 (fun _ => v) 0 = addI25 0 1 2 (fun y => if y = 0 then v else if y = 1 then v else v) 0 :=
  ((C14_field_generic (fun _ => v) _ 0 0 0 0 1 2 0 (by simp) (by simp) (by simp)).1).1

end

end Ristretto.Props
