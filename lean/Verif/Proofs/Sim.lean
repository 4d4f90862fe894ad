import Mathlib.Tactic.NormNum
import Verif.Model.Machine

/-!
# Comparing two field backends

`SimField F G` says that the backend `F` computes what the backend `G` computes as long as limbs stay within
bounds: `R n a x` relates an element `a` of `F`, with limbs within `n` units, to an element `x` of `G`, and `S b y` says in
addition that `b` may be the second factor of a product.  Under these laws every function of the package takes related
arguments to related results.
-/

namespace Ristretto.Proofs.Sim
open Model FieldOps
set_option autoImplicit false

/-- A flag. -/
def Flag (c : Int32) : Prop := c = 0 ∨ c = 1

/-- Two flags that agree. -/
def F2 (c c' : Int32) : Prop := c = c' ∧ Flag c'

theorem Flag.not {c : Int32} (h : Flag c) : Flag (1 - c) := by
  rcases h with rfl | rfl <;> (unfold Flag; decide)
theorem Flag.or {c e : Int32} (h : Flag c) (h' : Flag e) : Flag (c ||| e) := by
  rcases h with rfl | rfl <;> rcases h' with rfl | rfl <;> (unfold Flag; decide)
theorem Flag.and {c e : Int32} (h : Flag c) (h' : Flag e) : Flag (c &&& e) := by
  rcases h with rfl | rfl <;> rcases h' with rfl | rfl <;> (unfold Flag; decide)

theorem F2.not {c c' : Int32} (h : F2 c c') : F2 (1 - c) (1 - c') := ⟨by rw [h.1], h.2.not⟩
theorem F2.or {c c' e e' : Int32} (h : F2 c c') (h' : F2 e e') : F2 (c ||| e) (c' ||| e') :=
  ⟨by rw [h.1, h'.1], h.2.or h'.2⟩
theorem F2.and {c c' e e' : Int32} (h : F2 c c') (h' : F2 e e') : F2 (c &&& e) (c' &&& e') :=
  ⟨by rw [h.1, h'.1], h.2.and h'.2⟩
theorem F2.refl {c : Int32} (h : Flag c) : F2 c c := ⟨rfl, h⟩

/-- `F` computes what `G` computes, within bounds. -/
class SimField (F G : Type) [FieldOps F] [FieldOps G] where
  R : ℕ → F → G → Prop
  S : F → G → Prop
  mono : ∀ {m n : ℕ} {a : F} {x : G}, R m a x → m ≤ n → R n a x
  toS : ∀ {a : F} {x : G}, R 3 a x → S a x
  add : ∀ {m n : ℕ} {a b : F} {x y : G}, R m a x → R n b y → m + n ≤ 10 → R (m + n) (add a b) (add x y)
  sub : ∀ {m n : ℕ} {a b : F} {x y : G}, R m a x → R n b y → m + n ≤ 10 → R (m + n) (sub a b) (sub x y)
  neg : ∀ {m : ℕ} {a : F} {x : G}, R m a x → m ≤ 10 → R m (neg a) (neg x)
  mulS : ∀ {a b : F} {x y : G}, R 4 a x → S b y → R 1 (mul a b) (mul x y)
  sq : ∀ {a : F} {x : G}, R 4 a x → R 1 (square a) (square x)
  dsq : ∀ {a : F} {x : G}, R 3 a x → R 1 (doubledSquare a) (doubledSquare x)
  norm : ∀ {m : ℕ} {a : F} {x : G}, R m a x → R 1 (FieldOps.normalize a) (FieldOps.normalize x)
  bytes : ∀ {a : F} {x : G}, R 3 a x → bytes a = bytes x
  touch : ∀ {a : F} {x : G}, R 2 a x → R 2 (touch a) (touch x)
  isNeg : ∀ {a : F} {x : G}, R 3 a x → F2 (isNegativeI a) (isNegativeI x)
  isNonZero : ∀ {a : F} {x : G}, R 3 a x → F2 (isNonZeroI a) (isNonZeroI x)
  cond0 : ∀ {n : ℕ} {a b : F} {x y : G}, R n a x → R n b y → R n (condSet a b 0) (condSet x y 0)
  cond1 : ∀ {n : ℕ} {a b : F} {x y : G}, R n a x → R n b y → R n (condSet a b 1) (condSet x y 1)
  /-- a conditional move copies one of its arguments -/
  cond0_eq : ∀ (a b : F) (x y : G), condSet a b 0 = a ∧ condSet x y 0 = x
  cond1_eq : ∀ (a b : F) (x y : G), condSet a b 1 = b ∧ condSet x y 1 = y
  /-- the sums of the coordinates of a negated point -/
  negS : ∀ {a b : F} {x y : G}, R 2 a x → R 2 b y → S (FieldOps.add a b) (FieldOps.add x y) →
    S (FieldOps.add b a) (FieldOps.add y x) → S (FieldOps.sub b a) (FieldOps.sub y x) →
    S (FieldOps.add (FieldOps.neg a) b) (FieldOps.add (FieldOps.neg x) y) ∧
    S (FieldOps.add b (FieldOps.neg a)) (FieldOps.add y (FieldOps.neg x)) ∧
    S (FieldOps.sub b (FieldOps.neg a)) (FieldOps.sub y (FieldOps.neg x))
  setBytes : ∀ b : Bytes 32, R 1 (setBytes b) (setBytes b)
  rZero : R 1 feZero feZero
  rOne : R 1 feOne feOne
  rMinusOne : R 1 feMinusOne feMinusOne
  rI : R 1 feI feI
  rD : R 1 feD feD
  r2D : R 1 fe2D fe2D
  rInvSqrtMinusDMinusOne : R 1 feInvSqrtMinusDMinusOne feInvSqrtMinusDMinusOne
  rDoubleInvSqrtMinusDMinusOne : R 1 feDoubleInvSqrtMinusDMinusOne feDoubleInvSqrtMinusDMinusOne
  rDoubleIInvSqrtMinusDMinusOne : R 1 feDoubleIInvSqrtMinusDMinusOne feDoubleIInvSqrtMinusDMinusOne
  rDMinusOneSquared : R 1 feDMinusOneSquared feDMinusOneSquared
  rOneMinusDSquared : R 1 feOneMinusDSquared feOneMinusDSquared
  rDp1OverDm1 : R 1 feDp1OverDm1 feDp1OverDm1
  rSqrtID : R 1 feSqrtID feSqrtID
  rInvSqrt1pD : R 1 feInvSqrt1pD feInvSqrt1pD
  rBaseX : R 2 epBaseX epBaseX
  rBaseY : R 2 epBaseY epBaseY
  rBaseT : R 2 epBaseT epBaseT
  baseS : S (FieldOps.add epBaseX epBaseY) (FieldOps.add epBaseX epBaseY) ∧
    S (FieldOps.add epBaseY epBaseX) (FieldOps.add epBaseY epBaseX) ∧
    S (FieldOps.sub epBaseY epBaseX) (FieldOps.sub epBaseY epBaseX)
  /-- `-y` is not one when `y` is `i` or one -/
  notBoth : ∀ y : G, Flag (isOneI (FieldOps.neg y) + feEqualsI y feI) ∧ Flag (isOneI y + isOneI (FieldOps.neg y))

section
variable {F G : Type} [FieldOps F] [FieldOps G] [L : SimField F G]

/-- See `SimField`. -/
def R (n : ℕ) (a : F) (x : G) : Prop := L.R n a x
/-- See `SimField`. -/
def S (a : F) (x : G) : Prop := L.S a x

variable {m n : ℕ} {a b : F} {x y : G}

namespace R
theorem mono (h : R m a x) (hmn : m ≤ n := by norm_num) : R n a x := L.mono h hmn
theorem add (h : R m a x) (h' : R n b y) (hmn : m + n ≤ 10 := by norm_num) :
    R (m + n) (FieldOps.add a b) (FieldOps.add x y) := L.add h h' hmn
theorem sub (h : R m a x) (h' : R n b y) (hmn : m + n ≤ 10 := by norm_num) :
    R (m + n) (FieldOps.sub a b) (FieldOps.sub x y) := L.sub h h' hmn
theorem neg (h : R m a x) (hm : m ≤ 10 := by norm_num) : R m (FieldOps.neg a) (FieldOps.neg x) := L.neg h hm
theorem toS (h : R m a x) (hm : m ≤ 3 := by norm_num) : S a x := L.toS (h.mono hm)
theorem mulS (h : R m a x) (h' : S b y) (hm : m ≤ 4 := by norm_num) :
    R 1 (FieldOps.mul a b) (FieldOps.mul x y) := L.mulS (h.mono hm) h'
theorem mul (h : R m a x) (h' : R n b y) (hm : m ≤ 4 := by norm_num) (hn : n ≤ 3 := by norm_num) :
    R 1 (FieldOps.mul a b) (FieldOps.mul x y) := h.mulS (h'.toS hn) hm
theorem sq (h : R m a x) (hm : m ≤ 4 := by norm_num) : R 1 (FieldOps.square a) (FieldOps.square x) :=
  L.sq (h.mono hm)
theorem dsq (h : R m a x) (hm : m ≤ 3 := by norm_num) :
    R 1 (FieldOps.doubledSquare a) (FieldOps.doubledSquare x) := L.dsq (h.mono hm)
theorem norm (h : R m a x) : R 1 (FieldOps.normalize a) (FieldOps.normalize x) := L.norm h
theorem bytes (h : R m a x) (hm : m ≤ 3 := by norm_num) : FieldOps.bytes a = FieldOps.bytes x := L.bytes (h.mono hm)
theorem touch (h : R m a x) (hm : m ≤ 2 := by norm_num) : R 2 (FieldOps.touch a) (FieldOps.touch x) :=
  L.touch (h.mono hm)
theorem isNeg (h : R m a x) (hm : m ≤ 3 := by norm_num) : F2 (isNegativeI a) (isNegativeI x) := L.isNeg (h.mono hm)
theorem isNonZero (h : R m a x) (hm : m ≤ 3 := by norm_num) : F2 (isNonZeroI a) (isNonZeroI x) :=
  L.isNonZero (h.mono hm)
theorem equals (h : R m a x) (h' : R n b y) (hm : m + n ≤ 3 := by norm_num) : F2 (feEqualsI a b) (feEqualsI x y) :=
  ((h.sub h' (by omega)).isNonZero hm).not
theorem cond {c c' : Int32} (h : R n a x) (h' : R n b y) (hc : F2 c c') :
    R n (condSet a b c) (condSet x y c') := by
  obtain ⟨rfl, hc⟩ := hc
  rcases hc with rfl | rfl
  · exact L.cond0 h h'
  · exact L.cond1 h h'
end R

variable (F G) in
theorem setBytes (b : Bytes 32) : R 1 (FieldOps.setBytes b : F) (FieldOps.setBytes b : G) := L.setBytes b
theorem rZero : R 1 (feZero : F) (feZero : G) := L.rZero
theorem rOne : R 1 (feOne : F) (feOne : G) := L.rOne
theorem rMinusOne : R 1 (feMinusOne : F) (feMinusOne : G) := L.rMinusOne
theorem rI : R 1 (feI : F) (feI : G) := L.rI
theorem rD : R 1 (feD : F) (feD : G) := L.rD
theorem r2D : R 1 (fe2D : F) (fe2D : G) := L.r2D
theorem rInvSqrtMinusDMinusOne : R 1 (feInvSqrtMinusDMinusOne : F) (feInvSqrtMinusDMinusOne : G) := L.rInvSqrtMinusDMinusOne
theorem rDoubleInvSqrtMinusDMinusOne : R 1 (feDoubleInvSqrtMinusDMinusOne : F) (feDoubleInvSqrtMinusDMinusOne : G) := L.rDoubleInvSqrtMinusDMinusOne
theorem rDoubleIInvSqrtMinusDMinusOne : R 1 (feDoubleIInvSqrtMinusDMinusOne : F) (feDoubleIInvSqrtMinusDMinusOne : G) := L.rDoubleIInvSqrtMinusDMinusOne
theorem rDMinusOneSquared : R 1 (feDMinusOneSquared : F) (feDMinusOneSquared : G) := L.rDMinusOneSquared
theorem rOneMinusDSquared : R 1 (feOneMinusDSquared : F) (feOneMinusDSquared : G) := L.rOneMinusDSquared
theorem rDp1OverDm1 : R 1 (feDp1OverDm1 : F) (feDp1OverDm1 : G) := L.rDp1OverDm1
theorem rSqrtID : R 1 (feSqrtID : F) (feSqrtID : G) := L.rSqrtID
theorem rInvSqrt1pD : R 1 (feInvSqrt1pD : F) (feInvSqrt1pD : G) := L.rInvSqrt1pD

/-! field.go -/


theorem R.feAdd (h : R m a x) (h' : R n b y) (hm : m + n ≤ 10 := by norm_num) :
    R 1 (Model.feAdd a b) (Model.feAdd x y) := (h.add h' hm).norm

theorem R.feSub (h : R m a x) (h' : R n b y) (hm : m + n ≤ 10 := by norm_num) :
    R 1 (Model.feSub a b) (Model.feSub x y) := (h.sub h' hm).norm

theorem R.sqTimes : ∀ (k : ℕ) {a : F} {x : G}, R 1 a x → R 1 (squareTimes k a) (squareTimes k x)
  | 0, _, _, h => h
  | k + 1, _, _, h => R.sqTimes k h.sq

theorem R.inverse (h : R m a x) (hm : m ≤ 4 := by norm_num) : R 1 (feInverse a) (feInverse x) := by
  have t0 := h.sq hm
  have t1 := h.mul t0.sq.sq hm
  have t0 := t0.mul t1
  have t1 := t1.mul t0.sq
  have t1 := (t1.sq.sqTimes 4).mul t1
  have t2 := (t1.sq.sqTimes 9).mul t1
  have t2 := (t2.sq.sqTimes 19).mul t2
  have t1 := (t2.sq.sqTimes 9).mul t1
  have t2 := (t1.sq.sqTimes 49).mul t1
  have t2 := (t2.sq.sqTimes 99).mul t2
  have t1 := (t2.sq.sqTimes 49).mul t1
  exact (t1.sq.sqTimes 4).mul t0

theorem R.exp22523 (h : R m a x) (hm : m ≤ 3 := by norm_num) :
    R 1 (Model.exp22523 a) (Model.exp22523 x) := by
  have t0 := (h.sq (by omega)).sqTimes 0
  have t1 := h.mul (t0.sq.sqTimes 1) (by omega)
  have t0 := t0.mul t1
  have t0 := t0.sq.sqTimes 0
  have t0 := t1.mul t0
  have t0 := (t0.sq.sqTimes 4).mul t0
  have t1 := (t0.sq.sqTimes 9).mul t0
  have t1 := (t1.sq.sqTimes 19).mul t1
  have t0 := (t1.sq.sqTimes 9).mul t0
  have t1 := (t0.sq.sqTimes 49).mul t0
  have t1 := (t1.sq.sqTimes 99).mul t1
  have t0 := (t1.sq.sqTimes 49).mul t0
  exact (t0.sq.sqTimes 1).mul h (by norm_num) hm

theorem R.isOne (h : R m a x) (hm : m ≤ 2 := by norm_num) : F2 (isOneI a) (isOneI x) :=
  h.equals rOne (by omega)

theorem R.invSqrt (h : R m a x) (hm : m ≤ 3 := by norm_num) : R 1 (Model.invSqrt a) (Model.invSqrt x) := by
  have d2 := h.sq (by omega)
  have d3 := d2.mul h (by norm_num) hm
  have d6 := d2.mul d2.sq
  have t := (d6.mul h (by norm_num) hm).exp22523
  have t := t.mul d3
  have t2 := t.mul rI
  have chk := t.sq.mul h (by norm_num) hm
  exact t.cond t2 chk.isOne.not

theorem R.abs (h : R m a x) (hm : m ≤ 2 := by norm_num) : R 2 (feAbsSelf a) (feAbsSelf x) :=
  (h.touch (by omega)).cond ((h.neg (by omega)).mono hm) (h.isNeg (by omega))

theorem R.sqrt (h : R m a x) (hm : m ≤ 3 := by norm_num) : R 2 (feSqrt a) (feSqrt x) :=
  ((h.invSqrt hm).mul h (by norm_num) hm).abs

theorem R.invSqrtI (h : R m a x) (hm : m ≤ 3 := by norm_num) :
    R 1 (Model.invSqrtI a).1 (Model.invSqrtI x).1 ∧ F2 (Model.invSqrtI a).2 (Model.invSqrtI x).2 := by
  have d2 := h.sq (by omega)
  have d3 := d2.mul h (by norm_num) hm
  have d6 := d2.mul d2.sq
  have t := (d6.mul h (by norm_num) hm).exp22523
  have t := t.mul d3
  have chk := t.sq.mul h (by norm_num) hm
  have cA := chk.isOne
  have cD := chk.equals rI
  have cB := chk.neg.isOne
  obtain ⟨f1, f2⟩ := L.notBoth (FieldOps.mul (FieldOps.square _) x)
  exact ⟨t.mul (rOne.cond rI ⟨congrArg₂ (· + ·) cB.1 cD.1, f1⟩), ⟨congrArg₂ (· + ·) cA.1 cB.1, f2⟩⟩

end

end Ristretto.Proofs.Sim
