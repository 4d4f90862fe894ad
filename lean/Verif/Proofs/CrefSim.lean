import Verif.Model.Cref
import Verif.Model.Elligator
import Verif.Proofs.SimCurve

/-!
# The C reference implementation against the Go package over an exact field

`CSim F G` says that the field functions of cref.c compute on `F` what the Go package computes over an exact field
backend `G`, within bounds.  Under these laws the group functions of cref.c take related arguments to related results.
-/

namespace Ristretto.Proofs.Cref
open Model FieldOps Model.Cref
open Sim (Flag F2)
set_option autoImplicit false

/-- The field functions of cref.c on `F` compute what the backend `G` computes, within bounds. -/
class CSim (F G : Type) [O : CrefOps F] [FieldOps G] where
  R : ℕ → F → G → Prop
  mono : ∀ {m n : ℕ} {a : F} {x : G}, R m a x → m ≤ n → R n a x
  add : ∀ {m n : ℕ} {a b : F} {x y : G}, R m a x → R n b y → m + n ≤ 10 → R (m + n) (O.add a b) (FieldOps.add x y)
  sub : ∀ {m n : ℕ} {a b : F} {x y : G}, R m a x → R n b y → m + n ≤ 10 → R (m + n) (O.sub a b) (FieldOps.sub x y)
  neg : ∀ {m : ℕ} {a : F} {x : G}, R m a x → m ≤ 10 → R m (O.neg a) (FieldOps.neg x)
  mul : ∀ {a b : F} {x y : G}, R 3 a x → R 3 b y → R 1 (O.mul a b) (FieldOps.mul x y)
  sq : ∀ {a : F} {x : G}, R 3 a x → R 1 (O.square a) (FieldOps.square x)
  dsq : ∀ {a : F} {x : G}, R 3 a x → R 1 (O.squareDouble a) (FieldOps.doubledSquare x)
  pack : ∀ {a : F} {x : G}, R 3 a x → O.pack a = FieldOps.bytes x
  isZero : ∀ {a : F} {x : G}, R 3 a x → F2 (iszero a) (1 - isNonZeroI x)
  cmov0 : ∀ {m n : ℕ} {a b : F} {x y : G}, R m a x → R n b y → O.cmov a b 0 = a
  cmov1 : ∀ {m n : ℕ} {a b : F} {x y : G}, R m a x → R n b y → O.cmov a b 1 = b
  unpack : ∀ b : Bytes 32, R 1 (O.unpack b) (FieldOps.setBytes b)
  rZero : R 1 O.zero feZero
  rOne : R 1 O.one feOne
  rM1 : R 1 O.m1 feMinusOne
  rI : R 1 O.sqrtm1 feI
  rD : R 1 O.ecd feD
  r2D : R 1 O.ec2d fe2D
  rMagic : R 1 O.magic feInvSqrtMinusDMinusOne
  /-- the exact backend -/
  g0 : ∀ x y : G, FieldOps.condSet x y 0 = x
  g1 : ∀ x y : G, FieldOps.condSet x y 1 = y
  gTouch : ∀ x : G, FieldOps.touch x = x
  gSetBytes : ∀ x : G, FieldOps.setBytes (FieldOps.bytes x) = x
  gN : FieldOps.neg (FieldOps.sub (FieldOps.square (feD : G)) feOne) = feOneMinusDSquared
  gM : FieldOps.square (FieldOps.sub (feD : G) feOne) = feDMinusOneSquared
  g2 : ∀ x : G, FieldOps.mul (FieldOps.add x x) feInvSqrtMinusDMinusOne = FieldOps.mul x feDoubleInvSqrtMinusDMinusOne
  notBoth : ∀ y : G, Flag (isOneI (FieldOps.neg y) + feEqualsI y feI) ∧ Flag (isOneI y + isOneI (FieldOps.neg y))

theorem f2_not {c c' : Int32} (h : F2 c c') : F2 (cnot c) (1 - c') := by
  obtain ⟨rfl, h⟩ := h
  rcases h with rfl | rfl
  · exact ⟨rfl, .inr rfl⟩
  · exact ⟨rfl, .inl rfl⟩

section
variable {F G : Type} [O : CrefOps F] [FieldOps G] [L : CSim F G]

/-- See `CSim`. -/
def R (n : ℕ) (a : F) (x : G) : Prop := L.R n a x

variable {m n : ℕ} {a b : F} {x y : G}

namespace R
theorem mono (h : R m a x) (hmn : m ≤ n := by norm_num) : R n a x := L.mono h hmn
theorem add (h : R m a x) (h' : R n b y) (hmn : m + n ≤ 10 := by norm_num) :
    R (m + n) (O.add a b) (FieldOps.add x y) := L.add h h' hmn
theorem sub (h : R m a x) (h' : R n b y) (hmn : m + n ≤ 10 := by norm_num) :
    R (m + n) (O.sub a b) (FieldOps.sub x y) := L.sub h h' hmn
theorem neg (h : R m a x) (hm : m ≤ 10 := by norm_num) : R m (O.neg a) (FieldOps.neg x) := L.neg h hm
theorem mul (h : R m a x) (h' : R n b y) (hm : m ≤ 3 := by norm_num) (hn : n ≤ 3 := by norm_num) :
    R 1 (O.mul a b) (FieldOps.mul x y) := L.mul (h.mono hm) (h'.mono hn)
theorem sq (h : R m a x) (hm : m ≤ 3 := by norm_num) : R 1 (O.square a) (FieldOps.square x) := L.sq (h.mono hm)
theorem dsq (h : R m a x) (hm : m ≤ 3 := by norm_num) :
    R 1 (O.squareDouble a) (FieldOps.doubledSquare x) := L.dsq (h.mono hm)
theorem pack (h : R m a x) (hm : m ≤ 3 := by norm_num) : O.pack a = FieldOps.bytes x := L.pack (h.mono hm)
theorem touch (h : R m a x) : R m a (FieldOps.touch x) := by rw [L.gTouch]; exact h
theorem isNeg (h : R m a x) (hm : m ≤ 3 := by norm_num) : F2 (isnegative a) (isNegativeI x) := by
  refine ⟨?_, Sim.flag_u8 _⟩
  unfold isnegative isNegativeI
  rw [h.pack hm]
theorem isZero (h : R m a x) (hm : m ≤ 3 := by norm_num) : F2 (iszero a) (1 - isNonZeroI x) := L.isZero (h.mono hm)
theorem equals (h : R m a x) (h' : R n b y) (hm : m + n ≤ 3 := by norm_num) : F2 (iseq a b) (feEqualsI x y) :=
  (h.sub h' (by omega)).isZero hm
theorem cond {c c' : Int32} (h : R n a x) (h' : R n b y) (hc : F2 c c') :
    R n (O.cmov a b (toByte c)) (condSet x y c') := by
  obtain ⟨rfl, hc⟩ := hc
  rcases hc with rfl | rfl
  · rw [show toByte 0 = 0 from rfl, L.cmov0 h h', L.g0]; exact h
  · rw [show toByte 1 = 1 from rfl, L.cmov1 h h', L.g1]; exact h'
end R

variable (F G) in
theorem rUnpack (b : Bytes 32) : R 1 (O.unpack b : F) (FieldOps.setBytes b : G) := L.unpack b
theorem rZero : R 1 (O.zero : F) (feZero : G) := L.rZero
theorem rOne : R 1 (O.one : F) (feOne : G) := L.rOne
theorem rM1 : R 1 (O.m1 : F) (feMinusOne : G) := L.rM1
theorem rI : R 1 (O.sqrtm1 : F) (feI : G) := L.rI
theorem rD : R 1 (O.ecd : F) (feD : G) := L.rD
theorem r2D : R 1 (O.ec2d : F) (fe2D : G) := L.r2D
theorem rMagic : R 1 (O.magic : F) (feInvSqrtMinusDMinusOne : G) := L.rMagic

theorem R.isOne (h : R m a x) (hm : m ≤ 2 := by norm_num) : F2 (isone a) (isOneI x) := h.equals rOne (by omega)

theorem R.sqN : ∀ (k : ℕ) {a : F} {x : G}, R 1 a x → R 1 (Model.Cref.sqN k a) (squareTimes k x)
  | 0, _, _, h => h
  | k + 1, _, _, h => R.sqN k h.sq

theorem R.sqS (k : ℕ) (h : R 1 a x) : R 1 (Model.Cref.sqN (k + 1) a) (squareTimes k (FieldOps.square x)) := R.sqN k h.sq

theorem R.pow2523 (h : R m a x) (hm : m ≤ 3 := by norm_num) : R 1 (Model.Cref.pow2523 a) (exp22523 x) := by
  have t0 := h.sq hm
  have t1 := h.mul (t0.sqS 1) hm
  have t0 := t0.mul t1
  have t0 := t0.sq
  have t0 := t1.mul t0
  have t0 := (t0.sqS 4).mul t0
  have t1 := (t0.sqS 9).mul t0
  have t1 := (t1.sqS 19).mul t1
  have t0 := (t1.sqS 9).mul t0
  have t1 := (t0.sqS 49).mul t0
  have t1 := (t1.sqS 99).mul t1
  have t0 := (t1.sqS 49).mul t0
  exact (t0.sqS 1).mul h (by norm_num) hm

theorem R.invsqrt (h : R m a x) (hm : m ≤ 3 := by norm_num) : R 1 (Model.Cref.invsqrt a) (invSqrt x) := by
  have d2 := h.sq hm
  have d3 := d2.mul h (by norm_num) hm
  have d6 := d2.mul d2.sq
  have t := (d6.mul h (by norm_num) hm).pow2523
  have t := t.mul d3
  have t2 := t.mul rI
  have chk := t.sq.mul h (by norm_num) hm
  have key : ∀ {c c' : Int32} {u u₂ : F} {v v₂ : G}, R 1 u v → R 1 u₂ v₂ → F2 c c' →
      R 1 (if c = 0 then u₂ else u) (condSet v v₂ (1 - c')) := by
    intro c c' u u₂ v v₂ h1 h2 hc
    obtain ⟨rfl, hc⟩ := hc
    rcases hc with rfl | rfl
    · rw [if_pos rfl, show (1 - 0 : Int32) = 1 from rfl, L.g1]; exact h2
    · rw [if_neg (by decide), show (1 - 1 : Int32) = 0 from rfl, L.g0]; exact h1
  exact key t t2 chk.isOne

theorem R.fabs (h : R m a x) (hm : m ≤ 3 := by norm_num) : R m (Model.Cref.fabs a) (feAbsSelf x) :=
  h.touch.cond (h.neg (by omega)) (h.isNeg hm)

theorem R.invsqrti (h : R m a x) (hm : m ≤ 3 := by norm_num) :
    R 1 (Model.Cref.invsqrti a).1 (invSqrtI x).1 ∧ F2 (Model.Cref.invsqrti a).2 (invSqrtI x).2 := by
  have d2 := h.sq hm
  have d3 := d2.mul h (by norm_num) hm
  have d6 := d2.mul d2.sq
  have t := (d6.mul h (by norm_num) hm).pow2523
  have t := t.mul d3
  have chk := t.sq.mul h (by norm_num) hm
  have cA := chk.isOne
  have cD := chk.equals rI
  have cB := chk.neg.isOne
  obtain ⟨f1, f2⟩ := L.notBoth (FieldOps.mul (FieldOps.square _) x)
  exact ⟨t.mul (rOne.cond rI ⟨congrArg₂ (· + ·) cB.1 cD.1, f1⟩), ⟨congrArg₂ (· + ·) cA.1 cB.1, f2⟩⟩

/-! Points -/

/-- Related points. -/
structure CP (q : ExtPt F) (r : ExtPt G) : Prop where
  X : R 2 q.X r.X
  Y : R 1 q.Y r.Y
  Z : R 1 q.Z r.Z
  T : R 1 q.T r.T

/-- Related completed points. -/
structure CC (q : ComplPt F) (r : ComplPt G) : Prop where
  X : R 3 q.X r.X
  Y : R 3 q.Y r.Y
  Z : R 3 q.Z r.Z
  T : R 3 q.T r.T

variable {q q₂ : ExtPt F} {r r₂ : ExtPt G}

theorem CC.toP3 {q : ComplPt F} {r : ComplPt G} (h : CC q r) : CP (p1p1ToP3 q) r.toExtended :=
  ⟨(h.X.mul h.T).mono, h.Y.mul h.Z, h.Z.mul h.T, h.X.mul h.Y⟩

theorem CP.neutral : CP (Model.Cref.neutral : ExtPt F) (ExtPt.zero : ExtPt G) := ⟨rZero.mono, rOne, rOne, rZero⟩

theorem CP.add (h : CP q r) (h' : CP q₂ r₂) : CP (geAdd q q₂) (ExtPt.add r r₂) := by
  have a := (h.Y.sub h.X).mul (h'.Y.sub h'.X)
  have b := (h.X.add h.Y).mul (h'.X.add h'.Y)
  have c := (h.T.mul h'.T).mul r2D
  have d := h.Z.mul h'.Z
  have d := d.add d
  exact CC.toP3 (q := addP1p1 q q₂) (r := ComplPt.addExtended r r₂)
    ⟨(b.sub a).mono, (b.add a).mono, d.add c, d.sub c⟩

theorem CP.double (h : CP q r) : CP (geDouble q) (ExtPt.double r) := by
  have a := h.X.sq
  have b := h.Y.sq
  have c := h.Z.dsq
  have d := a.neg
  have X := (((h.X.add h.Y).sq).sub a).sub b
  have Z := d.add b
  exact CC.toP3 (q := dblP1p1 q) (r := ComplPt.doubleExtended r) ⟨X, (d.sub b).mono, Z.mono, Z.sub c⟩

theorem CP.neg (h : CP q r) : CP (geNeg q) r.neg := ⟨h.X.neg, h.Y, h.Z, h.T.neg⟩

theorem CP.pack (h : CP q r) : gePack q = r.ristretto := by
  have d := h.Z.add h.Y
  have u1 := h.Z.sub h.Y
  have u1 := u1.mul d
  have u2 := h.X.mul h.Y
  have isr := (u2.sq.mul u1).invsqrt
  have i1 := isr.mul u1
  have i2 := isr.mul u2
  have zInv := (i1.mul i2).mul h.T
  have d := zInv.mul h.T
  have nx := h.Y.mul rI
  have ny := h.X.mul rI
  have denInv := rMagic.mul i1
  have b := f2_not d.isNeg
  have nx := (nx.mono (n := 2)).cond h.X b
  have ny := ny.cond h.Y b
  have denInv := denInv.cond i2 b
  have b := (nx.mul zInv).isNeg
  have ny := ny.cond ny.neg b
  have s := (h.Z.sub ny).mul denInv
  have b := s.isNeg
  have s := s.touch
  have s := s.cond s.neg b
  exact s.pack

variable (F G) in
/-- `group_ge_unpack` of any buffer is `SetRistretto` of the canonical bytes of the field element it stands for. -/
theorem geUnpack_rel (buf : Bytes 32) :
    CP (geUnpack buf : ExtPt F × Int32).1
      (ExtPt.setRistrettoI (FieldOps.bytes (FieldOps.setBytes buf : G)) : ExtPt G × Int32).1 ∧
    (∃ c : Int32, F2 c (ExtPt.setRistrettoI (FieldOps.bytes (FieldOps.setBytes buf : G)) : ExtPt G × Int32).2 ∧
      (geUnpack buf : ExtPt F × Int32).2 = -c) := by
  generalize hb : FieldOps.bytes (FieldOps.setBytes buf : G) = buf'
  have e : (FieldOps.setBytes buf' : G) = FieldOps.setBytes buf := by rw [← hb, L.gSetBytes]
  have s : R 1 (O.unpack buf) (FieldOps.setBytes buf' : G) := by rw [e]; exact rUnpack F G buf
  have ret : F2 (isnegative (O.unpack buf))
      ((1 - ExtPt.constantTimeCompare buf' (FieldOps.bytes (FieldOps.setBytes buf' : G)) : Int32) |||
      ((FieldOps.bytes (FieldOps.setBytes buf' : G))[0] &&& 1).toUInt32.toInt32) := by
    have h := s.isNeg
    have e2 : FieldOps.bytes (FieldOps.setBytes buf' : G) = buf' := by rw [e, hb]
    have e1 : (1 - ExtPt.constantTimeCompare buf' (FieldOps.bytes (FieldOps.setBytes buf' : G)) : Int32) = 0 := by
      rw [e2]; unfold ExtPt.constantTimeCompare; rw [if_pos rfl]; rfl
    rw [e1]
    refine ⟨?_, ?_⟩
    · rw [h.1, Int32.zero_or]; rfl
    · exact (Flag.or (.inl rfl) (Sim.flag_u8 _))
  have s := s.touch
  have s2 := s.sq
  have yDen := rOne.add s2
  have yNum := rOne.sub s2
  have yDen2 := yDen.sq
  have xDen2 := (yNum.sq.mul rD)
  have xDen2 := (xDen2.add yDen2).neg
  have t := xDen2.mul yDen2
  have isr := t.invsqrt
  have chk := isr.sq.mul t
  have ret := ret.or (f2_not chk.isOne)
  have xDenInv := isr.mul yDen
  have yDenInv := (xDenInv.mul isr).mul xDen2
  have X := s.mul xDenInv
  have X := X.add X
  have b := X.isNeg
  have X := X.touch
  have X := X.cond X.neg b
  have Y := yNum.mul yDenInv
  have T := X.mul Y
  have ret := ret.or T.isNeg
  have T := T.touch
  have ret := ret.or Y.isZero
  have Y := Y.touch
  exact ⟨⟨X.cond rZero.mono ret, Y.cond rZero ret, rOne.cond rZero ret, T.cond rZero ret⟩, _, ret, rfl⟩

theorem f2_eq30 {c c' e e' : Int32} (h : F2 c c') (h' : F2 e e') :
    F2 (if c = e then 1 else 0) (equal30 c' e') := by
  obtain ⟨rfl, h⟩ := h
  obtain ⟨rfl, h'⟩ := h'
  rcases h with rfl | rfl <;> rcases h' with rfl | rfl <;>
    (refine ⟨by decide, ?_⟩; exact Sim.flag_equal30 _ _)

theorem geElligator_rel (h : R m a x) (hm : m ≤ 3 := by norm_num) :
    CP (geElligator a) (setRistrettoElligator2 x).toExtended := by
  have r0i := h.mul rI hm
  have r := h.mul r0i hm
  have rPlusD := rD.add r
  have D := (((rD.mul r).add rOne).mul rPlusD).neg
  have N := ((rD (F := F) (G := G)).sq.sub rOne).neg
  rw [L.gN] at N
  have rPlusOne := r.add rOne
  have N := N.mul rPlusOne
  obtain ⟨sqrt, b⟩ := (N.mul D).invsqrti
  have sqrt := sqrt.fabs
  have twiddle := (rOne (F := F) (G := G)).cond r0i b.not
  have sgn := (rOne (F := F) (G := G)).cond rM1 b.not
  have sqrt := sqrt.mul twiddle
  have S := sqrt.mul N
  have T := S.mul (sqrt.mul sgn.neg)
  have dm := ((rD (F := F) (G := G)).sub rOne).sq
  rw [L.gM] at dm
  have T := dm.mul T
  have T := (r.sub rOne).mul T
  have T := T.sub rOne
  have c := f2_eq30 S.isNeg b
  have key : ∀ {p : Prop} [Decidable p] {c' : Int32} {u u₂ : F} {v v₂ : G}, R 1 u v → R 1 u₂ v₂ →
      F2 (if p then 1 else 0) c' → R 1 (O.cmov u u₂ (if p then 1 else 0)) (condSet v v₂ c') := by
    intro p _ c' u u₂ v v₂ h1 h2 hc
    have := h1.cond h2 hc
    by_cases hp : p
    · simp only [hp, if_true] at this ⊢; exact this
    · simp only [hp, if_false] at this ⊢; exact this
  have S := key S.touch S.neg c
  have X := (S.add S).mul rMagic
  rw [L.g2] at X
  have s2 := S.sq
  exact CC.toP3 (r := setRistrettoElligator2 x) ⟨X.mono, (rOne.sub s2).mono, T.mono, (rOne.add s2).mono⟩

end

end Ristretto.Proofs.Cref
