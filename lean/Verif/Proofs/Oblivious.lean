import Verif.Spec.Oblivious
import Verif.Proofs.Digits
/-!
# The value of the code on words nobody knows

For each function of `Model/Oblivious.lean`: the value of the expressions it builds is what the function of the model computes from the
values of its arguments.
-/

namespace Ristretto.Proofs.Obl
set_option autoImplicit false
open Ristretto.Model Ristretto.Model.Obl Ristretto.Proofs

variable (ρ : (t : Ty) → Name → t.Val)

/-- The value of a field element. -/
def evFe {K F : Type} [Sym K F] (a : K) : F := Sym.val ρ a
/-- The values of the bytes of an array. -/
def evB {n : Nat} (v : SBytes n) : Bytes n := v.map (ev ρ)

theorem fe_add (a b : FeS) : evFe ρ (FeS.add a b) = Fe51.add (evFe ρ a) (evFe ρ b) := (rfl)
theorem fe_carryChain (a : FeS) : evFe ρ (FeS.carryChain a) = Fe51.carryChain (evFe ρ a) := (rfl)
theorem fe_sub (a b : FeS) : evFe ρ (FeS.sub a b) = Fe51.sub (evFe ρ a) (evFe ρ b) := (rfl)
theorem fe_neg (a : FeS) : evFe ρ (FeS.neg a) = Fe51.neg (evFe ρ a) := (rfl)
theorem fe_setReduced (a : FeS) : evFe ρ (FeS.setReduced a) = Fe51.setReduced (evFe ρ a) := (rfl)
theorem fe_condSet (a b : FeS) (c : I32) : evFe ρ (FeS.condSet a b c) = Fe51.condSet (evFe ρ a) (evFe ρ b) (ev ρ c) := (rfl)

/-- The value of a double word. -/
def evP (p : U64 × U64) : UInt64 × UInt64 := (ev ρ p.1, ev ρ p.2)
theorem p_mk (a b : U64) : evP ρ (a, b) = (ev ρ a, ev ρ b) := (rfl)
theorem p_fst (p : U64 × U64) : ev ρ p.1 = (evP ρ p).1 := (rfl)
theorem p_snd (p : U64 × U64) : ev ρ p.2 = (evP ρ p).2 := (rfl)
theorem p_mulAcc (p : U64 × U64) (a b : U64) : evP ρ (Obl.mulAcc p a b) = Model.mulAcc (evP ρ p) (ev ρ a) (ev ρ b) := (rfl)
theorem p_carryAcc (p q : U64 × U64) : evP ρ (Obl.carryAcc p q) = Model.carryAcc (evP ρ p) (evP ρ q) := (rfl)
theorem p_mul64 (a b : U64) : evP ρ (Obl.bitsMul64 a b) = Model.bitsMul64 (ev ρ a) (ev ρ b) := (rfl)
theorem e_lit {t : Ty} (v : t.Val) : ev ρ (.lit v) = v := (rfl)
theorem e_add64 (a b : U64) : ev ρ (a + b) = (ev ρ a + ev ρ b : UInt64) := (rfl)
theorem e_sub64 (a b : U64) : ev ρ (a - b) = (ev ρ a - ev ρ b : UInt64) := (rfl)
theorem e_mul64 (a b : U64) : ev ρ (a * b) = (ev ρ a * ev ρ b : UInt64) := (rfl)
theorem e_and64 (a b : U64) : ev ρ (a &&& b) = (ev ρ a &&& ev ρ b : UInt64) := (rfl)
theorem e_xor64 (a b : U64) : ev ρ (a ^^^ b) = (ev ρ a ^^^ ev ρ b : UInt64) := (rfl)
theorem e_or64 (a b : U64) : ev ρ (a ||| b) = (ev ρ a ||| ev ρ b : UInt64) := (rfl)
theorem e_shr64 (a : U64) (n : Nat) : ev ρ (a >>> n) = (ev ρ a >>> (UInt64.ofNat n) : UInt64) := (rfl)
theorem e_shl64 (a : U64) (n : Nat) : ev ρ (a <<< n) = (ev ρ a <<< (UInt64.ofNat n) : UInt64) := (rfl)

theorem fe_mul (a b : FeS) : evFe ρ (FeS.mul a b) = Fe51.mul (evFe ρ a) (evFe ρ b) := by
  simp only [FeS.mul, evFe, Sym.val, e_add64, e_mul64, e_and64, e_or64, e_shr64, e_shl64, p_fst, p_snd, p_mulAcc, p_carryAcc, p_mul64, Fe51.mul]
  rfl
theorem fe_square (a : FeS) : evFe ρ (FeS.square a) = Fe51.square (evFe ρ a) := by
  simp only [FeS.square, evFe, Sym.val, e_add64, e_mul64, e_and64, e_or64, e_shr64, e_shl64, p_fst, p_snd, p_mulAcc, p_carryAcc, p_mul64, Fe51.square]
  rfl
theorem fe_doubledSquare (a : FeS) : evFe ρ (FeS.doubledSquare a) = Fe51.doubledSquare (evFe ρ a) := by
  simp only [FeS.doubledSquare, evFe, Sym.val, e_add64, e_mul64, e_and64, e_or64, e_shr64, e_shl64, p_fst, p_snd, p_mulAcc, p_carryAcc, p_mul64, Fe51.doubledSquare]
  rfl

theorem b_get {n : Nat} (v : SBytes n) (i : Nat) (h : i < n) : (evB ρ v)[i] = ev ρ v[i] := by simp [evB]

theorem fe_bytes (a : FeS) : evB ρ (FeS.bytes a) = Fe51.bytes (evFe ρ a) := by
  simp only [FeS.bytes, Fe51.bytes, evB, Vector.map_mk, List.map_toArray, List.map_cons, List.map_nil, ← fe_setReduced]
  rfl
theorem fe_setBytes (v : SBytes 32) : evFe ρ (FeS.setBytes v) = Fe51.setBytes (evB ρ v) := by
  simp only [FeS.setBytes, Fe51.setBytes, b_get]
  rfl

open FieldOps SymOps

/-- The value of what an operation gives is what the operation gives for the values. -/
class LawfulSym (K : Type) (F : outParam Type) [SymOps K] [FieldOps F] [Sym K F] : Prop where
  add : ∀ (ρ : (t : Ty) → Name → t.Val) (a b : K), evFe ρ (FieldOps.add a b) = FieldOps.add (evFe ρ a) (evFe ρ b)
  sub : ∀ (ρ : (t : Ty) → Name → t.Val) (a b : K), evFe ρ (FieldOps.sub a b) = FieldOps.sub (evFe ρ a) (evFe ρ b)
  neg : ∀ (ρ : (t : Ty) → Name → t.Val) (a : K), evFe ρ (FieldOps.neg a) = FieldOps.neg (evFe ρ a)
  normalize : ∀ (ρ : (t : Ty) → Name → t.Val) (a : K), evFe ρ (FieldOps.normalize a) = FieldOps.normalize (evFe ρ a)
  mul : ∀ (ρ : (t : Ty) → Name → t.Val) (a b : K), evFe ρ (FieldOps.mul a b) = FieldOps.mul (evFe ρ a) (evFe ρ b)
  square : ∀ (ρ : (t : Ty) → Name → t.Val) (a : K), evFe ρ (FieldOps.square a) = FieldOps.square (evFe ρ a)
  doubledSquare : ∀ (ρ : (t : Ty) → Name → t.Val) (a : K),
    evFe ρ (FieldOps.doubledSquare a) = FieldOps.doubledSquare (evFe ρ a)
  touch : ∀ (ρ : (t : Ty) → Name → t.Val) (a : K), evFe ρ (FieldOps.touch a) = FieldOps.touch (evFe ρ a)
  condSet : ∀ (ρ : (t : Ty) → Name → t.Val) (a b : K) (c : I32),
    evFe ρ (condSetS a b c) = FieldOps.condSet (evFe ρ a) (evFe ρ b) (ev ρ c)
  bytes : ∀ (ρ : (t : Ty) → Name → t.Val) (a : K), evB ρ (bytesS a) = FieldOps.bytes (evFe ρ a)
  setBytes : ∀ (ρ : (t : Ty) → Name → t.Val) (v : SBytes 32),
    evFe ρ (setBytesS v : K) = FieldOps.setBytes (evB ρ v)
  vars : ∀ (ρ : (t : Ty) → Name → t.Val) (f : ℕ → Name) (a : F),
    (∀ (t : Ty) (l : ℕ), ρ t (f l) = Sym.limb K a t l) → evFe ρ (SymOps.vars f : K) = a
  feZero : ∀ (ρ : (t : Ty) → Name → t.Val), evFe ρ (FieldOps.feZero : K) = FieldOps.feZero
  feOne : ∀ (ρ : (t : Ty) → Name → t.Val), evFe ρ (FieldOps.feOne : K) = FieldOps.feOne
  feMinusOne : ∀ (ρ : (t : Ty) → Name → t.Val), evFe ρ (FieldOps.feMinusOne : K) = FieldOps.feMinusOne
  feI : ∀ (ρ : (t : Ty) → Name → t.Val), evFe ρ (FieldOps.feI : K) = FieldOps.feI
  feD : ∀ (ρ : (t : Ty) → Name → t.Val), evFe ρ (FieldOps.feD : K) = FieldOps.feD
  fe2D : ∀ (ρ : (t : Ty) → Name → t.Val), evFe ρ (FieldOps.fe2D : K) = FieldOps.fe2D
  feInvSqrtMinusDMinusOne : ∀ (ρ : (t : Ty) → Name → t.Val), evFe ρ (FieldOps.feInvSqrtMinusDMinusOne : K) = FieldOps.feInvSqrtMinusDMinusOne
  feDoubleInvSqrtMinusDMinusOne : ∀ (ρ : (t : Ty) → Name → t.Val), evFe ρ (FieldOps.feDoubleInvSqrtMinusDMinusOne : K) = FieldOps.feDoubleInvSqrtMinusDMinusOne
  feDoubleIInvSqrtMinusDMinusOne : ∀ (ρ : (t : Ty) → Name → t.Val), evFe ρ (FieldOps.feDoubleIInvSqrtMinusDMinusOne : K) = FieldOps.feDoubleIInvSqrtMinusDMinusOne
  feDMinusOneSquared : ∀ (ρ : (t : Ty) → Name → t.Val), evFe ρ (FieldOps.feDMinusOneSquared : K) = FieldOps.feDMinusOneSquared
  feOneMinusDSquared : ∀ (ρ : (t : Ty) → Name → t.Val), evFe ρ (FieldOps.feOneMinusDSquared : K) = FieldOps.feOneMinusDSquared
  feDp1OverDm1 : ∀ (ρ : (t : Ty) → Name → t.Val), evFe ρ (FieldOps.feDp1OverDm1 : K) = FieldOps.feDp1OverDm1
  feSqrtID : ∀ (ρ : (t : Ty) → Name → t.Val), evFe ρ (FieldOps.feSqrtID : K) = FieldOps.feSqrtID
  feInvSqrt1pD : ∀ (ρ : (t : Ty) → Name → t.Val), evFe ρ (FieldOps.feInvSqrt1pD : K) = FieldOps.feInvSqrt1pD
  epBaseX : ∀ (ρ : (t : Ty) → Name → t.Val), evFe ρ (FieldOps.epBaseX : K) = FieldOps.epBaseX
  epBaseY : ∀ (ρ : (t : Ty) → Name → t.Val), evFe ρ (FieldOps.epBaseY : K) = FieldOps.epBaseY
  epBaseT : ∀ (ρ : (t : Ty) → Name → t.Val), evFe ρ (FieldOps.epBaseT : K) = FieldOps.epBaseT

instance : LawfulSym FeS Fe51 where
  add := fe_add
  sub := fe_sub
  neg := fe_neg
  normalize := fe_setReduced
  mul := fe_mul
  square := fe_square
  doubledSquare := fe_doubledSquare
  touch := fun _ _ => rfl
  condSet := fun _ _ _ _ => rfl
  bytes := fe_bytes
  setBytes := fe_setBytes
  vars := fun ρ f a h => by
    have h0 := h .u64 0
    have h1 := h .u64 1
    have h2 := h .u64 2
    have h3 := h .u64 3
    have h4 := h .u64 4
    simp only [evFe, Sym.val, SymOps.vars, ev, h0, h1, h2, h3, h4]
    rfl
  feZero := fun _ => rfl
  feOne := fun _ => rfl
  feMinusOne := fun _ => rfl
  feI := fun _ => rfl
  feD := fun _ => rfl
  fe2D := fun _ => rfl
  feInvSqrtMinusDMinusOne := fun _ => rfl
  feDoubleInvSqrtMinusDMinusOne := fun _ => rfl
  feDoubleIInvSqrtMinusDMinusOne := fun _ => rfl
  feDMinusOneSquared := fun _ => rfl
  feOneMinusDSquared := fun _ => rfl
  feDp1OverDm1 := fun _ => rfl
  feSqrtID := fun _ => rfl
  feInvSqrt1pD := fun _ => rfl
  epBaseX := fun _ => rfl
  epBaseY := fun _ => rfl
  epBaseT := fun _ => rfl

section
variable {K F : Type} [SymOps K] [FieldOps F] [Sym K F] [LawfulSym K F]

theorem o_add (a b : K) : evFe ρ (add a b) = add (evFe ρ a) (evFe ρ b) := LawfulSym.add ρ a b
theorem o_sub (a b : K) : evFe ρ (sub a b) = sub (evFe ρ a) (evFe ρ b) := LawfulSym.sub ρ a b
theorem o_neg (a : K) : evFe ρ (neg a) = neg (evFe ρ a) := LawfulSym.neg ρ a
theorem o_normalize (a : K) : evFe ρ (normalize a) = normalize (evFe ρ a) := LawfulSym.normalize ρ a
theorem o_mul (a b : K) : evFe ρ (mul a b) = mul (evFe ρ a) (evFe ρ b) := LawfulSym.mul ρ a b
theorem o_square (a : K) : evFe ρ (square a) = square (evFe ρ a) := LawfulSym.square ρ a
theorem o_doubledSquare (a : K) : evFe ρ (doubledSquare a) = doubledSquare (evFe ρ a) := LawfulSym.doubledSquare ρ a
theorem o_touch (a : K) : evFe ρ (touch a) = touch (evFe ρ a) := LawfulSym.touch ρ a
theorem o_condSet (a b : K) (c : I32) : evFe ρ (condSetS a b c) = condSet (evFe ρ a) (evFe ρ b) (ev ρ c) :=
  LawfulSym.condSet ρ a b c
theorem o_bytes (a : K) : evB ρ (bytesS a) = bytes (evFe ρ a) := LawfulSym.bytes ρ a
theorem o_setBytes (v : SBytes 32) : evFe ρ (setBytesS v : K) = setBytes (evB ρ v) := LawfulSym.setBytes ρ v
theorem c_feZero : evFe ρ (feZero : K) = feZero := LawfulSym.feZero ρ
theorem c_feOne : evFe ρ (feOne : K) = feOne := LawfulSym.feOne ρ
theorem c_feMinusOne : evFe ρ (feMinusOne : K) = feMinusOne := LawfulSym.feMinusOne ρ
theorem c_feI : evFe ρ (feI : K) = feI := LawfulSym.feI ρ
theorem c_feD : evFe ρ (feD : K) = feD := LawfulSym.feD ρ
theorem c_fe2D : evFe ρ (fe2D : K) = fe2D := LawfulSym.fe2D ρ
theorem c_1 : evFe ρ (feInvSqrtMinusDMinusOne : K) = feInvSqrtMinusDMinusOne := LawfulSym.feInvSqrtMinusDMinusOne ρ
theorem c_2 : evFe ρ (feDoubleInvSqrtMinusDMinusOne : K) = feDoubleInvSqrtMinusDMinusOne := LawfulSym.feDoubleInvSqrtMinusDMinusOne ρ
theorem c_3 : evFe ρ (feDoubleIInvSqrtMinusDMinusOne : K) = feDoubleIInvSqrtMinusDMinusOne := LawfulSym.feDoubleIInvSqrtMinusDMinusOne ρ
theorem c_4 : evFe ρ (feDMinusOneSquared : K) = feDMinusOneSquared := LawfulSym.feDMinusOneSquared ρ
theorem c_5 : evFe ρ (feOneMinusDSquared : K) = feOneMinusDSquared := LawfulSym.feOneMinusDSquared ρ
theorem c_6 : evFe ρ (feDp1OverDm1 : K) = feDp1OverDm1 := LawfulSym.feDp1OverDm1 ρ
theorem c_7 : evFe ρ (feSqrtID : K) = feSqrtID := LawfulSym.feSqrtID ρ
theorem c_8 : evFe ρ (feInvSqrt1pD : K) = feInvSqrt1pD := LawfulSym.feInvSqrt1pD ρ
theorem c_epBaseX : evFe ρ (epBaseX : K) = epBaseX := LawfulSym.epBaseX ρ
theorem c_epBaseY : evFe ρ (epBaseY : K) = epBaseY := LawfulSym.epBaseY ρ
theorem c_epBaseT : evFe ρ (epBaseT : K) = epBaseT := LawfulSym.epBaseT ρ

/-- Evaluation and the operations commute. -/
macro "obl" "[" ts:Lean.Parser.Tactic.simpLemma,* "]" : tactic => `(tactic| simp only [o_add, o_sub, o_neg, o_normalize, o_mul, o_square, o_doubledSquare, o_touch, o_condSet, o_bytes, o_setBytes, c_feZero, c_feOne, c_feMinusOne, c_feI, c_feD, c_fe2D, c_1, c_2, c_3, c_4, c_5, c_6, c_7, c_8, c_epBaseX, c_epBaseY, c_epBaseT, $ts,*])

theorem squareTimes_ev (n : Nat) (a : K) : evFe ρ (squareTimes n a) = squareTimes n (evFe ρ a) := by
  induction n generalizing a with
  | zero => rfl
  | succ n ih => simp only [squareTimes, ih, o_square]
theorem exp22523_ev (a : K) : evFe ρ (exp22523 a) = exp22523 (evFe ρ a) := by
  obl [exp22523, squareTimes_ev]
theorem feInverse_ev (a : K) : evFe ρ (feInverse a) = feInverse (evFe ρ a) := by
  obl [feInverse, squareTimes_ev]
theorem isNegativeI_ev (a : K) : ev ρ (Obl.isNegativeI a) = Model.isNegativeI (evFe ρ a) := by
  simp only [Model.isNegativeI, ← o_bytes, b_get]; rfl
theorem leUint64_ev (a b c d e f g h : U8) : ev ρ (Obl.leUint64 a b c d e f g h) =
    Model.leUint64 (ev ρ a) (ev ρ b) (ev ρ c) (ev ρ d) (ev ρ e) (ev ρ f) (ev ρ g) (ev ρ h) := (rfl)
theorem bit_ev (a : U64) : ev ρ (a &&& 1).toUInt32.toInt32 = ((ev ρ a : UInt64) &&& 1).toUInt32.toInt32 := (rfl)
theorem isNonZeroI_ev (a : K) : ev ρ (Obl.isNonZeroI a) = Model.isNonZeroI (evFe ρ a) := by
  simp only [Obl.isNonZeroI, Model.isNonZeroI, ← o_bytes, b_get, bit_ev, e_or64, e_shr64, leUint64_ev]
  rfl
theorem i_sub (a b : I32) : ev ρ (a - b) = (ev ρ a - ev ρ b : Int32) := (rfl)
theorem i_add (a b : I32) : ev ρ (a + b) = (ev ρ a + ev ρ b : Int32) := (rfl)
theorem i_and (a b : I32) : ev ρ (a &&& b) = (ev ρ a &&& ev ρ b : Int32) := (rfl)
theorem i_or (a b : I32) : ev ρ (a ||| b) = (ev ρ a ||| ev ρ b : Int32) := (rfl)
theorem i_one : ev ρ (1 : I32) = (1 : Int32) := (rfl)
theorem isOneI_ev (a : K) : ev ρ (Obl.isOneI a) = Model.isOneI (evFe ρ a) := by
  obl [Obl.isOneI, i_sub, i_one, isNonZeroI_ev, Model.isOneI]
theorem feEqualsI_ev (a b : K) : ev ρ (Obl.feEqualsI a b) = Model.feEqualsI (evFe ρ a) (evFe ρ b) := by
  obl [Obl.feEqualsI, i_sub, i_one, isNonZeroI_ev, Model.feEqualsI]
theorem feAbs_ev (a : K) : evFe ρ (Obl.feAbs a) = Model.feAbs (evFe ρ a) := by
  obl [Obl.feAbs, Model.feAbs, isNegativeI_ev]
theorem feAbsSelf_ev (a : K) : evFe ρ (Obl.feAbsSelf a) = Model.feAbsSelf (evFe ρ a) := by
  obl [Obl.feAbsSelf, Model.feAbsSelf, isNegativeI_ev]
theorem invSqrt_ev (a : K) : evFe ρ (Obl.invSqrt a) = Model.invSqrt (evFe ρ a) := by
  obl [Obl.invSqrt, Model.invSqrt, exp22523_ev, isOneI_ev, i_sub, i_one]
theorem feSqrt_ev (a : K) : evFe ρ (Obl.feSqrt a) = Model.feSqrt (evFe ρ a) := by
  obl [Obl.feSqrt, Model.feSqrt, invSqrt_ev, isNegativeI_ev]
theorem invSqrtI_fst (a : K) : evFe ρ (Obl.invSqrtI a).1 = (Model.invSqrtI (evFe ρ a)).1 := by
  obl [Obl.invSqrtI, Model.invSqrtI, exp22523_ev, isOneI_ev, feEqualsI_ev, i_sub, i_add, i_one]
theorem invSqrtI_snd (a : K) : ev ρ (Obl.invSqrtI a).2 = (Model.invSqrtI (evFe ρ a)).2 := by
  obl [Obl.invSqrtI, Model.invSqrtI, exp22523_ev, isOneI_ev, feEqualsI_ev, i_sub, i_add, i_one]

/-! ## Points -/

/-- The value of a point. -/
def evPt (p : ExtPt K) : ExtPt F := ⟨evFe ρ p.X, evFe ρ p.Y, evFe ρ p.Z, evFe ρ p.T⟩
/-- The value of a completed point. -/
def evCp (p : ComplPt K) : ComplPt F := ⟨evFe ρ p.X, evFe ρ p.Y, evFe ρ p.Z, evFe ρ p.T⟩
/-- The value of a projective point. -/
def evPj (p : ProjPt K) : ProjPt F := ⟨evFe ρ p.X, evFe ρ p.Y, evFe ρ p.Z⟩
/-- The value of a table entry. -/
def evNp (p : NielsPt K) : NielsPt F := ⟨evFe ρ p.YPlusX, evFe ρ p.YMinusX, evFe ρ p.XY2D⟩
/-- The value of a point on the Jacobi quartic. -/
def evJp (p : JacPt K) : JacPt F := ⟨evFe ρ p.S, evFe ρ p.T⟩
/-- The value of a table. -/
def evTable (t : Table K) : Table F := t.map (·.map (evNp ρ))

theorem zero_ev : evPt ρ (ExtPt.zero : ExtPt K) = ExtPt.zero := by
  obl [ExtPt.zero, evPt]
theorem base_ev : evPt ρ (ExtPt.base : ExtPt K) = ExtPt.base := by
  obl [ExtPt.base, evPt]
theorem ptNeg_ev (p : ExtPt K) : evPt ρ p.neg = (evPt ρ p).neg := by
  obl [ExtPt.neg, evPt]
theorem addExtended_ev (p q : ExtPt K) : evCp ρ (ComplPt.addExtended p q) = ComplPt.addExtended (evPt ρ p) (evPt ρ q) := by
  obl [ComplPt.addExtended, evPt, evCp]
theorem subExtended_ev (p q : ExtPt K) : evCp ρ (ComplPt.subExtended p q) = ComplPt.subExtended (evPt ρ p) (evPt ρ q) := by
  obl [ComplPt.subExtended, evPt, evCp]
theorem doubleProjective_ev (p : ProjPt K) : evCp ρ (ComplPt.doubleProjective p) = ComplPt.doubleProjective (evPj ρ p) := by
  obl [ComplPt.doubleProjective, evPj, evCp]
theorem doubleExtended_ev (p : ExtPt K) : evCp ρ (ComplPt.doubleExtended p) = ComplPt.doubleExtended (evPt ρ p) := by
  obl [ComplPt.doubleExtended, evPt, evCp]
theorem addExtendedNiels_ev (p : ExtPt K) (q : NielsPt K) :
    evCp ρ (ComplPt.addExtendedNiels p q) = ComplPt.addExtendedNiels (evPt ρ p) (evNp ρ q) := by
  obl [ComplPt.addExtendedNiels, evPt, evNp, evCp]
theorem toExtended_ev (p : ComplPt K) : evPt ρ p.toExtended = (evCp ρ p).toExtended := by
  obl [ComplPt.toExtended, evPt, evCp]
theorem toProjective_ev (p : ComplPt K) : evPj ρ p.toProjective = (evCp ρ p).toProjective := by
  obl [ComplPt.toProjective, evPj, evCp]
theorem double_ev (p : ExtPt K) : evPt ρ p.double = (evPt ρ p).double := by
  simp only [ExtPt.double, toExtended_ev, doubleExtended_ev]
theorem add_ev (p q : ExtPt K) : evPt ρ (p.add q) = (evPt ρ p).add (evPt ρ q) := by
  simp only [ExtPt.add, toExtended_ev, addExtended_ev]
theorem sub_ev (p q : ExtPt K) : evPt ρ (p.sub q) = (evPt ρ p).sub (evPt ρ q) := by
  simp only [ExtPt.sub, toExtended_ev, subExtended_ev]
theorem ptCondSet_ev (p q : ExtPt K) (b : I32) : evPt ρ (ptCondSet p q b) = (evPt ρ p).condSet (evPt ρ q) (ev ρ b) := by
  obl [ptCondSet, ExtPt.condSet, evPt]
theorem nielsCondSet_ev (p q : NielsPt K) (b : I32) :
    evNp ρ (nielsCondSet p q b) = (evNp ρ p).condSet (evNp ρ q) (ev ρ b) := by
  obl [nielsCondSet, NielsPt.condSet, evNp]
theorem nielsNeg_ev (p : NielsPt K) : evNp ρ p.neg = (evNp ρ p).neg := by
  obl [NielsPt.neg, evNp]
theorem ofExtended_ev (p : ExtPt K) : evNp ρ (NielsPt.ofExtended p) = NielsPt.ofExtended (evPt ρ p) := by
  obl [NielsPt.ofExtended, evPt, evNp, feInverse_ev, feAdd, feSub]
theorem ristrettoEqualsI_ev (p q : ExtPt K) :
    ev ρ (Obl.ristrettoEqualsI p q) = ExtPt.ristrettoEqualsI (evPt ρ p) (evPt ρ q) := by
  obl [Obl.ristrettoEqualsI, ExtPt.ristrettoEqualsI, evPt, i_sub, i_one, i_and, feEqualsI_ev]
theorem ristretto_ev (p : ExtPt K) : evB ρ (Obl.ristretto p) = (evPt ρ p).ristretto := by
  obl [Obl.ristretto, ExtPt.ristretto, evPt, invSqrt_ev, isNegativeI_ev, i_sub, i_one]

/-- The loop of `ConstantTimeCompare` leaves zero iff nothing differs. -/
theorem ctc_fold (xs ys : List UInt8) (h : xs.length = ys.length) (v : UInt8) :
    (List.zip xs ys).foldl (fun v xy => v ||| (xy.1 ^^^ xy.2)) v = 0 ↔ v = 0 ∧ xs = ys := by
  induction xs generalizing ys v with
  | nil => cases ys with
    | nil => simp
    | cons => simp at h
  | cons x xs ih => cases ys with
    | nil => simp at h
    | cons y ys =>
      simp only [List.zip_cons_cons, List.foldl_cons, List.cons.injEq]
      rw [ih ys (by simpa using h), UInt8.or_eq_zero_iff, UInt8.xor_eq_zero_iff]
      tauto
theorem ctc_byte (v : UInt8) : ((v.toUInt32 - 1) >>> 31).toInt32 = if v = 0 then 1 else 0 := by
  revert v; exact uint8_forall (by decide +kernel)
theorem ctc_foldev (xs ys : List U8) (v : U8) :
    ev ρ ((List.zip xs ys).foldl (fun v xy => v ||| (xy.1 ^^^ xy.2)) v) =
      (List.zip (xs.map (ev ρ)) (ys.map (ev ρ))).foldl (fun (v : UInt8) xy => v ||| (xy.1 ^^^ xy.2)) (ev ρ v) := by
  induction xs generalizing ys v with
  | nil => rfl
  | cons x xs ih => cases ys with
    | nil => rfl
    | cons y ys => exact ih ys _
theorem constantTimeCompare_ev {n : Nat} (x y : SBytes n) :
    ev ρ (Obl.constantTimeCompare x y) = ExtPt.constantTimeCompare (evB ρ x) (evB ρ y) := by
  have h : ev ρ (Obl.constantTimeCompare x y) =
    ((((ev ρ ((List.zip x.toList y.toList).foldl (fun v xy => v ||| (xy.1 ^^^ xy.2)) (0 : U8))) : UInt8).toUInt32 - 1) >>> 31).toInt32 := (rfl)
  rw [h, ctc_foldev, ctc_byte, ExtPt.constantTimeCompare]
  have h2 := ctc_fold (x.toList.map (ev ρ)) (y.toList.map (ev ρ)) (by simp) (ev ρ (0 : U8))
  have h3 : evB ρ x = evB ρ y ↔ x.toList.map (ev ρ) = y.toList.map (ev ρ) := by
    rw [← Vector.toList_inj, evB, evB, Vector.toList_map, Vector.toList_map]
  have h0 : ev ρ (0 : U8) = 0 := (rfl)
  by_cases hq : evB ρ x = evB ρ y
  · rw [if_pos (h2.2 ⟨h0, h3.1 hq⟩), if_pos hq]
  · rw [if_neg (fun hh => hq (h3.2 (h2.1 hh).2)), if_neg hq]

theorem setRistrettoI_ev (b : SBytes 32) :
    evPt ρ (Obl.setRistrettoI b : ExtPt K × I32).1 = (ExtPt.setRistrettoI (evB ρ b)).1 ∧
    ev ρ (Obl.setRistrettoI b : ExtPt K × I32).2 = (ExtPt.setRistrettoI (F := F) (evB ρ b)).2 := by
  have hb (s : K) : ev ρ ((bytesS s)[0] &&& 1).toUInt32.toInt32 = ((bytes (evFe ρ s))[0] &&& 1).toUInt32.toInt32 := by
    rw [← o_bytes, b_get]; rfl
  constructor
  · obl [Obl.setRistrettoI, ExtPt.setRistrettoI, evPt, invSqrt_ev, isNegativeI_ev, isNonZeroI_ev, isOneI_ev, i_sub, i_or, i_one, constantTimeCompare_ev, hb]
  · obl [Obl.setRistrettoI, ExtPt.setRistrettoI, evPt, invSqrt_ev, isNegativeI_ev, isNonZeroI_ev, isOneI_ev, i_sub, i_or, i_one, constantTimeCompare_ev, hb]

/-! ## Windows and scalar multiplication -/

theorem window5Chunk_ev (a b c d e : U8) :
    (Obl.window5Chunk a b c d e).map (ev ρ) = Model.window5Chunk (ev ρ a) (ev ρ b) (ev ρ c) (ev ρ d) (ev ρ e) := (rfl)
theorem window5Raw_ev (s : SBytes 32) : (Obl.window5Raw s).map (ev ρ) = Model.window5Raw (evB ρ s) := by
  simp only [Obl.window5Raw, Model.window5Raw, List.map_append, b_get]
  rfl
theorem window5Sign_ev (l : List I8) (c a : I8) :
    (Obl.window5Sign c a l).map (ev ρ) = Model.window5Sign (ev ρ c) (ev ρ a) (l.map (ev ρ)) := by
  induction l generalizing c a with
  | nil => rfl
  | cons b l ih =>
    simp only [Obl.window5Sign, Model.window5Sign, List.map_cons, ih]
    rfl
theorem computeScalarWindow5_ev (s : SBytes 32) :
    (Obl.computeScalarWindow5 s).map (ev ρ) = Model.computeScalarWindow5 (evB ρ s) := by
  simp only [Obl.computeScalarWindow5, Model.computeScalarWindow5, ← window5Raw_ev]
  cases Obl.window5Raw s with
  | nil => rfl
  | cons a l => exact window5Sign_ev ρ l 0 a
theorem scalarMultLut_ev (q : ExtPt K) : (scalarMultLut q).map (evPt ρ) = scalarMultLut (evPt ρ q) := by
  simp only [scalarMultLut, List.map_cons, List.map_nil, add_ev, double_ev, zero_ev]
theorem equal15_ev (a b : I32) : ev ρ (Obl.equal15 a b) = Model.equal15 (ev ρ a) (ev ρ b) := (rfl)
theorem equal30_ev (a b : I32) : ev ρ (Obl.equal30 a b) = Model.equal30 (ev ρ a) (ev ρ b) := (rfl)
theorem negative_ev (a : I32) : ev ρ (Obl.negative a) = Model.negative (ev ρ a) := (rfl)
theorem scalarMultSelectLoop_ev (b : I32) (l : List (ExtPt K)) (j : I32) (t : ExtPt K) :
    evPt ρ (Obl.scalarMultSelectLoop b j l t) =
      Model.scalarMultSelectLoop (ev ρ b) (ev ρ j) (l.map (evPt ρ)) (evPt ρ t) := by
  induction l generalizing j t with
  | nil => rfl
  | cons e l ih =>
    simp only [Obl.scalarMultSelectLoop, Model.scalarMultSelectLoop, List.map_cons, ih, ptCondSet_ev]
    rfl
theorem scalarMultSelect_ev (l : List (ExtPt K)) (b : I32) :
    evPt ρ (Obl.scalarMultSelect l b) = Model.scalarMultSelect (l.map (evPt ρ)) (ev ρ b) := by
  have h := scalarMultSelectLoop_ev ρ b l.tail 1 (l.headD ExtPt.zero)
  have h2 : (l.map (evPt ρ)).headD ExtPt.zero = evPt ρ (l.headD ExtPt.zero) := by
    cases l
    · exact (zero_ev ρ).symm
    · rfl
  have h1 : ev ρ (1 : I32) = 1 := (rfl)
  rw [h1, List.map_tail, ← h2] at h
  simp only [Model.scalarMultSelect, ← h]
  obl [Obl.scalarMultSelect, evPt, negative_ev]
theorem scalarMultStep_ev (l : List (ExtPt K)) (p : ExtPt K) (w : I8) :
    evPt ρ (Obl.scalarMultStep l p w) = Model.scalarMultStep (l.map (evPt ρ)) (evPt ρ p) (ev ρ w) := by
  simp only [Obl.scalarMultStep, Model.scalarMultStep, add_ev, scalarMultSelect_ev, toExtended_ev, toProjective_ev,
    doubleProjective_ev, doubleExtended_ev]
  rfl
theorem scalarMult_fold (l : List (ExtPt K)) (ws : List I8) (p : ExtPt K) :
    evPt ρ (ws.foldl (Obl.scalarMultStep l) p) =
      (ws.map (ev ρ)).foldl (Model.scalarMultStep (l.map (evPt ρ))) (evPt ρ p) := by
  induction ws generalizing p with
  | nil => rfl
  | cons w ws ih => simp only [List.foldl_cons, List.map_cons, ih, scalarMultStep_ev]
theorem scalarMult_ev (q : ExtPt K) (s : SBytes 32) :
    evPt ρ (Obl.scalarMult q s) = Model.scalarMult (evPt ρ q) (evB ρ s) := by
  refine (scalarMult_fold ρ _ _ _).trans ?_
  rw [List.map_reverse, scalarMultLut_ev, zero_ev]
  exact congrArg (fun w : List Int8 => w.reverse.foldl (Model.scalarMultStep (scalarMultLut (evPt ρ q))) ExtPt.zero)
    (computeScalarWindow5_ev ρ s)

theorem tableRow_ev (cp : ExtPt K) (n : Nat) (c : ExtPt K) :
    (tableRow cp n c).1.map (evNp ρ) = (tableRow (evPt ρ cp) n (evPt ρ c)).1 ∧
    evPt ρ (tableRow cp n c).2 = (tableRow (evPt ρ cp) n (evPt ρ c)).2 := by
  induction n generalizing c with
  | zero => simp only [tableRow, List.map_nil, and_self]
  | succ n ih =>
    have h := ih (c.add cp)
    rw [add_ev] at h
    unfold tableRow
    exact ⟨List.cons_eq_cons.2 ⟨by rw [ofExtended_ev, add_ev], h.1⟩, h.2⟩
theorem tableLoop_ev (n : Nat) (cp : ExtPt K) : evTable ρ (tableLoop n cp) = tableLoop n (evPt ρ cp) := by
  induction n generalizing cp with
  | zero => rfl
  | succ n ih =>
    have h := tableRow_ev ρ cp 8 ExtPt.zero
    rw [zero_ev] at h
    unfold tableLoop
    revert h
    generalize (8 : Nat) = k
    intro h
    refine List.cons_eq_cons.2 ⟨h.1, (ih _).trans ?_⟩
    simp only [toExtended_ev, toProjective_ev, doubleProjective_ev, doubleExtended_ev, h.2]
theorem tableCompute_ev (p : ExtPt K) : evTable ρ (tableCompute p) = tableCompute (evPt ρ p) := by
  unfold tableCompute
  exact tableLoop_ev ρ 32 p
theorem window4Raw_ev (s : SBytes 32) : (Obl.window4Raw s).map (ev ρ) = Model.window4Raw (evB ρ s) := by
  simp only [Obl.window4Raw, Model.window4Raw, evB, Vector.toList_map]
  generalize s.toList = l
  induction l with
  | nil => rfl
  | cons b l ih =>
    simp only [List.flatMap_cons, List.map_append, List.map_cons, ih]
    rfl
theorem window4Sign_ev (l : List I8) (c a : I8) :
    (Obl.window4Sign c a l).map (ev ρ) = Model.window4Sign (ev ρ c) (ev ρ a) (l.map (ev ρ)) := by
  induction l generalizing c a with
  | nil => rfl
  | cons b l ih =>
    simp only [Obl.window4Sign, Model.window4Sign, List.map_cons, ih]
    rfl
theorem computeScalarWindow4_ev (s : SBytes 32) :
    (Obl.computeScalarWindow4 s).map (ev ρ) = Model.computeScalarWindow4 (evB ρ s) := by
  simp only [Obl.computeScalarWindow4, Model.computeScalarWindow4, ← window4Raw_ev]
  cases Obl.window4Raw s with
  | nil => rfl
  | cons a l => exact window4Sign_ev ρ l 0 a
theorem selectLoop_ev (b : I32) (l : List (NielsPt K)) (i : I32) (p : NielsPt K) :
    evNp ρ (Obl.selectLoop b i l p) = Model.selectLoop (ev ρ b) (ev ρ i) (l.map (evNp ρ)) (evNp ρ p) := by
  induction l generalizing i p with
  | nil => rfl
  | cons e l ih =>
    simp only [Obl.selectLoop, Model.selectLoop, List.map_cons, ih, nielsCondSet_ev]
    rfl
theorem selectPoint_ev (l : List (NielsPt K)) (b : I32) :
    evNp ρ (Obl.selectPoint l b) = Model.selectPoint (l.map (evNp ρ)) (ev ρ b) := by
  have h0 : evNp ρ (NielsPt.zero : NielsPt K) = NielsPt.zero := by obl [NielsPt.zero, evNp]
  simp only [Obl.selectPoint, Model.selectPoint, nielsCondSet_ev, nielsNeg_ev, selectLoop_ev, h0]
  rfl
theorem tableAddLoop_ev (t : Table K) (ws : List I8) (p : ExtPt K) :
    evPt ρ (Obl.tableAddLoop t ws p) = Model.tableAddLoop (evTable ρ t) (ws.map (ev ρ)) (evPt ρ p) := by
  induction t generalizing ws p with
  | nil => cases ws <;> rfl
  | cons row t ih =>
    cases ws with
    | nil => rfl
    | cons w ws =>
      simp only [evTable] at ih
      simp only [Obl.tableAddLoop, Model.tableAddLoop, evTable, List.map_cons, ih, toExtended_ev, addExtendedNiels_ev,
        selectPoint_ev]
      rfl
theorem evens_map {α β : Type} (f : α → β) : (l : List α) → (evens l).map f = evens (l.map f)
  | [] => rfl
  | [_] => rfl
  | a :: b :: l => by simp only [evens, List.map_cons, evens_map f l]
theorem odds_map {α β : Type} (f : α → β) : (l : List α) → (odds l).map f = odds (l.map f)
  | [] => rfl
  | [_] => rfl
  | a :: b :: l => by simp only [odds, List.map_cons, odds_map f l]
theorem double4_ev (p : ExtPt K) : evPt ρ (double4 p) = double4 (evPt ρ p) := by
  simp only [double4, toExtended_ev, toProjective_ev, doubleProjective_ev, doubleExtended_ev]
theorem tableScalarMult_ev (t : Table K) (s : SBytes 32) :
    evPt ρ (Obl.tableScalarMult t s) = Model.tableScalarMult (evTable ρ t) (evB ρ s) := by
  simp only [Obl.tableScalarMult, Model.tableScalarMult, tableAddLoop_ev, evens_map, odds_map, double4_ev, zero_ev]
  exact congrArg (fun w : List Int8 => Model.tableAddLoop (evTable ρ t) (evens w)
    (double4 (Model.tableAddLoop (evTable ρ t) (odds w) ExtPt.zero))) (computeScalarWindow4_ev ρ s)

/-! ## Elligator -/

theorem jacobi_ev (p : ExtPt K) :
    evJp ρ (Obl.toJacobiQuarticRistretto p).1 = (Model.toJacobiQuarticRistretto (evPt ρ p)).1 ∧
    evJp ρ (Obl.toJacobiQuarticRistretto p).2.1 = (Model.toJacobiQuarticRistretto (evPt ρ p)).2.1 ∧
    evJp ρ (Obl.toJacobiQuarticRistretto p).2.2.1 = (Model.toJacobiQuarticRistretto (evPt ρ p)).2.2.1 ∧
    evJp ρ (Obl.toJacobiQuarticRistretto p).2.2.2 = (Model.toJacobiQuarticRistretto (evPt ρ p)).2.2.2 := by
  obl [Obl.toJacobiQuarticRistretto, Model.toJacobiQuarticRistretto, evPt, evJp, invSqrt_ev, isNonZeroI_ev, i_sub, i_one,
    i_and, and_self]
theorem elligator2Inverse_ev (j : JacPt K) :
    evFe ρ (Obl.elligator2Inverse j).1 = (Model.elligator2Inverse (evJp ρ j)).1 ∧
    ev ρ (Obl.elligator2Inverse j).2 = (Model.elligator2Inverse (evJp ρ j)).2 := by
  obl [Obl.elligator2Inverse, Model.elligator2Inverse, evJp, invSqrtI_fst, invSqrtI_snd, isNonZeroI_ev, isNegativeI_ev,
    feEqualsI_ev, feAbsSelf_ev, i_sub, i_one, i_or, and_self]
/-- A field element and a flag. -/
def evFF (x : K × I32) : F × Int32 := (evFe ρ x.1, ev ρ x.2)
theorem elligator2Inverse_ev' (j : JacPt K) : evFF ρ (Obl.elligator2Inverse j) = Model.elligator2Inverse (evJp ρ j) :=
  Prod.ext (elligator2Inverse_ev ρ j).1 (elligator2Inverse_ev ρ j).2
theorem dual_ev (j : JacPt K) : evJp ρ (elligator2InverseRecv j).dual = (elligator2InverseRecv (evJp ρ j)).dual := by
  obl [elligator2InverseRecv, JacPt.dual, evJp]
theorem ristrettoElligator2Inverse_ev (p : ExtPt K) :
    (Obl.ristrettoElligator2Inverse p).map (evFF ρ) = Model.ristrettoElligator2Inverse (evPt ρ p) := by
  obtain ⟨h1, h2, h3, h4⟩ := jacobi_ev ρ p
  simp only [Obl.ristrettoElligator2Inverse, Model.ristrettoElligator2Inverse, List.flatMap_cons, List.flatMap_nil,
    List.map_append, List.map_cons, List.map_nil, elligator2Inverse_ev', dual_ev, h1, h2, h3, h4]
theorem elligator2Jacobi_ev (r : K) : evJp ρ (Obl.elligator2Jacobi r) = Model.elligator2Jacobi (evFe ρ r) := by
  obl [Obl.elligator2Jacobi, Model.elligator2Jacobi, evJp, invSqrtI_fst, invSqrtI_snd, isNegativeI_ev, equal30_ev,
    feAbsSelf_ev, i_sub, i_one]
theorem setJacobiQuartic_ev (j : JacPt K) : evCp ρ (setJacobiQuartic j) = setJacobiQuartic (evJp ρ j) := by
  obl [setJacobiQuartic, evCp, evJp]
theorem setRistrettoElligator2_ev (r : K) :
    evCp ρ (Obl.setRistrettoElligator2 r) = Model.setRistrettoElligator2 (evFe ρ r) := by
  simp only [Obl.setRistrettoElligator2, Model.setRistrettoElligator2, setJacobiQuartic_ev, elligator2Jacobi_ev]
theorem setElligator_ev (b : SBytes 32) : evPt ρ (Obl.setElligator b : ExtPt K) = Point.setElligator (evB ρ b) := by
  simp only [Obl.setElligator, Point.setElligator, toExtended_ev, setRistrettoElligator2_ev, o_setBytes]

/-! ## Scalars -/

/-- The value of a scalar. -/
def evS (s : SScalar) : Scalar := s.map (ev ρ)
theorem s_get (v : SScalar) (i : Nat) (h : i < 8) : (evS ρ v)[i] = ev ρ v[i] := by simp [evS]
theorem s_mk (a b c d e f g h : U32) :
    evS ρ #v[a, b, c, d, e, f, g, h] = #v[ev ρ a, ev ρ b, ev ρ c, ev ρ d, ev ρ e, ev ρ f, ev ρ g, ev ρ h] := by
  simp [evS]
theorem scZero_ev : evS ρ Obl.scZero = Model.scZero := by
  simp only [evS, Obl.scZero, Vector.map_map]; exact Vector.map_id _
theorem scL_ev : evS ρ Obl.scL = Model.scL := by
  simp only [evS, Obl.scL, Vector.map_map]; exact Vector.map_id _
theorem sBytes_ev (s : SScalar) : evB ρ (Sc.bytes s) = Scalar.bytes (evS ρ s) := by
  simp only [Sc.bytes, Scalar.bytes, evB, s_get, Vector.map_mk, List.map_toArray, List.map_cons, List.map_nil]
  rfl
theorem subStep_ev (a b : U32) (c : U64) : ev ρ (Sc.subStep a b c) = Scalar.subStep (ev ρ a) (ev ρ b) (ev ρ c) := (rfl)
theorem addStep_ev (a b : U32) (c : U64) : ev ρ (Sc.addStep a b c) = Scalar.addStep (ev ρ a) (ev ρ b) (ev ρ c) := (rfl)
theorem addBackStep_ev (a : U32) (b c d : U64) :
    ev ρ (Sc.addBackStep a b c d) = Scalar.addBackStep (ev ρ a) (ev ρ b) (ev ρ c) (ev ρ d) := (rfl)
theorem c_u32 (a : U64) : ev ρ a.toUInt32 = UInt64.toUInt32 (ev ρ a) := (rfl)
/-- The second half of `Scalar.Sub` (scalar.go:160-190) after the borrow chain. -/
def subTailS (w0 w1 w2 w3 w4 w5 w6 w7 : U64) : SScalar :=
  let ufMask := ((w7 >>> 63) ^^^ 1) - 1
  let c0 := Sc.addBackStep w0.toUInt32 0 ufMask 0x5CF5D3ED
  let c1 := Sc.addBackStep w1.toUInt32 c0 ufMask 0x5812631A
  let c2 := Sc.addBackStep w2.toUInt32 c1 ufMask 0xA2F79CD6
  let c3 := Sc.addBackStep w3.toUInt32 c2 ufMask 0x14DEF9DE
  let c4 := Sc.addBackStep w4.toUInt32 c3 ufMask 0
  let c5 := Sc.addBackStep w5.toUInt32 c4 ufMask 0
  let c6 := Sc.addBackStep w6.toUInt32 c5 ufMask 0
  let c7 := Sc.addBackStep w7.toUInt32 c6 ufMask 0x10000000
  #v[c0.toUInt32, c1.toUInt32, c2.toUInt32, c3.toUInt32, c4.toUInt32, c5.toUInt32, c6.toUInt32,
     c7.toUInt32]
/-- The same on words. -/
def subTail (w0 w1 w2 w3 w4 w5 w6 w7 : UInt64) : Scalar :=
  let ufMask := ((w7 >>> 63) ^^^ 1) - 1
  let c0 := Scalar.addBackStep w0.toUInt32 0 ufMask 0x5CF5D3ED
  let c1 := Scalar.addBackStep w1.toUInt32 c0 ufMask 0x5812631A
  let c2 := Scalar.addBackStep w2.toUInt32 c1 ufMask 0xA2F79CD6
  let c3 := Scalar.addBackStep w3.toUInt32 c2 ufMask 0x14DEF9DE
  let c4 := Scalar.addBackStep w4.toUInt32 c3 ufMask 0
  let c5 := Scalar.addBackStep w5.toUInt32 c4 ufMask 0
  let c6 := Scalar.addBackStep w6.toUInt32 c5 ufMask 0
  let c7 := Scalar.addBackStep w7.toUInt32 c6 ufMask 0x10000000
  #v[c0.toUInt32, c1.toUInt32, c2.toUInt32, c3.toUInt32, c4.toUInt32, c5.toUInt32, c6.toUInt32,
     c7.toUInt32]
theorem subTail_ev (w0 w1 w2 w3 w4 w5 w6 w7 : U64) : evS ρ (subTailS w0 w1 w2 w3 w4 w5 w6 w7) =
    subTail (ev ρ w0) (ev ρ w1) (ev ρ w2) (ev ρ w3) (ev ρ w4) (ev ρ w5) (ev ρ w6) (ev ρ w7) := by
  rw [subTailS, s_mk]
  rfl
theorem sub_tail (a b : Scalar) : Scalar.sub a b =
    (let w0 := Scalar.subStep a[0] b[0] 0
     let w1 := Scalar.subStep a[1] b[1] w0
     let w2 := Scalar.subStep a[2] b[2] w1
     let w3 := Scalar.subStep a[3] b[3] w2
     let w4 := Scalar.subStep a[4] b[4] w3
     let w5 := Scalar.subStep a[5] b[5] w4
     let w6 := Scalar.subStep a[6] b[6] w5
     let w7 := Scalar.subStep a[7] b[7] w6
     subTail w0 w1 w2 w3 w4 w5 w6 w7) := (rfl)
theorem sub_tailS (a b : SScalar) : Sc.sub a b =
    (let w0 := Sc.subStep a[0] b[0] 0
     let w1 := Sc.subStep a[1] b[1] w0
     let w2 := Sc.subStep a[2] b[2] w1
     let w3 := Sc.subStep a[3] b[3] w2
     let w4 := Sc.subStep a[4] b[4] w3
     let w5 := Sc.subStep a[5] b[5] w4
     let w6 := Sc.subStep a[6] b[6] w5
     let w7 := Sc.subStep a[7] b[7] w6
     subTailS w0 w1 w2 w3 w4 w5 w6 w7) := (rfl)
theorem k_0 : ev ρ (0 : U64) = 0 := (rfl)
theorem sSub_ev (a b : SScalar) : evS ρ (Sc.sub a b) = Scalar.sub (evS ρ a) (evS ρ b) := by
  rw [sub_tailS, sub_tail]
  simp only [subTail_ev, subStep_ev, s_get, k_0]
theorem sAddRaw_ev (a b : SScalar) : evS ρ (Sc.addRaw a b) = Scalar.addRaw (evS ρ a) (evS ρ b) := by
  simp only [Sc.addRaw, s_mk, Scalar.addRaw, s_get, c_u32, addStep_ev]
  rfl
theorem sAdd_ev (a b : SScalar) : evS ρ (Sc.add a b) = Scalar.add (evS ρ a) (evS ρ b) := by
  simp only [Sc.add, Scalar.add, sSub_ev, sAddRaw_ev, scL_ev]
theorem sNeg_ev (a : SScalar) : evS ρ (Sc.neg a) = Scalar.neg (evS ρ a) := by
  simp only [Sc.neg, Scalar.neg, sSub_ev, scZero_ev]
theorem words_ev (x : SBytes 32) : evS ρ (Sc.words x) = Scalar.words (evB ρ x) := by
  simp only [Sc.words, Scalar.words, s_mk, b_get]
  rfl
theorem sSetBytes_ev (x : SBytes 32) : evS ρ (Sc.setBytes x) = Scalar.setBytes (evB ρ x) := by
  simp only [Sc.setBytes, Scalar.setBytes, sSub_ev, scL_ev, s_mk, ← words_ev, s_get]
  rfl

/-- The variables of the reduction. -/
def evL (s : Sc.Limbs) : Scalar.Limbs := fun i => ev ρ (s i)
theorem set_ev (s : Sc.Limbs) (i : Nat) (v : I64) : evL ρ (Sc.Limbs.set s i v) = Scalar.Limbs.set (evL ρ s) i (ev ρ v) := by
  funext k
  simp only [evL, Sc.Limbs.set, Scalar.Limbs.set]
  split <;> rfl
theorem ofList_ev (l : List I64) : evL ρ (Sc.Limbs.ofList l) = Scalar.Limbs.ofList (l.map (ev ρ)) := by
  funext k
  simp only [evL, Sc.Limbs.ofList, Scalar.Limbs.ofList, List.getD_eq_getElem?_getD, List.getElem?_map]
  cases l[k]? <;> rfl
theorem l_get (s : Sc.Limbs) (i : Nat) : ev ρ (s i) = evL ρ s i := (rfl)
theorem j_add (a b : I64) : ev ρ (a + b) = (ev ρ a + ev ρ b : Int64) := (rfl)
theorem j_sub (a b : I64) : ev ρ (a - b) = (ev ρ a - ev ρ b : Int64) := (rfl)
theorem j_mul (a b : I64) : ev ρ (a * b) = (ev ρ a * ev ρ b : Int64) := (rfl)
theorem j_neg (a : I64) : ev ρ (-a) = (-(ev ρ a) : Int64) := (rfl)
theorem j_shl (a : I64) (n : Nat) : ev ρ (a <<< n) = (ev ρ a <<< (Int64.ofNat n) : Int64) := (rfl)
theorem j_shr (a : I64) (n : Nat) : ev ρ (a >>> n) = (ev ρ a >>> (Int64.ofNat n) : Int64) := (rfl)
theorem redExec_ev (o : Scalar.RedOp) (s : Sc.Limbs) : evL ρ (Sc.redExec o s) = o.exec (evL ρ s) := by
  cases o <;>
  · simp only [Sc.redExec, Scalar.RedOp.exec, set_ev, j_add, j_sub, j_mul, l_get]
    rfl
theorem execAll_ev (os : List Scalar.RedOp) (s : Sc.Limbs) : evL ρ (Sc.execAll os s) = Scalar.execAll os (evL ρ s) := by
  simp only [Sc.execAll, Scalar.execAll]
  induction os generalizing s with
  | nil => rfl
  | cons o os ih => simp only [List.foldl_cons, ih, redExec_ev]
theorem pack_ev (s : Sc.Limbs) : evS ρ (Sc.pack s) = Scalar.pack (evL ρ s) := by
  simp only [Sc.pack, Scalar.pack, s_mk]
  rfl
theorem reduceAfterMul_ev (l : List I64) : evS ρ (Sc.reduceAfterMul l) = Scalar.reduceAfterMul (l.map (ev ρ)) := by
  simp only [Sc.reduceAfterMul, Scalar.reduceAfterMul, pack_ev, execAll_ev, ofList_ev]
theorem unpack_ev (a : SScalar) : (fun i => ev ρ (Sc.unpack a i)) = Scalar.unpack (evS ρ a) := by
  funext i
  unfold Sc.unpack Scalar.unpack
  split <;> simp only [s_get] <;> rfl
theorem unpack_ev' (a : SScalar) (i : Nat) : ev ρ (Sc.unpack a i) = Scalar.unpack (evS ρ a) i := congrFun (unpack_ev ρ a) i
theorem two_ev : ev ρ (2 : I64) = 2 := (rfl)
theorem sMul_ev (a b : SScalar) : evS ρ (Sc.mul a b) = Scalar.mul (evS ρ a) (evS ρ b) := by
  simp only [Sc.mul, Scalar.mul, reduceAfterMul_ev, Sc.mulArgs, Scalar.mulArgs, List.map_cons, List.map_nil, j_add, j_mul, unpack_ev']
theorem sSquare_ev (a : SScalar) : evS ρ (Sc.square a) = Scalar.square (evS ρ a) := by
  simp only [Sc.square, Scalar.square, reduceAfterMul_ev, Sc.squareArgs, Scalar.squareArgs, List.map_cons, List.map_nil, j_add, j_mul,
    unpack_ev', two_ev]
theorem sMulAdd_ev (a b c : SScalar) : evS ρ (Sc.mulAdd a b c) = Scalar.mulAdd (evS ρ a) (evS ρ b) (evS ρ c) := by
  simp only [Sc.mulAdd, Scalar.mulAdd, reduceAfterMul_ev, Sc.mulAddArgs, Scalar.mulAddArgs, List.map_cons, List.map_nil, j_add, j_mul,
    unpack_ev']
theorem sMulSub_ev (a b c : SScalar) : evS ρ (Sc.mulSub a b c) = Scalar.mulSub (evS ρ a) (evS ρ b) (evS ρ c) := by
  simp only [Sc.mulSub, Scalar.mulSub, reduceAfterMul_ev, Sc.mulSubArgs, Scalar.mulSubArgs, List.map_cons, List.map_nil, j_add, j_mul,
    j_neg, unpack_ev']
theorem byteAt_ev (t : SBytes 64) (i : Nat) : ev ρ (Sc.byteAt t i) = Scalar.byteAt (evB ρ t) i := by
  have h : (evB ρ t).toList.getD i 0 = ev ρ (t.toList.getD i 0) := by
    simp only [evB, Vector.toList_map, List.getD_eq_getElem?_getD, List.getElem?_map]
    cases t.toList[i]? <;> rfl
  simp only [Scalar.byteAt, h]
  rfl
theorem load3_ev (t : SBytes 64) (i : Nat) : ev ρ (Sc.load3 t i) = Scalar.load3 (evB ρ t) i := by
  simp only [Scalar.load3, ← byteAt_ev]; rfl
theorem load4_ev (t : SBytes 64) (i : Nat) : ev ρ (Sc.load4 t i) = Scalar.load4 (evB ρ t) i := by
  simp only [Scalar.load4, ← byteAt_ev]; rfl
theorem unpack64_ev (t : SBytes 64) : (Sc.unpack64 t).map (ev ρ) = Scalar.unpack64 (evB ρ t) := by
  simp only [Scalar.unpack64, ← load3_ev, ← load4_ev]
  rfl
theorem setReduced_ev (t : SBytes 64) : evS ρ (Sc.setReduced t) = Scalar.setReduced (evB ρ t) := by
  unfold Sc.setReduced Scalar.setReduced
  rw [pack_ev, execAll_ev, ofList_ev]
  exact congrArg (fun l : List Int64 => Scalar.pack (Scalar.execAll Scalar.reduceTail (Scalar.Limbs.ofList l))) (unpack64_ev ρ t)
theorem invExec_ev (os : List Scalar.InvOp) (r : Nat → SScalar) (i : Nat) :
    evS ρ (os.foldl (fun r o => o.exec Sc.mul Sc.square r) r i) =
      os.foldl (fun r o => o.exec Scalar.mul Scalar.square r) (fun i => evS ρ (r i)) i := by
  induction os generalizing r with
  | nil => rfl
  | cons o os ih =>
    have h : (fun k => evS ρ (o.exec Sc.mul Sc.square r k)) = o.exec Scalar.mul Scalar.square (fun i => evS ρ (r i)) := by
      funext k
      cases o <;>
      · simp only [Scalar.InvOp.exec, Scalar.setReg]
        split <;> simp only [sMul_ev, sSquare_ev]
    simp only [List.foldl_cons, ih, h]
theorem repeat_ev (n : Nat) (s : SScalar) : evS ρ (Nat.repeat Sc.square n s) = Nat.repeat Scalar.square n (evS ρ s) := by
  induction n with
  | zero => rfl
  | succ n ih => simp only [Nat.repeat, sSquare_ev, ih]
theorem inverse_ev (t : SScalar) : evS ρ (Sc.inverse t) = Scalar.inverse (evS ρ t) := by
  have h : (fun k => evS ρ (if k = 6 then t else Obl.scZero)) = (fun k => if k = 6 then evS ρ t else Model.scZero) := by
    funext k
    split <;> simp only [scZero_ev]
  simp only [Sc.inverse, Scalar.inverse, sMul_ev, repeat_ev, invExec_ev, h]
theorem sIsNonZeroI_ev (s : SScalar) : ev ρ (Sc.isNonZeroI s) = Scalar.isNonZeroI (evS ρ s) := by
  simp only [Scalar.isNonZeroI, s_get]; rfl
theorem sEqualsI_ev (s a : SScalar) : ev ρ (Sc.equalsI s a) = Scalar.equalsI (evS ρ s) (evS ρ a) := by
  simp only [Sc.equalsI, Scalar.equalsI, i_sub, i_one, sIsNonZeroI_ev, sSub_ev]
theorem sCondSet_ev (s t : SScalar) (b : I32) : evS ρ (Sc.condSet s t b) = Scalar.condSet (evS ρ s) (evS ρ t) (ev ρ b) := by
  simp only [Sc.condSet, Scalar.condSet, s_mk, s_get]
  rfl
theorem setUint64_ev (x : U64) : evS ρ (Sc.setUint64 x) = Scalar.setUint64 (ev ρ x) := by
  unfold Sc.setUint64 Scalar.setUint64
  rw [sSetBytes_ev]
  refine congrArg Scalar.setBytes ?_
  apply Vector.ext
  intro i hi
  simp only [evB, Vector.getElem_map, Vector.getElem_ofFn]
  split <;> rfl
theorem deriveShort_ev (h : SBytes 64) : evS ρ (Sc.deriveShort h) = Scalar.deriveShort (evB ρ h) := by
  simp only [Sc.deriveShort, Scalar.deriveShort, s_mk, b_get]
  rfl

/-! ## Points and scalars -/

theorem pointScalarMult_ev (q : ExtPt K) (s : SScalar) :
    evPt ρ (pointScalarMult q s) = Point.scalarMult (evPt ρ q) (evS ρ s) := by
  simp only [pointScalarMult, Point.scalarMult, scalarMult_ev, sBytes_ev]
theorem scalarMultTable_ev (t : Table K) (s : SScalar) :
    evPt ρ (scalarMultTable t s) = Point.scalarMultTable (evTable ρ t) (evS ρ s) := by
  simp only [scalarMultTable, Point.scalarMultTable, tableScalarMult_ev, sBytes_ev]
theorem slice_ev {m : Nat} (v : SBytes m) (a n : Nat) : evB ρ (Obl.slice v a n) = Model.slice (evB ρ v) a n := by
  apply Vector.ext
  intro i hi
  simp only [evB, Obl.slice, Model.slice, Vector.getElem_map, Vector.getElem_ofFn, Vector.toList_map,
    List.getD_eq_getElem?_getD, List.getElem?_map]
  cases v.toList[a + i]? <;> rfl

/-! ## Lizard -/

variable (shaS : List U8 → SBytes 32) (sha : List UInt8 → Bytes 32)

theorem lizardBuf_ev (hs : ∀ l, evB ρ (shaS l) = sha (l.map (ev ρ))) (d : SBytes 16) :
    evB ρ (Obl.lizardBuf shaS d) = Point.lizardBuf sha (evB ρ d) := by
  have h : sha (evB ρ d).toList = evB ρ (shaS d.toList) := by rw [hs, evB, Vector.toList_map]
  apply Vector.ext
  intro i hi
  simp only [Point.lizardBuf, h, Obl.lizardBuf]
  simp only [evB, Vector.getElem_map, Vector.getElem_ofFn, Vector.toList_map, List.getD_eq_getElem?_getD, List.getElem?_map,
    Fin.getElem_fin]
  split
  · cases d.toList[i - 8]? <;> rfl
  · split
    · rfl
    · split <;> rfl
theorem setLizard_ev (hs : ∀ l, evB ρ (shaS l) = sha (l.map (ev ρ))) (d : SBytes 16) :
    evPt ρ (Obl.setLizard shaS d : ExtPt K) = Point.setLizard sha (evB ρ d) := by
  simp only [Obl.setLizard, Point.setLizard, toExtended_ev, setRistrettoElligator2_ev, o_setBytes,
    lizardBuf_ev ρ shaS sha hs]
theorem inverseMask_ev (l : List (K × I32)) (j : Nat) :
    ev ρ (Obl.inverseMask j l) = Point.inverseMask j (l.map (evFF ρ)) := by
  induction l generalizing j with
  | nil => rfl
  | cons e l ih =>
    simp only [Obl.inverseMask, List.map_cons, Point.inverseMask, ← ih]
    rfl
theorem copy_byte (v x y : UInt8) (hv : v = 0 ∨ v = 1) :
    (x &&& (v - 1)) ||| (y &&& ((v - 1) ^^^ 255)) = if v = 1 then y else x := by
  rcases hv with rfl | rfl
  · have h1 : ((0 : UInt8) - 1) = 255 := by decide
    have h2 : ((255 : UInt8) ^^^ 255) = 0 := by decide
    have h3 : x &&& 255 = x := by revert x; exact uint8_forall (by decide +kernel)
    simp [h1, h3]
  · have h1 : ((1 : UInt8) - 1) = 0 := by decide
    have h3 : y &&& 255 = y := by revert y; exact uint8_forall (by decide +kernel)
    simp [h1, h3]
theorem constantTimeCopy_ev {n : Nat} (v : U8) (x y : SBytes n) (hv : (ev ρ v : UInt8) = 0 ∨ (ev ρ v : UInt8) = 1) :
    evB ρ (Obl.constantTimeCopy v x y) = if (ev ρ v : UInt8) = 1 then evB ρ y else evB ρ x := by
  apply Vector.ext
  intro i hi
  have h : (evB ρ (Obl.constantTimeCopy v x y))[i] =
      (((ev ρ x[i] : UInt8) &&& (ev ρ v - 1)) ||| ((ev ρ y[i] : UInt8) &&& ((ev ρ v - 1) ^^^ 255)) : UInt8) := by
    simp only [evB, Obl.constantTimeCopy, Vector.getElem_map, Vector.getElem_ofFn, Fin.getElem_fin]
    rfl
  rw [h, copy_byte _ _ _ hv]
  split <;> simp [evB]
theorem and_bit (a b : UInt8) : (a &&& 1) &&& b = 0 ∨ (a &&& 1) &&& b = 1 := by
  have h : ∀ b : UInt8, (1 : UInt8) &&& b = 0 ∨ (1 : UInt8) &&& b = 1 := uint8_forall (by decide +kernel)
  have h1 : ∀ a : UInt8, a &&& 1 = 0 ∨ a &&& 1 = 1 := uint8_forall (by decide +kernel)
  rcases h1 a with h2 | h2 <;> rw [h2]
  · left; simp
  · exact h b
/-- A buffer and a counter. -/
def evBU {n : Nat} (x : SBytes n × U8) : Bytes n × UInt8 := (evB ρ x.1, ev ρ x.2)
theorem lizardStep_ev (hs : ∀ l, evB ρ (shaS l) = sha (l.map (ev ρ))) (m : U8) (fe : K) (j : Nat) (st : SBytes 16 × U8) :
    evBU ρ (Obl.lizardStep shaS m fe j st) = Point.lizardStep sha (ev ρ m) (evFe ρ fe) j (evBU ρ st) := by
  have hb := lizardBuf_ev ρ shaS sha hs (Obl.slice (bytesS fe) 8 16)
  rw [slice_ev, o_bytes] at hb
  have hc := constantTimeCompare_ev ρ (Obl.lizardBuf shaS (Obl.slice (bytesS fe) 8 16)) (bytesS fe)
  rw [hb, o_bytes] at hc
  have hok : (ev ρ (((m >>> j) &&& (1 : U8)) &&& (Obl.constantTimeCompare (Obl.lizardBuf shaS (Obl.slice (bytesS fe) 8 16))
      (bytesS fe)).toUInt32.toUInt8) : UInt8) = (((ev ρ m : UInt8) >>> UInt8.ofNat j) &&& 1) &&&
      (ExtPt.constantTimeCompare (Point.lizardBuf sha (Model.slice (bytes (evFe ρ fe)) 8 16)) (bytes (evFe ρ fe))).toUInt32.toUInt8 := by
    rw [← hc]; rfl
  have hv : (ev ρ (((m >>> j) &&& (1 : U8)) &&& (Obl.constantTimeCompare (Obl.lizardBuf shaS (Obl.slice (bytesS fe) 8 16))
      (bytesS fe)).toUInt32.toUInt8) : UInt8) = 0 ∨ (ev ρ (((m >>> j) &&& (1 : U8)) &&& (Obl.constantTimeCompare (Obl.lizardBuf shaS (Obl.slice (bytesS fe) 8 16))
      (bytesS fe)).toUInt32.toUInt8) : UInt8) = 1 := by
    rw [hok]; exact and_bit _ _
  have hcopy := constantTimeCopy_ev ρ _ st.1 (Obl.slice (bytesS fe) 8 16) hv
  rw [hok, slice_ev, o_bytes] at hcopy
  have hn (x y : U8) : (ev ρ (x + y) : UInt8) = ev ρ x + ev ρ y := (rfl)
  exact Prod.ext hcopy ((hn _ _).trans (congrArg (fun v : UInt8 => (ev ρ st.2 : UInt8) + v) hok))
theorem lizardLoop_ev (hs : ∀ l, evB ρ (shaS l) = sha (l.map (ev ρ))) (m : U8) (l : List K) (j : Nat) (st : SBytes 16 × U8) :
    evBU ρ (Obl.lizardLoop shaS m j l st) = Point.lizardLoop sha (ev ρ m) j (l.map (evFe ρ)) (evBU ρ st) := by
  induction l generalizing j st with
  | nil => rfl
  | cons fe l ih => simp only [Obl.lizardLoop, Point.lizardLoop, List.map_cons, ih, lizardStep_ev ρ shaS sha hs]

theorem lizardInto_ev (hs : ∀ l, evB ρ (shaS l) = sha (l.map (ev ρ))) (p : ExtPt K) (b : SBytes 16) :
    evBU ρ (Obl.lizardInto shaS p b) =
      Point.lizardLoop sha (Point.inverseMask 0 (Model.ristrettoElligator2Inverse (evPt ρ p))) 0
        ((Model.ristrettoElligator2Inverse (evPt ρ p)).map (·.1)) (evB ρ b, 0) := by
  have h1 : ((Obl.ristrettoElligator2Inverse p).map (·.1)).map (evFe ρ) =
      (Model.ristrettoElligator2Inverse (evPt ρ p)).map (·.1) := by
    rw [← ristrettoElligator2Inverse_ev, List.map_map, List.map_map]
    rfl
  unfold Obl.lizardInto
  rw [lizardLoop_ev ρ shaS sha hs, inverseMask_ev, ristrettoElligator2Inverse_ev, h1]
  rfl

end
end Ristretto.Proofs.Obl
