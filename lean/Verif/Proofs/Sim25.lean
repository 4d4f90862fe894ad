import Verif.Proofs.Ideal
import Verif.Proofs.Curve25
import Verif.Proofs.FieldFlags
import Verif.Proofs.SimMachine
import Verif.Proofs.Api
import Verif.Model.BaseTable25

/-!
# The generic field implementation against the ideal one

`R n a x`: the ten limbs `a` are within `n` tight units and stand for `x`.  The laws of `SimField` hold.
-/

namespace Ristretto.Proofs
open Model FieldOps
set_option autoImplicit false

namespace Fe25
open Sim (F2)

/-- The limbs `a` are within `n` tight units and stand for `x`. -/
def R (n : ℕ) (a : Fe25) (x : Fp) : Prop := bu n a ∧ feVal25 a = x

theorem flag_flag (b : Prop) [Decidable b] : Sim.Flag (flag b) := by
  unfold flag Sim.Flag
  by_cases h : b <;> simp [h]

namespace R
variable {m n : ℕ} {a b : Fe25} {x y : Fp}

theorem mono (h : R m a x) (hmn : m ≤ n := by norm_num) : R n a x := ⟨bu_mono hmn h.1, h.2⟩

theorem add (h : R m a x) (h' : R n b y) (hmn : m + n ≤ 10 := by norm_num) :
    R (m + n) (FieldOps.add a b) (FieldOps.add x y) := by
  obtain ⟨h1, h2⟩ := bu_add h.1 h'.1 hmn
  exact ⟨h1, by rw [h2, h.2, h'.2]; rfl⟩

theorem sub (h : R m a x) (h' : R n b y) (hmn : m + n ≤ 10 := by norm_num) :
    R (m + n) (FieldOps.sub a b) (FieldOps.sub x y) := by
  obtain ⟨h1, h2⟩ := bu_sub h.1 h'.1 hmn
  exact ⟨h1, by rw [h2, h.2, h'.2]; rfl⟩

theorem neg (h : R m a x) (hm : m ≤ 10 := by norm_num) : R m (FieldOps.neg a) (FieldOps.neg x) := by
  obtain ⟨h1, h2⟩ := bu_neg h.1 hm
  exact ⟨h1, by rw [h2, h.2]; rfl⟩

theorem l27 (h : R m a x) (hm : m ≤ 4 := by norm_num) : Limbs25 (2 ^ 27) (2 ^ 27) a :=
  Limbs25.mono (bu_mono hm h.1) (by decide) (by decide)
theorem l19 (h : R m a x) (hm : m ≤ 3 := by norm_num) : Limbs25 times19 times19 a := bu_19 (bu_mono hm h.1)
theorem lb (h : R m a x) (hm : m ≤ 3 := by norm_num) : Limbs25 bytesB bytesB a :=
  Limbs25.mono (bu_mono hm h.1) (by decide) (by decide)

theorem mulS (h : R m a x) (hb : Limbs25 times19 times19 b) (hy : feVal25 b = y) (hm : m ≤ 4 := by norm_num) :
    R 1 (FieldOps.mul a b) (FieldOps.mul x y) := by
  obtain ⟨h1, h2⟩ := bu_mul (h.l27 hm) hb
  exact ⟨h1, by rw [h2, h.2, hy]; rfl⟩

theorem mul (h : R m a x) (h' : R n b y) (hm : m ≤ 4 := by norm_num) (hn : n ≤ 3 := by norm_num) :
    R 1 (FieldOps.mul a b) (FieldOps.mul x y) := h.mulS (h'.l19 hn) h'.2 hm

theorem sq (h : R m a x) (hm : m ≤ 4 := by norm_num) : R 1 (FieldOps.square a) (FieldOps.square x) := by
  obtain ⟨h1, h2⟩ := bu_square (h.l27 hm)
  exact ⟨h1, by rw [h2, h.2]; rfl⟩

theorem dsq (h : R m a x) (hm : m ≤ 3 := by norm_num) :
    R 1 (FieldOps.doubledSquare a) (FieldOps.doubledSquare x) := by
  obtain ⟨h1, h2⟩ := bu_doubledSquare (h.l19 hm)
  exact ⟨h1, by rw [h2, h.2]; rfl⟩

theorem norm (h : R m a x) : R 1 (FieldOps.normalize a) (FieldOps.normalize x) := by
  obtain ⟨h1, h2⟩ := normalize_spec a
  exact ⟨bu_tight h1, h2.trans h.2⟩

theorem bytes (h : R m a x) (hm : m ≤ 3 := by norm_num) : FieldOps.bytes a = FieldOps.bytes x := by
  apply leVal_inj
  rw [LawfulField.bytes_law (F := Fp) (a := x) trivial]
  exact (bytes_spec a (h.lb hm)).trans (by rw [h.2]; rfl)

theorem touch (h : R m a x) (hm : m ≤ 3 := by norm_num) : R 2 (FieldOps.touch a) (FieldOps.touch x) := by
  obtain ⟨h1, h2⟩ := touch_spec a (h.lb hm)
  exact ⟨Limbs25.mono h1 (by decide) (by decide), h2.trans h.2⟩

theorem isNeg (h : R m a x) (hm : m ≤ 3 := by norm_num) : F2 (isNegativeI a) (isNegativeI x) := by
  refine ⟨?_, ?_⟩
  · unfold isNegativeI; rw [h.bytes hm]
  · rw [isNegativeI_spec (F := Fp) (x := x) trivial]; exact flag_flag _

theorem isNonZero (h : R m a x) (hm : m ≤ 3 := by norm_num) : F2 (isNonZeroI a) (isNonZeroI x) := by
  refine ⟨?_, ?_⟩
  · unfold isNonZeroI; rw [h.bytes hm]
  · rw [isNonZeroI_spec (F := Fp) (x := x) trivial]; exact flag_flag _

theorem cond {c c' : Int32} (h : R n a x) (h' : R n b y) (hc : F2 c c') :
    R n (condSet a b c) (condSet x y c') := by
  obtain ⟨rfl, hc⟩ := hc
  rcases hc with rfl | rfl
  · rw [show FieldOps.condSet a b 0 = a from condSet_zero a b]; exact h
  · rw [show FieldOps.condSet a b 1 = b from condSet_one a b]; exact h'

end R

theorem R.of_nat {a : Fe25} {n : ℕ} {x : Fp} {m : ℕ} (hb : Limbs25 (m * 2 ^ 25) (m * (2 ^ 24 + 2 ^ 16)) a)
    (hx : feInt25 a % p = (n : ℤ) % p) (h : (n : Fp) = x) : R m a x := by
  refine ⟨hb, ?_⟩
  unfold feVal25
  rw [← h, ← Int.cast_natCast (R := Fp) n]
  exact (ZMod.intCast_eq_intCast_iff _ _ _).2 hx

theorem R.setBytes (b : Bytes 32) : R 1 (FieldOps.setBytes b : Fe25) (FieldOps.setBytes b : Fp) := by
  obtain ⟨h1, h2⟩ := setBytes_spec b
  exact ⟨bu_tight h1, h2⟩

/-! The constants -/

local macro "dk" : tactic => `(tactic| decide +kernel)

theorem rZero : R 1 (feZero : Fe25) (feZero : Fp) := .of_nat (n := 0) (by dk) (by dk) (by simp; rfl)
theorem rOne : R 1 (feOne : Fe25) (feOne : Fp) := .of_nat (n := 1) (by dk) (by dk) (by simp; rfl)
theorem rMinusOne : R 1 (feMinusOne : Fe25) (feMinusOne : Fp) := .of_nat (n := p - 1) (by dk) (by dk)
  (by rw [Nat.cast_sub (by norm_num [p])]; simp; rfl)
theorem rI : R 1 (feI : Fe25) (feI : Fp) := .of_nat (by dk)
  (n := 19681161376707505956807079304988542015446066515923890162744021073123829784752) (by dk) rfl
theorem rD : R 1 (feD : Fe25) (feD : Fp) := .of_nat (n := dNat) (by dk) (by dk) (by rw [← d_eq]; rfl)
theorem r2D : R 1 (fe2D : Fe25) (fe2D : Fp) := .of_nat (n := 2 * dNat) (by dk) (by dk)
  (by push_cast; rw [← d_eq]; rfl)
theorem rInvSqrtMinusDMinusOne : R 1 (feInvSqrtMinusDMinusOne : Fe25) (feInvSqrtMinusDMinusOne : Fp) :=
  .of_nat (n := 3426737609748780790789678635598812321241395039892825098523479107644843802371) (by dk) (by dk) rfl
theorem rDoubleInvSqrtMinusDMinusOne :
    R 1 (feDoubleInvSqrtMinusDMinusOne : Fe25) (feDoubleInvSqrtMinusDMinusOne : Fp) :=
  .of_nat (n := 2 * 3426737609748780790789678635598812321241395039892825098523479107644843802371) (by dk) (by dk)
    (by rw [Nat.cast_mul]; rfl)
theorem rDoubleIInvSqrtMinusDMinusOne :
    R 1 (feDoubleIInvSqrtMinusDMinusOne : Fe25) (feDoubleIInvSqrtMinusDMinusOne : Fp) :=
  .of_nat (n := 2 * 19681161376707505956807079304988542015446066515923890162744021073123829784752 * 3426737609748780790789678635598812321241395039892825098523479107644843802371) (by dk) (by dk)
    (by rw [Nat.cast_mul, Nat.cast_mul]; rfl)
theorem rDMinusOneSquared : R 1 (feDMinusOneSquared : Fe25) (feDMinusOneSquared : Fp) :=
  .of_nat (n := (dNat - 1) ^ 2) (by dk) (by dk)
    (by rw [Nat.cast_pow, Nat.cast_sub (by norm_num [dNat]), ← d_eq, Nat.cast_one]; rfl)
theorem rOneMinusDSquared : R 1 (feOneMinusDSquared : Fe25) (feOneMinusDSquared : Fp) :=
  .of_nat (n := 1 + (p - 1) * dNat ^ 2) (by dk) (by dk)
    (by rw [Nat.cast_add, Nat.cast_mul, Nat.cast_sub (by norm_num [p]), Nat.cast_pow, ← d_eq]
        show _ = 1 - d ^ 2
        simp; ring)
theorem rDp1OverDm1 : R 1 (feDp1OverDm1 : Fe25) (feDp1OverDm1 : Fp) := by
  refine ⟨show Limbs25 _ _ _ by dk, ?_⟩
  show _ = (d + 1) / (d - 1)
  rw [eq_div_iff d_sub_one_ne_zero]
  have h : ((feInt25 (feDp1OverDm1 : Fe25) * ((dNat : ℤ) - 1) : ℤ) : Fp) = (((dNat : ℤ) + 1 : ℤ) : Fp) :=
    (ZMod.intCast_eq_intCast_iff _ _ _).2 (by dk)
  push_cast at h
  rw [d_eq]
  exact h
theorem rSqrtID : R 1 (feSqrtID : Fe25) (feSqrtID : Fp) := .of_nat (by dk)
  (n := 2578418914173623657462452400132853037496623284081085243786733881681055062952) (by dk) rfl
theorem rInvSqrt1pD : R 1 (feInvSqrt1pD : Fe25) (feInvSqrt1pD : Fp) :=
  .of_nat (n := (p - 1) * 19681161376707505956807079304988542015446066515923890162744021073123829784752 * 3426737609748780790789678635598812321241395039892825098523479107644843802371) (by dk) (by dk)
    (by rw [Nat.cast_mul, Nat.cast_mul, Nat.cast_sub (by norm_num [p])]
        show _ = -sqrtM1 * eC
        simp [sqrtM1, eC])
theorem rBaseX : R 2 (epBaseX : Fe25) (epBaseX : Fp) := .of_nat (by dk)
  (n := 7413488746097234319268533557746747958297143720389000677696299943083562100178) (by dk) rfl
theorem rBaseY : R 2 (epBaseY : Fe25) (epBaseY : Fp) := .of_nat (by dk)
  (n := 9771384041963202563870679428059935816164187996444183106833894008023910952347) (by dk) rfl
theorem rBaseT : R 2 (epBaseT : Fe25) (epBaseT : Fp) := .of_nat (by dk)
  (n := 7413488746097234319268533557746747958297143720389000677696299943083562100178 * 9771384041963202563870679428059935816164187996444183106833894008023910952347) (by dk)
  (by rw [Nat.cast_mul]; rfl)

/-- `-chk` and `chk` are not one and `i` at the same time. -/
theorem not_both (y : Fp) : Sim.Flag (isOneI (FieldOps.neg y) + feEqualsI y (feI : Fp)) ∧
    Sim.Flag (isOneI y + isOneI (FieldOps.neg y)) := by
  rw [isOneI_spec (F := Fp) trivial, isOneI_spec (F := Fp) trivial, feEqualsI_spec (F := Fp) trivial trivial]
  show Sim.Flag (flag (-y = 1) + flag (y = sqrtM1)) ∧ Sim.Flag (flag (y = 1) + flag (-y = 1))
  have e1 : (1 : Fp) ≠ -1 := by
    intro h
    have : (2 : Fp) = 0 := by linear_combination h
    have h3 : ((2 : ℕ) : Fp) = 0 := by exact_mod_cast this
    rw [ZMod.natCast_eq_zero_iff] at h3
    revert h3; norm_num [p]
  by_cases hn : -y = 1
  · have hy : y = -1 := by linear_combination -hn
    have h2 : ¬ y = sqrtM1 := by
      intro h
      have := sqrtM1_sq
      apply e1
      rw [← h, hy] at this
      linear_combination this
    have h3 : ¬ y = 1 := by rw [hy]; exact fun h => e1 h.symm
    unfold flag
    rw [if_pos hn, if_neg h2, if_neg h3]
    exact ⟨.inr rfl, .inr rfl⟩
  · unfold flag
    rw [if_neg hn]
    constructor <;> split <;> first | exact .inl rfl | exact .inr rfl


theorem neg_add (a b : Fe25) : Fe25.add (Fe25.neg a) b = Fe25.sub b a := by
  simp only [Fe25.add, Fe25.neg, Fe25.sub, Int32.sub_eq_add_neg, Int32.add_comm]

theorem add_neg (a b : Fe25) : Fe25.add b (Fe25.neg a) = Fe25.sub b a := by
  simp only [Fe25.add, Fe25.neg, Fe25.sub, Int32.sub_eq_add_neg]

theorem sub_neg (a b : Fe25) : Fe25.sub b (Fe25.neg a) = Fe25.add b a := by
  simp only [Fe25.add, Fe25.neg, Fe25.sub, Int32.sub_eq_add_neg, Int32.neg_neg]

instance simField : Sim.SimField Fe25 Fp where
  R := R
  S b y := Limbs25 times19 times19 b ∧ feVal25 b = y
  mono h hmn := h.mono hmn
  toS h := ⟨h.l19, h.2⟩
  add h h' hmn := h.add h' hmn
  sub h h' hmn := h.sub h' hmn
  neg h hm := h.neg hm
  mulS h h' := h.mulS h'.1 h'.2
  sq h := h.sq
  dsq h := h.dsq
  norm h := h.norm
  bytes h := h.bytes
  touch h := h.touch
  isNeg h := h.isNeg
  isNonZero h := h.isNonZero
  cond0 h h' := h.cond h' ⟨rfl, .inl rfl⟩
  cond1 h h' := h.cond h' ⟨rfl, .inr rfl⟩
  cond0_eq a b _ _ := ⟨condSet_zero a b, rfl⟩
  cond1_eq a b _ _ := ⟨condSet_one a b, rfl⟩
  negS := by
    intro a b x y _ _ _ h2 h3
    have e1 : FieldOps.add (FieldOps.neg a) b = FieldOps.sub b a := neg_add a b
    have e2 : FieldOps.add b (FieldOps.neg a) = FieldOps.sub b a := add_neg a b
    have e3 : FieldOps.sub b (FieldOps.neg a) = FieldOps.add b a := sub_neg a b
    rw [e1, e2, e3]
    refine ⟨⟨h3.1, h3.2.trans ?_⟩, ⟨h3.1, h3.2.trans ?_⟩, ⟨h2.1, h2.2.trans ?_⟩⟩
    · show y - x = -x + y
      ring
    · show y - x = y + -x
      ring
    · show y + x = y - -x
      ring
  setBytes := R.setBytes
  rZero := rZero
  rOne := rOne
  rMinusOne := rMinusOne
  rI := rI
  rD := rD
  r2D := r2D
  rInvSqrtMinusDMinusOne := rInvSqrtMinusDMinusOne
  rDoubleInvSqrtMinusDMinusOne := rDoubleInvSqrtMinusDMinusOne
  rDoubleIInvSqrtMinusDMinusOne := rDoubleIInvSqrtMinusDMinusOne
  rDMinusOneSquared := rDMinusOneSquared
  rOneMinusDSquared := rOneMinusDSquared
  rDp1OverDm1 := rDp1OverDm1
  rSqrtID := rSqrtID
  rInvSqrt1pD := rInvSqrt1pD
  rBaseX := rBaseX
  rBaseY := rBaseY
  rBaseT := rBaseT
  baseS := ⟨⟨by dk, (rBaseX.add rBaseY).2⟩, ⟨by dk, (rBaseY.add rBaseX).2⟩, ⟨by dk, (rBaseY.sub rBaseX).2⟩⟩
  notBoth := not_both

/-! The table of multiples of the base point -/

/-- The limbs are small and stand for the same number mod `p` as five limbs of 51 bits. -/
def checkFe (a : Fe25) (b : Fe51) : Bool :=
  decide (Limbs25 (2 * 2 ^ 25) (2 * (2 ^ 24 + 2 ^ 16)) a) && feInt25 a % p == (Fe51.nat b : ℤ) % p

theorem checkFe_spec {a : Fe25} {b : Fe51} (h : checkFe a b = true) : R 2 a (Fe51.eval b) := by
  unfold checkFe at h
  rw [Bool.and_eq_true, decide_eq_true_eq, beq_iff_eq] at h
  exact .of_nat (n := Fe51.nat b) h.1 h.2 rfl

/-- The table in the ideal field. -/
def idealN (n : NielsPt Fe51) : NielsPt Fp := ⟨Fe51.eval n.YPlusX, Fe51.eval n.YMinusX, Fe51.eval n.XY2D⟩
def idealT (t : Table Fe51) : Table Fp := t.map (List.map idealN)

def checkN (a : NielsPt Fe25) (b : NielsPt Fe51) : Bool :=
  checkFe a.YPlusX b.YPlusX && checkFe a.YMinusX b.YMinusX && checkFe a.XY2D b.XY2D

def checkRow : List (NielsPt Fe25) → List (NielsPt Fe51) → Bool
  | [], [] => true
  | a :: l, b :: l' => checkN a b && checkRow l l'
  | _, _ => false

def checkTab : Table Fe25 → Table Fe51 → Bool
  | [], [] => true
  | a :: l, b :: l' => checkRow a b && checkTab l l'
  | _, _ => false

theorem checkN_spec {a : NielsPt Fe25} {b : NielsPt Fe51} (h : checkN a b = true) : Sim.SN a (idealN b) := by
  unfold checkN at h
  rw [Bool.and_eq_true, Bool.and_eq_true] at h
  exact ⟨checkFe_spec h.1.1, checkFe_spec h.1.2, checkFe_spec h.2⟩

theorem checkRow_spec : ∀ {l : List (NielsPt Fe25)} {l' : List (NielsPt Fe51)}, checkRow l l' = true →
    List.Forall₂ Sim.SN l (l'.map idealN)
  | [], [], _ => .nil
  | a :: l, b :: l', h => by
    unfold checkRow at h
    rw [Bool.and_eq_true] at h
    exact .cons (checkN_spec h.1) (checkRow_spec h.2)
  | [], _ :: _, h => by simp [checkRow] at h
  | _ :: _, [], h => by simp [checkRow] at h

theorem checkTab_spec : ∀ {l : Table Fe25} {l' : Table Fe51}, checkTab l l' = true → Sim.TabRel l (idealT l')
  | [], [], _ => .nil
  | a :: l, b :: l', h => by
    unfold checkTab at h
    rw [Bool.and_eq_true] at h
    exact .cons (checkRow_spec h.1) (checkTab_spec h.2)
  | [], _ :: _, h => by simp [checkTab] at h
  | _ :: _, [], h => by simp [checkTab] at h

theorem baseTable25_check : checkTab baseTable25 baseTable = true := by decide +kernel

theorem baseTable25_rel : Sim.TabRel baseTable25 (idealT baseTable) := checkTab_spec baseTable25_check

theorem isTable_ideal : ∀ (t : Table Fe51) (P : EPoint), IsTable t P → IsTable (idealT t) P
  | [], _, _ => trivial
  | row :: t, P, h => by
    refine ⟨⟨by rw [List.length_map]; exact h.1.1, fun k e he => ?_⟩, isTable_ideal t _ h.2⟩
    rw [List.getElem?_map, Option.map_eq_some_iff] at he
    obtain ⟨n, hn, rfl⟩ := he
    have := h.1.2 k n hn
    exact ⟨trivial, trivial, trivial, this.yp, this.ym, this.xy⟩

theorem holds_idealTable : HoldsT (idealT baseTable) baseR := by
  obtain ⟨P, hP, h1, h2, h3⟩ := holds_baseTable
  exact ⟨P, hP, isTable_ideal _ _ h1, by unfold idealT; rw [List.length_map]; exact h2, h3⟩

end Fe25
end Ristretto.Proofs
