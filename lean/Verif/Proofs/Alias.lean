import Verif.Model.Alias
import Mathlib.Data.List.GetD
import Mathlib.Tactic.Ring
import Mathlib.Tactic.Set

set_option autoImplicit false

namespace Ristretto.Proofs.Alias
open Ristretto Ristretto.Model Ristretto.Model.Alias

/-! ## Loads and stores -/

theorem fe_ext {x y : Fe51} (h0 : x.l0 = y.l0) (h1 : x.l1 = y.l1) (h2 : x.l2 = y.l2)
    (h3 : x.l3 = y.l3) (h4 : x.l4 = y.l4) : x = y := by
  cases x; cases y; simp_all

@[simp] theorem assign_apply (m : FMem) (a : Addr) (v : Fe51) (x : Addr) :
    assign m a v x = if x = a then v else m x := rfl

theorem wr_apply (m : FMem) (a : Addr) (i : Nat) (v : UInt64) (x : Addr) :
    wr m a i v x = if x = a then setLimb (m x) i v else m x := rfl

theorem rd_wr_same (m : FMem) (a : Addr) (i : Nat) (hi : i < 5) (v : UInt64) :
    rd (wr m a i v) a i = v := by
  unfold rd; rw [wr_apply, if_pos rfl]
  rcases i with _ | _ | _ | _ | _ | i <;> first | rfl | omega

theorem rd_wr_ne (m : FMem) (a b : Addr) (i j : Nat) (hi : i < 5) (hj : j < 5) (hij : j ≠ i)
    (v : UInt64) : rd (wr m a i v) b j = rd m b j := by
  unfold rd; rw [wr_apply]
  split
  · rcases i with _ | _ | _ | _ | _ | i <;> rcases j with _ | _ | _ | _ | _ | j <;>
      first | rfl | omega
  · rfl

theorem wr5 (m : FMem) (fe : Addr) (v0 v1 v2 v3 v4 : UInt64) :
    wr (wr (wr (wr (wr m fe 0 v0) fe 1 v1) fe 2 v2) fe 3 v3) fe 4 v4 =
      assign m fe ⟨v0, v1, v2, v3, v4⟩ := by
  funext x
  simp only [wr_apply, assign_apply]
  by_cases h : x = fe <;> simp [h, setLimb]

theorem addI_eq (fe a b : Addr) (m : FMem) :
    addI fe a b m = assign m fe (Fe51.add (m a) (m b)) := by
  unfold addI
  simp (discharger := decide) only [rd_wr_ne]
  rw [wr5]; rfl

theorem negI_eq (fe a : Addr) (m : FMem) : negI fe a m = assign m fe (Fe51.neg (m a)) := by
  unfold negI
  simp only
  rw [wr5]; rfl

theorem subI_eq (fe a b : Addr) (m : FMem) :
    subI fe a b m = assign m fe (Fe51.sub (m a) (m b)) := by
  unfold subI
  simp (discharger := decide) only [rd_wr_ne]
  rw [wr5]; rfl

theorem condSetI_eq (fe a : Addr) (b : Int32) (m : FMem) :
    condSetI fe a b m = assign m fe (Fe51.condSet (m fe) (m a) b) := by
  unfold condSetI
  simp (discharger := decide) only [rd_wr_ne]
  rw [wr5]; rfl

theorem storeI_eq (fe : Addr) (v : Fe51) (m : FMem) : storeI fe v m = assign m fe v := by
  unfold storeI
  simp only
  rw [wr5]

theorem setI_eq (fe a : Addr) (m : FMem) : setI fe a m = assign m fe (m a) := rfl
theorem mulI_eq (fe a b : Addr) (m : FMem) : mulI fe a b m = assign m fe (Fe51.mul (m a) (m b)) :=
  storeI_eq _ _ _
theorem squareI_eq (fe a : Addr) (m : FMem) : squareI fe a m = assign m fe (Fe51.square (m a)) :=
  storeI_eq _ _ _
theorem doubledSquareI_eq (fe a : Addr) (m : FMem) :
    doubledSquareI fe a m = assign m fe (Fe51.doubledSquare (m a)) := storeI_eq _ _ _

theorem wr_assign (m : FMem) (fe : Addr) (x : Fe51) (i : Nat) (v : UInt64) :
    wr (assign m fe x) fe i v = assign m fe (setLimb x i v) := by
  funext y
  simp only [wr_apply, assign_apply]
  by_cases h : y = fe <;> simp [h]

theorem rd_assign (m : FMem) (fe : Addr) (x : Fe51) (i : Nat) : rd (assign m fe x) fe i = limb x i := by
  simp [rd]

theorem setReducedI_eq (fe a : Addr) (m : FMem) :
    setReducedI fe a m = assign m fe (Fe51.setReduced (m a)) := by
  unfold setReducedI
  simp only [wr_assign, rd_assign]
  rfl

theorem feAddI_eq (fe a b : Addr) (m : FMem) :
    feAddI fe a b m = assign m fe (feAdd (m a) (m b)) := by
  unfold feAddI
  rw [setReducedI_eq, addI_eq]
  funext x
  by_cases h : x = fe <;> simp [h] <;> rfl

theorem feSubI_eq (fe a b : Addr) (m : FMem) :
    feSubI fe a b m = assign m fe (feSub (m a) (m b)) := by
  unfold feSubI
  rw [setReducedI_eq, subI_eq]
  funext x
  by_cases h : x = fe <;> simp [h] <;> rfl

theorem absI_eq (fe x : Addr) (m : FMem) (hf : fe ≠ lf 0) (hx : x ≠ lf 0) (y : Addr) (hy : y ≠ lf 0) :
    absI fe x m y = assign m fe (feAbs (m x)) y := by
  unfold absI
  simp only [condSetI_eq, setI_eq, negI_eq, assign_apply, if_neg hf, if_neg hx, if_neg hy, if_true,
    if_neg (Ne.symm hf)]
  by_cases h : y = fe
  · by_cases hxf : x = fe
    · subst hxf; simp [h, hx, feAbs]; rfl
    · simp [h, hx, hxf, feAbs]; rfl
  · simp [h]

/-! ## Points -/

/-- Not a local variable of the functions on points below `ScalarMult`. -/
def Free (b : Base) : Prop := ∀ n, n < 10 → b ≠ .loc n

theorem free_var (n : Nat) : Free (.var n) := fun _ _ => by simp
theorem free_loc {n : Nat} (h : 10 ≤ n) : Free (.loc n) := fun k hk => by simp; omega

theorem Free.ne {b : Base} (h : Free b) (n : Nat) (hn : n < 10) : (b = .loc n) = False := by
  simp [h n hn]
theorem Free.ne' {b : Base} (h : Free b) (n : Nat) (hn : n < 10) : ((.loc n : Base) = b) = False := by
  simp [Ne.symm (h n hn)]

/-- Variable `b` has the same contents in both memories. -/
def Same (m m' : FMem) (b : Base) : Prop := ∀ f, m' ⟨b, f⟩ = m ⟨b, f⟩

theorem Same.pt {m m' : FMem} {b : Base} (h : Same m m' b) : pt m' b = pt m b := by
  simp [Alias.pt, h 0, h 1, h 2, h 3]
theorem Same.cpt {m m' : FMem} {b : Base} (h : Same m m' b) : cpt m' b = cpt m b := by
  simp [Alias.cpt, h 0, h 1, h 2, h 3]
theorem Same.trans {m m' m'' : FMem} {b : Base} (h : Same m m' b) (h' : Same m' m'' b) :
    Same m m'' b := fun f => (h' f).trans (h f)
theorem Same.refl (m : FMem) (b : Base) : Same m m b := fun _ => rfl

theorem ptSetI_spec (p q : Base) (m : FMem) :
    pt (ptSetI p q m) p = pt m q ∧ ∀ b, b ≠ p → Same m (ptSetI p q m) b := by
  constructor
  · unfold ptSetI pt
    simp [setI_eq]
  · intro b hb f
    unfold ptSetI
    simp [setI_eq, hb]

theorem ptZeroI_spec (p : Base) (m : FMem) :
    pt (ptZeroI p m) p = ExtPt.zero ∧ ∀ b, b ≠ p → Same m (ptZeroI p m) b := by
  constructor
  · unfold ptZeroI pt
    simp; rfl
  · intro b hb f
    unfold ptZeroI
    simp [hb]

theorem ptCondSetI_spec (p q : Base) (c : Int32) (m : FMem) :
    pt (ptCondSetI p q c m) p = ExtPt.condSet (pt m p) (pt m q) c ∧
      ∀ b, b ≠ p → Same m (ptCondSetI p q c m) b := by
  constructor
  · unfold ptCondSetI pt
    simp [condSetI_eq]; rfl
  · intro b hb f
    unfold ptCondSetI
    simp [condSetI_eq, hb]

theorem ptNegI_spec (p q : Base) (m : FMem) :
    pt (ptNegI p q m) p = ExtPt.neg (pt m q) ∧ ∀ b, b ≠ p → Same m (ptNegI p q m) b := by
  constructor
  · unfold ptNegI pt
    simp [negI_eq, setI_eq]; rfl
  · intro b hb f
    unfold ptNegI
    simp [negI_eq, setI_eq, hb]

theorem setCompletedI_spec (p q : Base) (m : FMem) (hpq : q ≠ p) :
    pt (setCompletedI p q m) p = (cpt m q).toExtended ∧ ∀ b, b ≠ p → Same m (setCompletedI p q m) b := by
  constructor
  · unfold setCompletedI pt
    simp [mulI_eq, hpq]; rfl
  · intro b hb f
    unfold setCompletedI
    simp [mulI_eq, hb]

theorem projSetCompletedI_spec (p q : Base) (m : FMem) (hpq : q ≠ p) :
    ppt (projSetCompletedI p q m) p = (cpt m q).toProjective ∧
      ∀ b, b ≠ p → Same m (projSetCompletedI p q m) b := by
  constructor
  · unfold projSetCompletedI ppt
    simp [mulI_eq, hpq]; rfl
  · intro b hb f
    unfold projSetCompletedI
    simp [mulI_eq, hb]

theorem addExtendedI_spec (p q r : Base) (m : FMem) (hp : ∀ n, n < 5 → p ≠ .loc n) (hq : Free q)
    (hr : Free r) :
    cpt (addExtendedI p q r m) p = ComplPt.addExtended (pt m q) (pt m r) ∧
      ∀ b, b ≠ p → (∀ n, n < 5 → b ≠ .loc n) → Same m (addExtendedI p q r m) b := by
  have h0 := hp 0 (by decide)
  have h1 := hp 1 (by decide)
  have h2 := hp 2 (by decide)
  have h3 := hp 3 (by decide)
  constructor
  · unfold addExtendedI cpt
    simp [addI_eq, subI_eq, mulI_eq, storeI_eq, hq.ne, hr.ne, h0.symm, h1.symm, h2.symm, h3.symm]
    rfl
  · intro b hb hbl f
    have h0 := hbl 0 (by decide)
    have h1 := hbl 1 (by decide)
    have h2 := hbl 2 (by decide)
    have h3 := hbl 3 (by decide)
    have h4 := hbl 4 (by decide)
    unfold addExtendedI
    simp [addI_eq, subI_eq, mulI_eq, storeI_eq, hb, h0, h1, h2, h3, h4]

theorem subExtendedI_spec (p q r : Base) (m : FMem) (hp : ∀ n, n < 5 → p ≠ .loc n) (hq : Free q)
    (hr : Free r) :
    cpt (subExtendedI p q r m) p = ComplPt.subExtended (pt m q) (pt m r) ∧
      ∀ b, b ≠ p → (∀ n, n < 5 → b ≠ .loc n) → Same m (subExtendedI p q r m) b := by
  have h0 := hp 0 (by decide)
  have h1 := hp 1 (by decide)
  have h2 := hp 2 (by decide)
  have h3 := hp 3 (by decide)
  constructor
  · unfold subExtendedI cpt
    simp [addI_eq, subI_eq, mulI_eq, storeI_eq, hq.ne, hr.ne, h0.symm, h1.symm, h2.symm, h3.symm]
    rfl
  · intro b hb hbl f
    have h0 := hbl 0 (by decide)
    have h1 := hbl 1 (by decide)
    have h2 := hbl 2 (by decide)
    have h3 := hbl 3 (by decide)
    have h4 := hbl 4 (by decide)
    unfold subExtendedI
    simp [addI_eq, subI_eq, mulI_eq, storeI_eq, hb, h0, h1, h2, h3, h4]

theorem doubleExtendedI_spec (p q : Base) (m : FMem) (hp : ∀ n, n < 5 → p ≠ .loc n) (hq : Free q)
    (hpq : q ≠ p) :
    cpt (doubleExtendedI p q m) p = ComplPt.doubleExtended (pt m q) ∧
      ∀ b, b ≠ p → (∀ n, n < 5 → b ≠ .loc n) → Same m (doubleExtendedI p q m) b := by
  have h0 := hp 0 (by decide)
  have h1 := hp 1 (by decide)
  have h2 := hp 2 (by decide)
  have h3 := hp 3 (by decide)
  constructor
  · unfold doubleExtendedI cpt
    simp [addI_eq, subI_eq, squareI_eq, doubledSquareI_eq, negI_eq, hq.ne, hpq, h0, h1, h2, h3, h0.symm, h1.symm, h2.symm,
      h3.symm]
    rfl
  · intro b hb hbl f
    have h0 := hbl 0 (by decide)
    have h1 := hbl 1 (by decide)
    have h2 := hbl 2 (by decide)
    have h3 := hbl 3 (by decide)
    have h4 := hbl 4 (by decide)
    unfold doubleExtendedI
    simp [addI_eq, subI_eq, squareI_eq, doubledSquareI_eq, negI_eq, hb, h0, h1, h2, h3, h4]

theorem doubleProjectiveI_spec (p q : Base) (m : FMem) (hp : p ≠ .loc 0) (hq : q ≠ .loc 0)
    (hpq : q ≠ p) :
    cpt (doubleProjectiveI p q m) p = ComplPt.doubleProjective (ppt m q) ∧
      ∀ b, b ≠ p → b ≠ .loc 0 → Same m (doubleProjectiveI p q m) b := by
  constructor
  · unfold doubleProjectiveI cpt
    simp [addI_eq, subI_eq, squareI_eq, doubledSquareI_eq, hpq, hp, hq, hp.symm]
    rfl
  · intro b hb hbl f
    unfold doubleProjectiveI
    simp [addI_eq, subI_eq, squareI_eq, doubledSquareI_eq, hb, hbl]

theorem ptAddI_spec (p q r : Base) (m : FMem) (hp : Free p) (hq : Free q) (hr : Free r) :
    pt (ptAddI p q r m) p = ExtPt.add (pt m q) (pt m r) ∧
      ∀ b, b ≠ p → Free b → Same m (ptAddI p q r m) b := by
  obtain ⟨h1, h2⟩ := addExtendedI_spec (.loc 6) q r m (by simp; omega) hq hr
  obtain ⟨h3, h4⟩ := setCompletedI_spec p (.loc 6) (addExtendedI (.loc 6) q r m)
    (Ne.symm (hp 6 (by decide)))
  refine ⟨?_, fun b hb hbf => ?_⟩
  · unfold ptAddI; rw [h3, h1]; rfl
  · exact (h2 b (hbf 6 (by decide)) (fun n hn => hbf n (by omega))).trans (h4 b hb)

theorem ptSubI_spec (p q r : Base) (m : FMem) (hp : Free p) (hq : Free q) (hr : Free r) :
    pt (ptSubI p q r m) p = ExtPt.sub (pt m q) (pt m r) ∧
      ∀ b, b ≠ p → Free b → Same m (ptSubI p q r m) b := by
  obtain ⟨h1, h2⟩ := subExtendedI_spec (.loc 7) q r m (by simp; omega) hq hr
  obtain ⟨h3, h4⟩ := setCompletedI_spec p (.loc 7) (subExtendedI (.loc 7) q r m)
    (Ne.symm (hp 7 (by decide)))
  refine ⟨?_, fun b hb hbf => ?_⟩
  · unfold ptSubI; rw [h3, h1]; rfl
  · exact (h2 b (hbf 7 (by decide)) (fun n hn => hbf n (by omega))).trans (h4 b hb)

theorem ptDoubleI_spec (p q : Base) (m : FMem) (hp : Free p) (hq : Free q) :
    pt (ptDoubleI p q m) p = ExtPt.double (pt m q) ∧
      ∀ b, b ≠ p → Free b → Same m (ptDoubleI p q m) b := by
  obtain ⟨h1, h2⟩ := doubleExtendedI_spec (.loc 5) q m (by simp; omega) hq (hq 5 (by decide))
  obtain ⟨h3, h4⟩ := setCompletedI_spec p (.loc 5) (doubleExtendedI (.loc 5) q m)
    (Ne.symm (hp 5 (by decide)))
  refine ⟨?_, fun b hb hbf => ?_⟩
  · unfold ptDoubleI; rw [h3, h1]; rfl
  · exact (h2 b (hbf 5 (by decide)) (fun n hn => hbf n (by omega))).trans (h4 b hb)

/-! ## `ScalarMult` -/

/-- `scalarMultLut` for any doubling and addition. -/
def lutG {α : Type} (dbl : α → α) (ad : α → α → α) (z q : α) : List α :=
  let l0 := z
  let l1 := q
  let l2 := dbl l1
  let l3 := ad l2 q
  let l4 := dbl l2
  let l5 := ad l4 q
  let l6 := dbl l3
  let l7 := ad l6 q
  let l8 := dbl l4
  let l9 := ad l8 q
  let l10 := dbl l5
  let l11 := ad l10 q
  let l12 := dbl l6
  let l13 := ad l12 q
  let l14 := dbl l7
  let l15 := ad l14 q
  let l16 := dbl l8
  [l0, l1, l2, l3, l4, l5, l6, l7, l8, l9, l10, l11, l12, l13, l14, l15, l16]

theorem lutG_facts {α : Type} (dbl : α → α) (ad : α → α → α) (z q : α) (L : Nat → α)
    (hL : L = fun j => (lutG dbl ad z q).getD j z) :
    L 0 = z ∧ L 1 = q ∧ L 16 = dbl (L 8) ∧ (∀ k, k < 7 → L (2 + 2 * k) = dbl (L ((2 + 2 * k) / 2)) ∧
      L (2 + 2 * k + 1) = ad (L (2 + 2 * k)) q) ∧ lutG dbl ad z q = (List.range 17).map L := by
  subst hL
  refine ⟨rfl, rfl, rfl, fun k hk => ?_, ?_⟩
  · rcases k with _ | _ | _ | _ | _ | _ | _ | k
    all_goals first | exact ⟨rfl, rfl⟩ | omega
  · simp [List.range_succ, lutG]

theorem scalarMultLut_eq (q : ExtPt Fe51) :
    scalarMultLut q = lutG ExtPt.double ExtPt.add ExtPt.zero q := by
  rfl

/-- `f` applied `n` times, innermost first. -/
def iter {α : Type} (f : α → α) : Nat → α → α
  | 0, x => x
  | n + 1, x => iter f n (f x)

theorem iter_succ {α : Type} (f : α → α) (n : Nat) (x : α) : iter f (n + 1) x = iter f n (f x) := rfl

attribute [local irreducible] ExtPt.double ExtPt.add ExtPt.zero ComplPt.doubleProjective
  ComplPt.doubleExtended ComplPt.toProjective ComplPt.toExtended Fe51.neg Fe51.condSet ptAddI ptDoubleI ptSubI ptSetI
  ptZeroI ptCondSetI doubleProjectiveI doubleExtendedI projSetCompletedI setCompletedI addExtendedI
  subExtendedI Same

theorem free_lut (j : Nat) : Free (lut j) := free_loc (by omega)

theorem lutLoopI_spec (q : Base) (hq : Free q) (hql : ∀ j, q ≠ lut j) (Q : ExtPt Fe51)
    (L : Nat → ExtPt Fe51) : ∀ (n i : Nat) (m : FMem), 2 ≤ i → pt m q = Q →
    (∀ j, j < i → pt m (lut j) = L j) →
    (∀ k, k < n → L (i + 2 * k) = ExtPt.double (L ((i + 2 * k) / 2)) ∧
      L (i + 2 * k + 1) = ExtPt.add (L (i + 2 * k)) Q) →
    (∀ j, j < i + 2 * n → pt (lutLoopI q n i m) (lut j) = L j) ∧
      ∀ b, Free b → (∀ j, b ≠ lut j) → Same m (lutLoopI q n i m) b
  | 0, i, m, _, _, hL, _ => ⟨fun j hj => hL j (by omega), fun b _ _ => Same.refl m b⟩
  | n + 1, i, m, hi, hQ, hL, hrec => by
    obtain ⟨d1, d2⟩ := ptDoubleI_spec (lut i) (lut (i / 2)) m (free_lut _) (free_lut _)
    obtain ⟨a1, a2⟩ := ptAddI_spec (lut (i + 1)) (lut i) q (ptDoubleI (lut i) (lut (i / 2)) m)
      (free_lut _) (free_lut _) hq
    obtain ⟨e1, e2⟩ := hrec 0 (by omega)
    simp only [Nat.mul_zero, Nat.add_zero] at e1 e2
    have hi2 : pt (ptDoubleI (lut i) (lut (i / 2)) m) (lut i) = L i := by
      rw [d1, hL _ (by omega), e1]
    have hq2 : pt (ptDoubleI (lut i) (lut (i / 2)) m) q = Q := by rw [(d2 q (hql _) hq).pt, hQ]
    obtain ⟨r1, r2⟩ := lutLoopI_spec q hq hql Q L n (i + 2)
      (ptAddI (lut (i + 1)) (lut i) q (ptDoubleI (lut i) (lut (i / 2)) m)) (by omega)
      (by rw [(a2 q (hql _) hq).pt, hq2])
      (by
        intro j hj
        by_cases h1 : j = i + 1
        · subst h1; rw [a1, hi2, hq2, e2]
        · rw [(a2 (lut j) (by simp; omega) (free_lut _)).pt]
          by_cases h2 : j = i
          · subst h2; exact hi2
          · rw [(d2 (lut j) (by simp; omega) (free_lut _)).pt]; exact hL j (by omega))
      (by
        intro k hk
        have := hrec (k + 1) (by omega)
        rw [show i + 2 * (k + 1) = i + 2 + 2 * k by ring] at this
        exact this)
    rw [lutLoopI]
    refine ⟨fun j hj => r1 j (by omega), fun b hb hbl => ?_⟩
    exact ((d2 b (hbl _) hb).trans (a2 b (hbl _) hb)).trans (r2 b hb hbl)

theorem selectLoopI_spec (c : Int32) : ∀ (n j : Nat) (m : FMem),
    pt (selectLoopI c n j m) (.loc 10) =
        scalarMultSelectLoop c (Int32.ofNat j) ((List.range' j n).map fun k => pt m (lut k))
          (pt m (.loc 10)) ∧
      ∀ b, b ≠ .loc 10 → Same m (selectLoopI c n j m) b
  | 0, j, m => ⟨rfl, fun b _ => Same.refl m b⟩
  | n + 1, j, m => by
    obtain ⟨c1, c2⟩ := ptCondSetI_spec (.loc 10) (lut j)
      (equal15 c (-(Int32.ofNat j)) ||| equal15 c (Int32.ofNat j)) m
    obtain ⟨r1, r2⟩ := selectLoopI_spec c n (j + 1) (ptCondSetI (.loc 10) (lut j)
      (equal15 c (-(Int32.ofNat j)) ||| equal15 c (Int32.ofNat j)) m)
    rw [selectLoopI]
    refine ⟨?_, fun b hb => (c2 b hb).trans (r2 b hb)⟩
    rw [r1, c1, List.range'_succ, List.map_cons]
    conv_rhs => rw [scalarMultSelectLoop]
    have hj : Int32.ofNat j + 1 = Int32.ofNat (j + 1) := by rw [Int32.ofNat_add]; rfl
    have hl : ((List.range' (j + 1) n).map fun k => pt (ptCondSetI (.loc 10) (lut j)
        (equal15 c (-(Int32.ofNat j)) ||| equal15 c (Int32.ofNat j)) m) (lut k)) =
        (List.range' (j + 1) n).map fun k => pt m (lut k) := by
      refine List.map_congr_left fun k _ => ?_
      exact (c2 (lut k) (by simp; omega)).pt
    rw [hl, hj]

theorem doubleLoopI_spec : ∀ (n : Nat) (m : FMem),
    cpt (doubleLoopI n m) (.loc 12) =
        iter (fun c : ComplPt Fe51 => ComplPt.doubleProjective c.toProjective) n (cpt m (.loc 12)) ∧
      ∀ b, b ≠ .loc 0 → b ≠ .loc 11 → b ≠ .loc 12 → Same m (doubleLoopI n m) b
  | 0, m => ⟨rfl, fun b _ _ _ => Same.refl m b⟩
  | n + 1, m => by
    obtain ⟨p1, p2⟩ := projSetCompletedI_spec (.loc 11) (.loc 12) m (by simp)
    obtain ⟨d1, d2⟩ := doubleProjectiveI_spec (.loc 12) (.loc 11)
      (projSetCompletedI (.loc 11) (.loc 12) m) (by simp) (by simp) (by simp)
    obtain ⟨r1, r2⟩ := doubleLoopI_spec n (doubleProjectiveI (.loc 12) (.loc 11)
      (projSetCompletedI (.loc 11) (.loc 12) m))
    rw [doubleLoopI]
    refine ⟨?_, fun b h0 h1 h2 => ((p2 b h1).trans (d2 b h2 h0)).trans (r2 b h0 h1 h2)⟩
    rw [r1, d1, p1, iter_succ]

/-- A variable that a round of `ScalarMult` on receiver `p` does not write. -/
def Kept (p b : Base) : Prop :=
  b ≠ p ∧ Free b ∧ b ≠ .loc 10 ∧ b ≠ .loc 11 ∧ b ≠ .loc 12 ∧ b ≠ .loc 13

theorem scalarMultStepI_spec (p : Base) (hp : ∃ n, p = .var n) (m : FMem) (w : Int8)
    (L : List (ExtPt Fe51)) (hL : L = (List.range 17).map fun k => pt m (lut k)) :
    pt (scalarMultStepI p m w) p = scalarMultStep L (pt m p) w ∧
      ∀ b, Kept p b → Same m (scalarMultStepI p m w) b := by
  obtain ⟨n, rfl⟩ := hp
  have fp : Free (.var n) := free_var n
  obtain ⟨a1, a2⟩ := doubleExtendedI_spec (.loc 12) (.var n) m (by simp; omega) fp (by simp)
  set m1 := doubleExtendedI (.loc 12) (.var n) m with hm1
  obtain ⟨b1, b2⟩ := doubleLoopI_spec 4 m1
  set m2 := doubleLoopI 4 m1 with hm2
  obtain ⟨c1, c2⟩ := setCompletedI_spec (.var n) (.loc 12) m2 (by simp)
  set m3 := setCompletedI (.var n) (.loc 12) m2 with hm3
  obtain ⟨d1, d2⟩ := ptSetI_spec (.loc 10) (lut 0) m3
  set m4 := ptSetI (.loc 10) (lut 0) m3 with hm4
  obtain ⟨e1, e2⟩ := selectLoopI_spec w.toInt32 16 1 m4
  set m5 := selectLoopI w.toInt32 16 1 m4 with hm5
  set m9 := condSetI ⟨.loc 10, 3⟩ (lf 13) (negative w.toInt32) (negI (lf 13) ⟨.loc 10, 3⟩
    (condSetI ⟨.loc 10, 0⟩ (lf 13) (negative w.toInt32) (negI (lf 13) ⟨.loc 10, 0⟩ m5))) with hm9
  have hstep : scalarMultStepI (.var n) m w = ptAddI (.var n) (.var n) (.loc 10) m9 := rfl
  obtain ⟨f1, f2⟩ := ptAddI_spec (.var n) (.var n) (.loc 10) m9 fp fp (free_loc (by omega))
  have s9 : ∀ b, b ≠ .loc 10 → b ≠ .loc 13 → Same m5 m9 b := by
    intro b h1 h2
    unfold Same
    intro f
    rw [hm9]
    simp [condSetI_eq, negI_eq, h1, h2]
  have keep3 : ∀ b, Kept (.var n) b → Same m m3 b := by
    intro b ⟨h1, h2, h3, h4, h5, h6⟩
    exact ((a2 b h5 (fun k hk => h2 k (by omega))).trans (b2 b (h2 0 (by decide)) h4 h5)).trans (c2 b h1)
  have klut : ∀ j, Kept (.var n) (lut j) := fun j =>
    ⟨by simp, free_lut j, by simp; omega, by simp; omega, by simp; omega, by simp; omega⟩
  have hl3 : ∀ j, pt m3 (lut j) = pt m (lut j) := fun j => (keep3 _ (klut j)).pt
  have hl4 : ∀ j, pt m4 (lut j) = pt m (lut j) := fun j =>
    (d2 (lut j) (by simp; omega)).pt.trans (hl3 j)
  have hv9 : pt m9 (.var n) = pt m3 (.var n) :=
    (s9 _ (by simp) (by simp)).pt.trans ((e2 _ (by simp)).pt.trans (d2 _ (by simp)).pt)
  have ht : pt m9 (.loc 10) = scalarMultSelect L w.toInt32 := by
    have hsel : pt m5 (.loc 10) =
        scalarMultSelectLoop w.toInt32 1 L.tail (L.headD ExtPt.zero) := by
      rw [e1, d1, hl3, hL]
      have : ((List.range' 1 16).map fun k => pt m4 (lut k)) =
          (List.range' 1 16).map fun k => pt m (lut k) := List.map_congr_left fun k _ => hl4 k
      rw [this]
      rfl
    unfold scalarMultSelect
    rw [← hsel, hm9]
    simp only [pt, condSetI_eq, negI_eq]
    simp
    refine ⟨rfl, rfl⟩
  refine ⟨?_, fun b hb => ?_⟩
  · rw [hstep, f1, hv9, ht, c1, b1, a1]
    rfl
  · have hb' := hb
    obtain ⟨h1, h2, h3, h4, h5, h6⟩ := hb'
    rw [hstep]
    exact ((((keep3 b hb).trans (d2 b h3)).trans (e2 b h3)).trans (s9 b h3 h6)).trans (f2 b h1 h2)

theorem foldl_step (p : Base) (hp : ∃ n, p = .var n) (L : List (ExtPt Fe51)) :
    ∀ (ws : List Int8) (m : FMem), L = ((List.range 17).map fun k => pt m (lut k)) →
      pt (ws.foldl (scalarMultStepI p) m) p = ws.foldl (scalarMultStep L) (pt m p) ∧
        ∀ b, Kept p b → Same m (ws.foldl (scalarMultStepI p) m) b
  | [], m, _ => ⟨rfl, fun b _ => Same.refl m b⟩
  | w :: ws, m, hL => by
    obtain ⟨s1, s2⟩ := scalarMultStepI_spec p hp m w L hL
    have hk : ∀ j, Kept p (lut j) := fun j => by
      obtain ⟨n, rfl⟩ := hp
      exact ⟨by simp, free_lut j, by simp; omega, by simp; omega, by simp; omega, by simp; omega⟩
    obtain ⟨r1, r2⟩ := foldl_step p hp L ws (scalarMultStepI p m w) (by
      rw [hL]; exact List.map_congr_left fun k _ => (s2 _ (hk k)).pt.symm)
    refine ⟨?_, fun b hb => (s2 b hb).trans (r2 b hb)⟩
    rw [List.foldl_cons, List.foldl_cons, r1, s1]

theorem scalarMultI_spec (p q : Nat) (s : Bytes 32) (m : FMem) :
    pt (scalarMultI (.var p) (.var q) s m) (.var p) = Model.scalarMult (pt m (.var q)) s ∧
      ∀ b, b ≠ p → Same m (scalarMultI (.var p) (.var q) s m) (.var b) := by
  set Q := pt m (.var q) with hQ
  obtain ⟨L, hLdef⟩ : ∃ L : Nat → ExtPt Fe51,
      L = fun j => (lutG ExtPt.double ExtPt.add ExtPt.zero Q).getD j ExtPt.zero := ⟨_, rfl⟩
  obtain ⟨L0, L1, L16, Lk, Lall⟩ := lutG_facts _ _ _ _ L hLdef
  obtain ⟨a1, a2⟩ := ptZeroI_spec (lut 0) m
  set m1 := ptZeroI (lut 0) m with hm1
  obtain ⟨b1, b2⟩ := ptSetI_spec (lut 1) (.var q) m1
  set m2 := ptSetI (lut 1) (.var q) m1 with hm2
  have hq2 : pt m2 (.var q) = Q := ((a2 _ (by simp)).trans (b2 _ (by simp))).pt
  obtain ⟨c1, c2⟩ := lutLoopI_spec (.var q) (free_var q) (fun j => by simp) Q L 7 2 m2 (le_refl _)
    hq2 (by
      intro j hj
      rcases j with _ | _ | j
      · rw [(b2 (lut 0) (by simp)).pt, a1, L0]
      · rw [b1, (a2 (.var q) (by simp)).pt, L1]
      · omega)
    Lk
  set m3 := lutLoopI (.var q) 7 2 m2 with hm3
  obtain ⟨d1, d2⟩ := ptDoubleI_spec (lut 16) (lut 8) m3 (free_lut _) (free_lut _)
  set m4 := ptDoubleI (lut 16) (lut 8) m3 with hm4
  obtain ⟨e1, e2⟩ := ptZeroI_spec (.var p) m4
  set m5 := ptZeroI (.var p) m4 with hm5
  have hl : ∀ j, j < 17 → pt m5 (lut j) = L j := by
    intro j hj
    rw [(e2 (lut j) (by simp)).pt]
    by_cases h : j = 16
    · subst h; rw [d1, c1 8 (by omega), L16]
    · rw [(d2 (lut j) (by simp; omega) (free_lut _)).pt]; exact c1 j (by omega)
  have hLL : scalarMultLut Q = (List.range 17).map fun k => pt m5 (lut k) := by
    have : (List.range 17).map (fun k => pt m5 (lut k)) = (List.range 17).map L :=
      List.map_congr_left fun k hk => hl k (List.mem_range.1 hk)
    rw [this, scalarMultLut_eq, Lall]
  obtain ⟨f1, f2⟩ := foldl_step (.var p) ⟨p, rfl⟩ (scalarMultLut Q)
    (computeScalarWindow5 s).reverse m5 hLL
  have hrun : scalarMultI (.var p) (.var q) s m =
      (computeScalarWindow5 s).reverse.foldl (scalarMultStepI (.var p)) m5 := rfl
  refine ⟨?_, fun b hb => ?_⟩
  · rw [hrun, f1, e1]; unfold Model.scalarMult; rfl
  · rw [hrun]
    have hbp : (.var b : Base) ≠ .var p := by simpa using hb
    exact (((((a2 _ (by simp)).trans (b2 _ (by simp))).trans
      (c2 _ (free_var b) (fun j => by simp))).trans (d2 _ (by simp) (free_var b))).trans
      (e2 _ hbp)).trans (f2 _ ⟨hbp, free_var b, by simp, by simp, by simp, by simp⟩)

/-! ## `VarTimeScalarMult` -/

theorem iter_succ' {α : Type} (f : α → α) : ∀ (n : Nat) (x : α), iter f (n + 1) x = f (iter f n x)
  | 0, _ => rfl
  | n + 1, x => by rw [iter_succ, iter_succ' f n, iter_succ]

theorem varTimeLutLoop_get (D : ExtPt Fe51) : ∀ (n : Nat) (Q : ExtPt Fe51) (j : Nat),
    (varTimeLutLoop D n Q)[j]? = if j < n then some (iter (fun x => ExtPt.add x D) j Q) else none
  | 0, Q, j => by simp [varTimeLutLoop]
  | n + 1, Q, 0 => by rw [varTimeLutLoop]; rfl
  | n + 1, Q, j + 1 => by
    rw [varTimeLutLoop, List.getElem?_cons_succ, varTimeLutLoop_get D n, iter_succ]
    simp

theorem vtLutLoopI_spec (L : Nat → ExtPt Fe51) (D : ExtPt Fe51)
    (hrec : ∀ j, L (j + 1) = ExtPt.add (L j) D) : ∀ (n i : Nat) (m : FMem), 1 ≤ i →
    pt m (.loc 14) = D → (∀ j, j < i → pt m (lut j) = L j) →
    (∀ j, j < i + n → pt (vtLutLoopI n i m) (lut j) = L j) ∧
      ∀ b, Free b → (∀ j, b ≠ lut j) → Same m (vtLutLoopI n i m) b
  | 0, i, m, _, _, hL => ⟨fun j hj => hL j (by omega), fun b _ _ => Same.refl m b⟩
  | n + 1, i, m, hi, hD, hL => by
    obtain ⟨a1, a2⟩ := ptAddI_spec (lut i) (lut (i - 1)) (.loc 14) m (free_lut _) (free_lut _)
      (free_loc (by omega))
    obtain ⟨r1, r2⟩ := vtLutLoopI_spec L D hrec n (i + 1) (ptAddI (lut i) (lut (i - 1)) (.loc 14) m)
      (by omega) (by rw [(a2 (.loc 14) (by simp; omega) (free_loc (by omega))).pt, hD])
      (by
        intro j hj
        by_cases h : j = i
        · subst h
          rw [a1, hL (j - 1) (by omega), hD, ← hrec, Nat.sub_add_cancel hi]
        · rw [(a2 (lut j) (by simp; omega) (free_lut _)).pt]
          exact hL j (by omega))
    rw [vtLutLoopI]
    refine ⟨fun j hj => r1 j (by omega), fun b hb hbl => (a2 b (hbl _) hb).trans (r2 b hb hbl)⟩

theorem nafSkipI_spec (naf : Nat → Int8) : ∀ (i : Nat) (m : FMem),
    (nafSkipI naf i m).1 = (nafSkip naf i (cpt m (.loc 12))).1 ∧
      cpt (nafSkipI naf i m).2 (.loc 12) = (nafSkip naf i (cpt m (.loc 12))).2 ∧
      ∀ b, b ≠ .loc 0 → b ≠ .loc 11 → b ≠ .loc 12 → Same m (nafSkipI naf i m).2 b
  | 0, m => by
    rw [nafSkipI, nafSkip]; exact ⟨rfl, rfl, fun b _ _ _ => Same.refl m b⟩
  | i + 1, m => by
    rw [nafSkipI, nafSkip]
    by_cases h : naf (i + 1) ≠ 0
    · rw [if_pos h, if_pos h]; exact ⟨rfl, rfl, fun b _ _ _ => Same.refl m b⟩
    · rw [if_neg h, if_neg h]
      obtain ⟨p1, p2⟩ := projSetCompletedI_spec (.loc 11) (.loc 12) m (by simp)
      obtain ⟨d1, d2⟩ := doubleProjectiveI_spec (.loc 12) (.loc 11)
        (projSetCompletedI (.loc 11) (.loc 12) m) (by simp) (by simp) (by simp)
      obtain ⟨r1, r2, r3⟩ := nafSkipI_spec naf i (doubleProjectiveI (.loc 12) (.loc 11)
        (projSetCompletedI (.loc 11) (.loc 12) m))
      rw [d1, p1] at r1 r2
      exact ⟨r1, r2, fun b h0 h1 h2 => ((p2 b h1).trans (d2 b h2 h0)).trans (r3 b h0 h1 h2)⟩

theorem lutAddr_spec (k : Int8) (L : List (ExtPt Fe51)) (m : FMem)
    (hL : ∀ j, j < 8 → L[j]? = some (pt m (lut j))) (hlen : L.length = 8) :
    lutGet L k = (lutAddr k).map (pt m) ∧ ∀ b, lutAddr k = some b → ∃ j, b = lut j := by
  unfold lutGet lutAddr
  by_cases h1 : k < 0
  · simp [h1]
  · rw [if_neg h1]
    by_cases h2 : 8 ≤ k.toInt.toNat
    · rw [if_pos (Or.inr h2)]
      exact ⟨by rw [List.getElem?_eq_none (by omega)]; rfl, fun b hb => by cases hb⟩
    · rw [if_neg (fun h => h.elim h1 h2)]
      refine ⟨hL _ (by omega), fun b hb => ?_⟩
      injection hb with hb
      exact ⟨_, hb.symm⟩

theorem varTimeLoopI_spec (n : Nat) (naf : Nat → Int8) (L : List (ExtPt Fe51)) (hlen : L.length = 8) :
    ∀ (fuel i : Nat) (m : FMem), (∀ j, j < 8 → L[j]? = some (pt m (lut j))) →
    (varTimeLoopI (.var n) naf fuel i m).map (fun m' => pt m' (.var n)) =
        varTimeLoop naf L fuel i (pt m (.var n)) ∧
      ∀ m', varTimeLoopI (.var n) naf fuel i m = some m' → ∀ b, Kept (.var n) b → Same m m' b
  | 0, i, m, _ => by
    rw [varTimeLoopI, varTimeLoop]
    exact ⟨rfl, fun m' h => by cases h⟩
  | fuel + 1, i, m, hL => by
    have klut : ∀ j, Kept (.var n) (lut j) := fun j =>
      ⟨by simp, free_lut j, by simp; omega, by simp; omega, by simp; omega, by simp; omega⟩
    -- the digit
    have hdig : ∃ r : Option FMem,
        varTimeDigitI (.var n) (naf i) m = r ∧
        varTimeDigit (naf i) L (pt m (.var n)) = r.map (fun m' => cpt m' (.loc 12)) ∧
        ∀ m', r = some m' → ∀ b, b ≠ .loc 12 → Free b → Same m m' b := by
      refine ⟨_, rfl, ?_⟩
      unfold varTimeDigit varTimeDigitI
      by_cases hpos : naf i > 0
      · rw [if_pos hpos, if_pos hpos]
        obtain ⟨l1, l2⟩ := lutAddr_spec ((naf i + 1) / 2 - 1) L m hL hlen
        rw [l1]
        cases hla : lutAddr ((naf i + 1) / 2 - 1) with
        | none => exact ⟨rfl, fun m' h => by cases h⟩
        | some l =>
          obtain ⟨j, rfl⟩ := l2 l hla
          obtain ⟨e1, e2⟩ := addExtendedI_spec (.loc 12) (.var n) (lut j) m (by simp; omega)
            (free_var n) (free_lut j)
          refine ⟨?_, fun m' h b hb hf => ?_⟩
          · simp only [Option.map_some, e1]
          · simp only [Option.map_some, Option.some.injEq] at h
            rw [← h]
            exact e2 b hb (fun k hk => hf k (by omega))
      · rw [if_neg hpos, if_neg hpos]
        obtain ⟨l1, l2⟩ := lutAddr_spec ((1 - naf i) / 2 - 1) L m hL hlen
        rw [l1]
        cases hla : lutAddr ((1 - naf i) / 2 - 1) with
        | none => exact ⟨rfl, fun m' h => by cases h⟩
        | some l =>
          obtain ⟨j, rfl⟩ := l2 l hla
          obtain ⟨e1, e2⟩ := subExtendedI_spec (.loc 12) (.var n) (lut j) m (by simp; omega)
            (free_var n) (free_lut j)
          refine ⟨?_, fun m' h b hb hf => ?_⟩
          · simp only [Option.map_some, e1]
          · simp only [Option.map_some, Option.some.injEq] at h
            rw [← h]
            exact e2 b hb (fun k hk => hf k (by omega))
    obtain ⟨r, hr1, hr2, hr3⟩ := hdig
    rw [varTimeLoopI, varTimeLoop, hr1, hr2]
    cases r with
    | none => exact ⟨rfl, fun m' h => by cases h⟩
    | some m1 =>
      have k1 := hr3 m1 rfl
      simp only [Option.map_some, Option.bind_eq_bind, Option.bind_some]
      cases i with
      | zero =>
        obtain ⟨s1, s2⟩ := setCompletedI_spec (.var n) (.loc 12) m1 (by simp)
        refine ⟨?_, fun m' h b hb => ?_⟩
        · simp only [pure, Option.map_some, s1]
        · simp only [pure, Option.some.injEq] at h
          rw [← h]
          exact (k1 b hb.2.2.2.2.1 hb.2.1).trans (s2 b hb.1)
      | succ i' =>
        simp only
        obtain ⟨p1, p2⟩ := projSetCompletedI_spec (.loc 11) (.loc 12) m1 (by simp)
        obtain ⟨d1, d2⟩ := doubleProjectiveI_spec (.loc 12) (.loc 11)
          (projSetCompletedI (.loc 11) (.loc 12) m1) (by simp) (by simp) (by simp)
        set m2 := doubleProjectiveI (.loc 12) (.loc 11) (projSetCompletedI (.loc 11) (.loc 12) m1)
        obtain ⟨t1, t2, t3⟩ := nafSkipI_spec naf i' m2
        rw [d1, p1] at t1 t2
        rw [← t1]
        set sk := nafSkipI naf i' m2
        obtain ⟨s1, s2⟩ := setCompletedI_spec (.var n) (.loc 12) sk.2 (by simp)
        set m3 := setCompletedI (.var n) (.loc 12) sk.2
        have k3 : ∀ b, Kept (.var n) b → Same m m3 b := by
          intro b ⟨h1, h2, h3, h4, h5, h6⟩
          exact ((((k1 b h5 h2).trans (p2 b h4)).trans (d2 b h5 (h2 0 (by decide)))).trans
            (t3 b (h2 0 (by decide)) h4 h5)).trans (s2 b h1)
        rw [← t2, ← s1]
        by_cases hz : naf sk.1 = 0
        · rw [if_pos hz, if_pos hz]
          refine ⟨rfl, fun m' h b hb => ?_⟩
          simp only [pure, Option.some.injEq] at h
          rw [← h]; exact k3 b hb
        · rw [if_neg hz, if_neg hz]
          obtain ⟨q1, q2⟩ := varTimeLoopI_spec n naf L hlen fuel sk.1 m3
            (fun j hj => by rw [(k3 _ (klut j)).pt]; exact hL j hj)
          exact ⟨q1, fun m' h b hb => (k3 b hb).trans (q2 m' h b hb)⟩

theorem varTimeScalarMultI_spec (p q : Nat) (s : Bytes 32) (m : FMem) :
    (varTimeScalarMultI (.var p) (.var q) s m).map (fun m' => pt m' (.var p)) =
        varTimeScalarMult (pt m (.var q)) s ∧
      ∀ m', varTimeScalarMultI (.var p) (.var q) s m = some m' → ∀ b, b ≠ p → Same m m' (.var b) := by
  obtain ⟨a1, a2⟩ := ptDoubleI_spec (.loc 14) (.var q) m (free_loc (by omega)) (free_var q)
  obtain ⟨b1, b2⟩ := ptSetI_spec (lut 0) (.var q) (ptDoubleI (.loc 14) (.var q) m)
  set Q := pt m (.var q) with hQ
  set m2 := ptSetI (lut 0) (.var q) (ptDoubleI (.loc 14) (.var q) m) with hm2
  obtain ⟨c1, c2⟩ := vtLutLoopI_spec (fun j => iter (fun x => ExtPt.add x (ExtPt.double Q)) j Q)
    (ExtPt.double Q) (fun j => iter_succ' _ j Q) 7 1 m2 (le_refl _)
    (by rw [(b2 (.loc 14) (by simp)).pt, a1])
    (by
      intro j hj
      have : j = 0 := by omega
      subst this
      rw [b1, (a2 (.var q) (by simp) (free_var q)).pt]; rfl)
  set m3 := vtLutLoopI 7 1 m2 with hm3
  obtain ⟨e1, e2⟩ := ptZeroI_spec (.var p) m3
  set m4 := ptZeroI (.var p) m3 with hm4
  have keep : ∀ b, b ≠ p → Same m m4 (.var b) := fun b hb =>
    (((a2 _ (by simp) (free_var b)).trans (b2 _ (by simp))).trans
      (c2 _ (free_var b) (fun j => by simp))).trans (e2 _ (by simpa using hb))
  have hrun : varTimeScalarMultI (.var p) (.var q) s m =
      match nafTop (computeScalar5NAF s) 256 with
      | none => some m4
      | some i => varTimeLoopI (.var p) (computeScalar5NAF s) (i + 1) i m4 := rfl
  rw [hrun]
  unfold varTimeScalarMult
  simp only
  cases hn : nafTop (computeScalar5NAF s) 256 with
  | none =>
    simp only [Option.map_some, e1]
    exact ⟨trivial, fun m' h b hb => by injection h with h; rw [← h]; exact keep b hb⟩
  | some i =>
    simp only
    have hlen : (varTimeLut Q).length = 8 := by unfold varTimeLut; rfl
    obtain ⟨q1, q2⟩ := varTimeLoopI_spec p (computeScalar5NAF s) (varTimeLut Q) hlen (i + 1) i m4
      (by
        intro j hj
        unfold varTimeLut
        rw [varTimeLutLoop_get, if_pos hj, (e2 (lut j) (by simp)).pt, c1 j (by omega)])
    rw [e1] at q1
    exact ⟨q1, fun m' h b hb => (keep b hb).trans (q2 m' h _
      ⟨by simpa using hb, free_var b, by simp, by simp, by simp, by simp⟩)⟩

end Ristretto.Proofs.Alias
