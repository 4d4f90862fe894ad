import Verif.Proofs.Field51Checked
import Verif.Proofs.Words
import Verif.Proofs.EdMachine

/-! The checked radix-2^51 field is a backend in which the proofs about programs hold. -/

namespace Ristretto.Proofs
open Model
set_option autoImplicit false

namespace W51
variable {junk : Bytes 32}

abbrev L : LawfulField Fe51 := inferInstance

/-- The value of an element; a lost element has none. -/
noncomputable def ev (a : Fe51W junk) : Fp :=
  match (a : Option Fe51) with
  | some x => L.eval x
  | none => 0

/-- The element was computed without loss, and its limbs are small. -/
def bdW (n : ℕ) (a : Fe51W junk) : Prop := ∃ x : Fe51, a = Fe51W.fine x ∧ L.bd n x

theorem U_eq : Fe51.U = 2 ^ 51 + 2 ^ 18 := rfl

theorem get_of {w : WFe} {x : Fe51} (h : w.ok = true) (hv : w.val = x) : w.get = some x := by
  unfold WFe.get; rw [if_pos h, hv]

theorem map_fine {f : WFe → WFe} {g : Fe51 → Fe51} {x : Fe51} (h : (f (.of x)).ok = true) (hv : (f (.of x)).val = g x) :
    Fe51W.map f (Fe51W.fine x : Fe51W junk) = Fe51W.fine (g x) := get_of h hv

theorem map₂_fine {f : WFe → WFe → WFe} {g : Fe51 → Fe51 → Fe51} {x y : Fe51} (h : (f (.of x) (.of y)).ok = true)
    (hv : (f (.of x) (.of y)).val = g x y) :
    Fe51W.map₂ f (Fe51W.fine x : Fe51W junk) (Fe51W.fine y) = Fe51W.fine (g x y) := get_of h hv

theorem bd63 {n : ℕ} {x : Fe51} (hn : n ≤ 12) (h : L.bd n x) : In5 (2 ^ 63) (.of x) :=
  in5_of (Fe51.Bd.mono h (by
    have : n * Fe51.U ≤ 12 * Fe51.U := Nat.mul_le_mul_right _ hn
    rw [U_eq] at *; omega))

noncomputable instance : LawfulField (Fe51W junk) where
  toFieldOps := inferInstance
  eval := ev
  bd := bdW
  bd_mono := fun h ⟨x, hx, hb⟩ => ⟨x, hx, L.bd_mono h hb⟩
  eval_feZero := L.eval_feZero
  bd_feZero := ⟨_, rfl, L.bd_feZero⟩
  eval_feOne := L.eval_feOne
  bd_feOne := ⟨_, rfl, L.bd_feOne⟩
  eval_feMinusOne := L.eval_feMinusOne
  bd_feMinusOne := ⟨_, rfl, L.bd_feMinusOne⟩
  eval_feI := L.eval_feI
  bd_feI := ⟨_, rfl, L.bd_feI⟩
  eval_feMinusI := L.eval_feMinusI
  bd_feMinusI := ⟨_, rfl, L.bd_feMinusI⟩
  eval_feD := L.eval_feD
  bd_feD := ⟨_, rfl, L.bd_feD⟩
  eval_fe2D := L.eval_fe2D
  bd_fe2D := ⟨_, rfl, L.bd_fe2D⟩
  eval_feInvSqrtMinusDMinusOne := L.eval_feInvSqrtMinusDMinusOne
  bd_feInvSqrtMinusDMinusOne := ⟨_, rfl, L.bd_feInvSqrtMinusDMinusOne⟩
  eval_feDoubleInvSqrtMinusDMinusOne := L.eval_feDoubleInvSqrtMinusDMinusOne
  bd_feDoubleInvSqrtMinusDMinusOne := ⟨_, rfl, L.bd_feDoubleInvSqrtMinusDMinusOne⟩
  eval_feDoubleIInvSqrtMinusDMinusOne := L.eval_feDoubleIInvSqrtMinusDMinusOne
  bd_feDoubleIInvSqrtMinusDMinusOne := ⟨_, rfl, L.bd_feDoubleIInvSqrtMinusDMinusOne⟩
  eval_feDMinusOneSquared := L.eval_feDMinusOneSquared
  bd_feDMinusOneSquared := ⟨_, rfl, L.bd_feDMinusOneSquared⟩
  eval_feOneMinusDSquared := L.eval_feOneMinusDSquared
  bd_feOneMinusDSquared := ⟨_, rfl, L.bd_feOneMinusDSquared⟩
  eval_feDp1OverDm1 := L.eval_feDp1OverDm1
  bd_feDp1OverDm1 := ⟨_, rfl, L.bd_feDp1OverDm1⟩
  eval_feSqrtID := L.eval_feSqrtID
  bd_feSqrtID := ⟨_, rfl, L.bd_feSqrtID⟩
  eval_feInvSqrt1pD := L.eval_feInvSqrt1pD
  bd_feInvSqrt1pD := ⟨_, rfl, L.bd_feInvSqrt1pD⟩
  eval_epBaseX := L.eval_epBaseX
  bd_epBaseX := ⟨_, rfl, L.bd_epBaseX⟩
  eval_epBaseY := L.eval_epBaseY
  bd_epBaseY := ⟨_, rfl, L.bd_epBaseY⟩
  eval_epBaseT := L.eval_epBaseT
  bd_epBaseT := ⟨_, rfl, L.bd_epBaseT⟩
  add_law := by
    rintro m n _ _ ⟨x, rfl, hx⟩ ⟨y, rfl, hy⟩ hmn
    have hle : m * Fe51.U + n * Fe51.U ≤ 12 * Fe51.U := by rw [← Nat.add_mul]; exact Nat.mul_le_mul_right _ hmn
    obtain ⟨h1, h2⟩ := L.add_law hx hy hmn
    have e : (FieldOps.add (Fe51W.fine x : Fe51W junk) (Fe51W.fine y)) = Fe51W.fine (FieldOps.add x y) :=
      map₂_fine (add_in5 (in5_of hx) (in5_of hy) (by rw [U_eq] at *; omega)).ok (add_val x y)
    rw [e]; exact ⟨⟨_, rfl, h1⟩, h2⟩
  sub_law := by
    rintro m _ _ ⟨x, rfl, hx⟩ ⟨y, rfl, hy⟩ hm
    have hle : m * Fe51.U ≤ 6 * Fe51.U := Nat.mul_le_mul_right _ hm
    obtain ⟨h1, h2⟩ := L.sub_law hx hy hm
    have e : (FieldOps.sub (Fe51W.fine x : Fe51W junk) (Fe51W.fine y)) = Fe51W.fine (FieldOps.sub x y) :=
      map₂_fine (sub_in5 (in5_of hx) (by rw [U_eq] at *; omega) (bd63 (by norm_num) hy)).ok (sub_val x y)
    rw [e]; exact ⟨⟨_, rfl, h1⟩, h2⟩
  neg_law := by
    rintro _ ⟨x, rfl, hx⟩
    obtain ⟨h1, h2⟩ := L.neg_law hx
    have e : (FieldOps.neg (Fe51W.fine x : Fe51W junk)) = Fe51W.fine (FieldOps.neg x) :=
      map_fine (neg_in5 (bd63 (by norm_num) hx)).ok (neg_val x)
    rw [e]; exact ⟨⟨_, rfl, h1⟩, h2⟩
  normalize_law := by
    rintro _ ⟨x, rfl, hx⟩
    obtain ⟨h1, h2⟩ := L.normalize_law hx
    have e : (FieldOps.normalize (Fe51W.fine x : Fe51W junk)) = Fe51W.fine (FieldOps.normalize x) :=
      map_fine (setReduced_in5 (bd63 (by norm_num) hx)).ok (setReduced_val x)
    rw [e]; exact ⟨⟨_, rfl, h1⟩, h2⟩
  mul_law := by
    rintro _ _ ⟨x, rfl, hx⟩ ⟨y, rfl, hy⟩
    obtain ⟨h1, h2⟩ := L.mul_law hx hy
    have e : (FieldOps.mul (Fe51W.fine x : Fe51W junk) (Fe51W.fine y)) = Fe51W.fine (FieldOps.mul x y) :=
      map₂_fine (mul_ok (in5_of (Fe51.Bd.mono hx (by decide))) (in5_of (Fe51.Bd.mono hy (by decide)))) (mul_val x y)
    rw [e]; exact ⟨⟨_, rfl, h1⟩, h2⟩
  square_law := by
    rintro _ ⟨x, rfl, hx⟩
    obtain ⟨h1, h2⟩ := L.square_law hx
    have e : (FieldOps.square (Fe51W.fine x : Fe51W junk)) = Fe51W.fine (FieldOps.square x) :=
      map_fine (square_ok (in5_of (Fe51.Bd.mono hx (by decide)))) (square_val x)
    rw [e]; exact ⟨⟨_, rfl, h1⟩, h2⟩
  doubledSquare_law := by
    rintro _ ⟨x, rfl, hx⟩
    obtain ⟨h1, h2⟩ := L.doubledSquare_law hx
    have e : (FieldOps.doubledSquare (Fe51W.fine x : Fe51W junk)) = Fe51W.fine (FieldOps.doubledSquare x) :=
      map_fine (doubledSquare_ok (in5_of hx)) (doubledSquare_val x)
    rw [e]; exact ⟨⟨_, rfl, h1⟩, h2⟩
  condSet_zero _ _ := rfl
  condSet_one _ _ := rfl
  bytes_law := by
    rintro _ ⟨x, rfl, hx⟩
    have e : Fe51W.map WFe.setReduced (Fe51W.fine x : Fe51W junk) = Fe51W.fine (Model.Fe51.setReduced x) :=
      map_fine (setReduced_in5 (bd63 (by norm_num) hx)).ok (setReduced_val x)
    have e2 : FieldOps.bytes (Fe51W.fine x : Fe51W junk) = Model.Fe51.bytes x := by
      show Fe51W.bytes (Fe51W.fine x : Fe51W junk) = _
      unfold Fe51W.bytes; rw [e]; rfl
    rw [e2]; exact L.bytes_law hx
  touch_law h := ⟨h, rfl⟩
  setBytes_law b := by
    obtain ⟨h1, h2⟩ := L.setBytes_law b
    exact ⟨⟨_, rfl, h1⟩, h2⟩

theorem isFine_of {n : ℕ} {a : Fe51W junk} (h : LawfulField.bd n a) : a.isFine = true := by
  obtain ⟨x, rfl, -⟩ := h; rfl

theorem ptFine_small {q : ExtPt (Fe51W junk)} (h : Small q) : Fe51W.ptFine q = true := by
  unfold Fe51W.ptFine
  rw [isFine_of h.bX, isFine_of h.bY, isFine_of h.bZ, isFine_of h.bT]; rfl

theorem ptFine_of {q : ExtPt (Fe51W junk)} {g : Option RGroup} (h : PtRel q g) : Fe51W.ptFine q = true := by
  cases g with
  | none => exact ptFine_small (Deg.toSmall h)
  | some g =>
    obtain ⟨P, hP, h1, -⟩ := h
    exact ptFine_small h1.small

theorem table_fine : ∀ (t : Table (Fe51W junk)) (P : EPoint), IsTable t P → ∀ row ∈ t, ∀ e ∈ row, Fe51W.nielsFine e = true
  | [], _, _, _, hr => absurd hr (List.not_mem_nil)
  | r :: t, P, h, row, hr => by
    rcases List.mem_cons.1 hr with rfl | hr
    · intro e he
      obtain ⟨k, hk⟩ := List.mem_iff_getElem?.1 he
      have := h.1.2 k e hk
      unfold Fe51W.nielsFine
      rw [isFine_of this.bP, isFine_of this.bM, isFine_of this.bD]; rfl
    · exact table_fine t _ h.2 row hr

theorem tabFine_of {t : Table (Fe51W junk)} {g : Option RGroup} (h : TabRel t g) : Fe51W.tabFine t = true := by
  unfold Fe51W.tabFine
  rw [List.all_eq_true]
  intro row hr
  rw [List.all_eq_true]
  intro e he
  cases g with
  | none =>
    have := (h.2 row hr).2 e he
    unfold Fe51W.nielsFine
    rw [isFine_of this.bP, isFine_of this.bM, isFine_of this.bD]; rfl
  | some g =>
    obtain ⟨P, hP, h1, -, -⟩ := h
    exact table_fine t P h1 row hr e he

theorem isTable_fine : ∀ (t : Table Fe51) (P : EPoint), IsTable t P → IsTable (Fe51W.fineTab (junk := junk) t) P
  | [], _, _ => trivial
  | row :: t, P, h => ⟨⟨by rw [List.length_map]; exact h.1.1, fun k e he => by
      rw [List.getElem?_map] at he
      cases hr : row[k]? with
      | none => rw [hr] at he; exact absurd he (by simp)
      | some e' =>
        rw [hr] at he
        cases he
        have := h.1.2 k e' hr
        exact ⟨⟨_, rfl, this.bP⟩, ⟨_, rfl, this.bM⟩, ⟨_, rfl, this.bD⟩, this.yp, this.ym, this.xy⟩⟩,
      isTable_fine t _ h.2⟩

theorem holdsT_fine {t : Table Fe51} {g : RGroup} (h : HoldsT t g) : HoldsT (Fe51W.fineTab (junk := junk) t) g := by
  obtain ⟨P, hP, h1, h2, h3⟩ := h
  exact ⟨P, hP, isTable_fine t P h1, by unfold Fe51W.fineTab; rw [List.length_map]; exact h2, h3⟩

end W51
end Ristretto.Proofs
