import Verif.Proofs.CrefPtrMult

/-!
Multiplication of the base point of Model/CrefPtr.lean.
-/

set_option autoImplicit false
set_option linter.unusedSimpArgs false
set_option linter.unusedSectionVars false

namespace Ristretto.Proofs.CrefPtr
open Ristretto Ristretto.Model Ristretto.Model.CrefPtr
open Ristretto.Model.Cref (CrefOps CrefTab AffPt Sc toByte cnot)

section
variable {F : Type} [O : CrefOps F]

/-- The coordinates x and y are written. -/
def setAff (t : Obj) (v : AffPt F) (m : PMem F) : PMem F := (m.upd (fld t 0) v.x).upd (fld t 1) v.y

section
attribute [local irreducible] op1 op2 copy cmov isnegative pack iszero iseq PMem.upd PMem.decl PMem.ld Wp Def

theorem chooseTAff_wp (tab : List (AffPt F)) (ht : tab.length = 425) (t : Obj) (hr : Hi 151 t) (i : Nat) (hi : i < 85) (b : Int8) (m : PMem F)
    (V : AffPt F) (hV : V = Cref.chooseTAff tab i b) : Wp (chooseTAff tab t (i : Int) b m) (Out 151 (setAff t V m)) := by
  have e : ∀ k : Nat, k < 5 → Loops.get tab (5 * (i : Int) + (k : Int)) = some (tab.getD (5 * i + k) ⟨O.zero, O.zero⟩) := by
    intro k hk
    rw [show (5 * (i : Int) + (k : Int)) = ((5 * i + k : Nat) : Int) by simp]
    exact CrefLoops.get_lt _ _ (by omega) _
  have e0 := e 0 (by omega); have e1 := e 1 (by omega); have e2 := e 2 (by omega); have e3 := e 3 (by omega); have e4 := e 4 (by omega)
  simp only [Nat.cast_ofNat, Nat.cast_zero, Nat.cast_one] at e0 e1 e2 e3 e4
  clear e
  have hrr := hi_eq hr
  have hrx := hi_eq' hr
  have hrm := hr.all
  unfold chooseTAff cmovAff
  rw [e0, e1, e2, e3, e4]
  clear e0 e1 e2 e3 e4
  pbody
  repeat pstp
  apply wp_some
  intro q hq o
  have hqq := hi_eq hq
  have hqm := hq.all
  simp only [upd_at, Addr.mk.injEq, Obj.loc.injEq, Nat.reduceLT, Nat.reduceLeDiff, decl_hi, and_false, false_and, if_false, setAff, hqq, hqm, *]
  simp only [Def] at *
  subst hV
  subst_vars
  split_ifs <;> first | rfl | (exfalso; rename_i h h' _; have := h.2; have := h'.2; omega) | (exfalso; rename_i h h'; have := h.2; have := h'.2; omega)

end

theorem geScalarMultBase_wp (tab : List (AffPt F)) (ht : tab.length = 425) (r : Obj) (hr : Hi 191 r) (s : Sc) (m : PMem F) :
    Wp (geScalarMultBase tab r s m) (Out 191 (setPt r (Cref.scalarMultBaseWith tab s) m)) := by
  unfold geScalarMultBase Cref.scalarMultBaseWith
  have hw := (CrefLoops.window3_eq s).2
  generalize Cref.window3 s = B at hw ⊢
  match B, hw with
  | b :: B, hw =>
    have hl : B.length = 84 := by simpa using hw
    have h0 : Out 191 m (m.decl 190 191) := (Out.refl _ _).decl _ _ le_rfl
    have hg : Loops.get (b :: B) 0 = some b := rfl
    simp only [Option.bind_eq_bind]
    rw [hg, Option.bind_some]
    refine wp_bind (chooseTAff_wp tab ht r (hr.mono (by omega)) 0 (by omega) b _ _ rfl) fun m1 h1 => ?_
    have hx : m1 ⟨r, 0⟩ = some (Cref.chooseTAff tab 0 b).x := by
      rw [h1 r (hr.mono (by omega)) 0]
      simp [setAff, upd_at]
    have hy : m1 ⟨r, 1⟩ = some (Cref.chooseTAff tab 0 b).y := by
      rw [h1 r (hr.mono (by omega)) 1]
      simp [setAff, upd_at]
    simp only [List.headD_cons, List.tail_cons]
    generalize Cref.chooseTAff tab 0 b = t at h1 hx hy ⊢
    refine wp_copy (X := O.one) rfl ?_
    refine wp_op2 (X := t.x) (Y := t.y) (by simp [ld_adr, upd_at, hx]) (by simp [ld_adr, upd_at, hy]) fun v hv => ?_
    have hv : v = O.mul t.x t.y := hv
    subst hv
    have h2 : Out 191 (setPt r ⟨t.x, t.y, O.one, O.mul t.x t.y⟩ m) ((m1.upd (fld r 2) O.one).upd (fld r 3) (O.mul t.x t.y)) := by
      intro q hq o
      have e1 := h1 q (hq.mono (by omega)) o
      have e0 := h0 q hq o
      simp only [setAff, upd_at, Addr.mk.injEq] at e1
      simp only [setPt, upd_at, Addr.mk.injEq, e1, e0]
    generalize (m1.upd (fld r 2) O.one).upd (fld r 3) (O.mul t.x t.y) = m2 at h2 ⊢
    generalize (⟨t.x, t.y, O.one, O.mul t.x t.y⟩ : ExtPt F) = V at h2 ⊢
    clear h1 hx hy
    refine wp_mono (wp_forLt _ (fun j M => ∃ R, Cref.baseLoop tab j ((b :: B).drop j) R = Cref.baseLoop tab 1 B V ∧ Out 191 (setPt r R m) M) 1 85 (by omega) m2
      ⟨V, rfl, h2⟩ ?_) ?_
    · rintro j M hj hj' ⟨R, hR, hM⟩
      rw [CrefLoops.get_lt (b :: B) j (by omega) 0, Option.bind_some]
      refine wp_bind (chooseTAff_wp tab ht (.loc 190) (hi_loc _ _ (by omega)) j hj' _ M _ rfl) fun M1 h3 => ?_
      have hx : M1 ⟨.loc 190, 0⟩ = some (Cref.chooseTAff tab j ((b :: B).getD j 0)).x := by
        rw [h3 _ (hi_loc _ _ (by omega)) 0]
        simp [setAff, upd_at]
      have hy : M1 ⟨.loc 190, 1⟩ = some (Cref.chooseTAff tab j ((b :: B).getD j 0)).y := by
        rw [h3 _ (hi_loc _ _ (by omega)) 1]
        simp [setAff, upd_at]
      have h4 : Out 191 M M1 := by
        intro q hq o
        have hqq := hi_eq hq
        rw [h3 q (hq.mono (by omega)) o]
        simp only [setAff, upd_at, Addr.mk.injEq, hqq, Nat.reduceLT, false_and, if_false]
      have h5 := hM.trans h4
      refine wp_mono (mixadd2_wp r (.loc 190) M1 R _ (HasPt.self h5 hr) hx hy (hr.mono (by omega)) (hi_loc _ _ (by omega)) _ rfl) fun M2 h6 => ?_
      refine ⟨_, ?_, h5.reset.trans (h6.mono (by omega))⟩
      rw [← hR, List.drop_eq_getElem_cons (show j < (b :: B).length by omega), getD_lt _ _ (show j < (b :: B).length by omega)]
      rfl
    · rintro M ⟨R, hR, hM⟩
      rw [List.drop_eq_nil_of_le (by omega)] at hR
      have hR : R = Cref.baseLoop tab 1 B V := hR
      rwa [← hR]

end

end Ristretto.Proofs.CrefPtr
