import Verif.Proofs.Field25Checked
import Verif.Proofs.Sim25
import Verif.Proofs.WordsSim

/-! The checked generic field runs the same programs as the generic field. -/

namespace Ristretto.Proofs
open Model
set_option autoImplicit false

namespace J25
open Sim (F2)
variable {junk : Bytes 32}

theorem get_of {w : JFe} {x : Fe25} (h : w.ok = true) (hv : w.val = x) : w.get = some x := by
  unfold JFe.get; rw [if_pos h, hv]

theorem map_fine {f : JFe → JFe} {g : Fe25 → Fe25} {x : Fe25} (h : (f (.of x)).ok = true) (hv : (f (.of x)).val = g x) :
    Fe25W.map f (Fe25W.fine x : Fe25W junk) = Fe25W.fine (g x) := get_of h hv

theorem map₂_fine {f : JFe → JFe → JFe} {g : Fe25 → Fe25 → Fe25} {x y : Fe25} (h : (f (.of x) (.of y)).ok = true)
    (hv : (f (.of x) (.of y)).val = g x y) :
    Fe25W.map₂ f (Fe25W.fine x : Fe25W junk) (Fe25W.fine y) = Fe25W.fine (g x y) := get_of h hv

/-- Computed without loss, and related to the ideal element. -/
def RW (n : ℕ) (a : Fe25W junk) (x : Fp) : Prop := ∃ a', a = Fe25W.fine a' ∧ Fe25.R n a' x
/-- Computed without loss, and small enough to be multiplied by 19. -/
def SW (a : Fe25W junk) (x : Fp) : Prop := ∃ a', a = Fe25W.fine a' ∧ Limbs25 times19 times19 a' ∧ feVal25 a' = x

theorem add_fine {m n : ℕ} {a b : Fe25} {x y : Fp} (h : Fe25.R m a x) (h' : Fe25.R n b y) (hmn : m + n ≤ 10) :
    FieldOps.add (Fe25W.fine a : Fe25W junk) (Fe25W.fine b) = Fe25W.fine (Fe25.add a b) :=
  map₂_fine (add_ok h.1 h'.1 (by omega) (by omega)) rfl

theorem sub_fine {m n : ℕ} {a b : Fe25} {x y : Fp} (h : Fe25.R m a x) (h' : Fe25.R n b y) (hmn : m + n ≤ 10) :
    FieldOps.sub (Fe25W.fine a : Fe25W junk) (Fe25W.fine b) = Fe25W.fine (Fe25.sub a b) :=
  map₂_fine (sub_ok h.1 h'.1 (by omega) (by omega)) rfl

theorem neg_fine {m : ℕ} {a : Fe25} {x : Fp} (h : Fe25.R m a x) (hm : m ≤ 10) :
    FieldOps.neg (Fe25W.fine a : Fe25W junk) = Fe25W.fine (Fe25.neg a) :=
  map_fine (neg_ok h.1 (by omega) (by omega)) rfl

theorem mul_fine {a b : Fe25} (h : Limbs25 (2 ^ 27) (2 ^ 27) a) (h' : Limbs25 times19 times19 b) :
    FieldOps.mul (Fe25W.fine a : Fe25W junk) (Fe25W.fine b) = Fe25W.fine (Fe25.mul a b) := map₂_fine (mul_ok h h') rfl

theorem reduce_fine {a : Fe25} (h : Limbs25 Fe25.bytesB Fe25.bytesB a) :
    Fe25W.map JFe.reduce (Fe25W.fine a : Fe25W junk) = Fe25W.fine (Fe25.reduce a) := map_fine (reduce_ok h) rfl

theorem bytes_fine {a : Fe25} (h : Limbs25 Fe25.bytesB Fe25.bytesB a) :
    FieldOps.bytes (Fe25W.fine a : Fe25W junk) = FieldOps.bytes a := by
  show Fe25W.bytes (Fe25W.fine a) = Fe25.bytes a
  unfold Fe25W.bytes
  rw [reduce_fine h]
  rfl

theorem cond0_fine (a b : Fe25W junk) : FieldOps.condSet a b 0 = a := by
  show Fe25W.condSet a b 0 = a
  unfold Fe25W.condSet; rw [if_pos rfl]
theorem cond1_fine (a b : Fe25W junk) : FieldOps.condSet a b 1 = b := by
  show Fe25W.condSet a b 1 = b
  rfl

instance simField : Sim.SimField (Fe25W junk) Fp where
  R := RW
  S := SW
  mono := fun ⟨a, h, r⟩ hmn => ⟨a, h, r.mono hmn⟩
  toS := fun ⟨a, h, r⟩ => ⟨a, h, r.l19, r.2⟩
  add := by
    rintro m n _ _ x y ⟨a, rfl, r⟩ ⟨b, rfl, r'⟩ hmn
    exact ⟨_, add_fine r r' hmn, r.add r' hmn⟩
  sub := by
    rintro m n _ _ x y ⟨a, rfl, r⟩ ⟨b, rfl, r'⟩ hmn
    exact ⟨_, sub_fine r r' hmn, r.sub r' hmn⟩
  neg := by
    rintro m _ x ⟨a, rfl, r⟩ hm
    exact ⟨_, neg_fine r hm, r.neg hm⟩
  mulS := by
    rintro _ _ x y ⟨a, rfl, r⟩ ⟨b, rfl, hb, hy⟩
    exact ⟨_, mul_fine r.l27 hb, r.mulS hb hy⟩
  sq := by
    rintro _ x ⟨a, rfl, r⟩
    exact ⟨_, map_fine (square_ok r.l27) rfl, r.sq⟩
  dsq := by
    rintro _ x ⟨a, rfl, r⟩
    exact ⟨_, map_fine (doubledSquare_ok r.l19) rfl, r.dsq⟩
  norm := by
    rintro m _ x ⟨a, rfl, r⟩
    exact ⟨_, map_fine (normalize_ok a) rfl, r.norm⟩
  bytes := by
    rintro _ x ⟨a, rfl, r⟩
    rw [bytes_fine r.lb]; exact r.bytes
  touch := by
    rintro _ x ⟨a, rfl, r⟩
    exact ⟨_, reduce_fine r.lb, r.touch⟩
  isNeg := by
    rintro _ x ⟨a, rfl, r⟩
    have h := r.isNeg
    unfold isNegativeI at h ⊢
    rw [bytes_fine r.lb]; exact h
  isNonZero := by
    rintro _ x ⟨a, rfl, r⟩
    have h := r.isNonZero
    unfold isNonZeroI at h ⊢
    rw [bytes_fine r.lb]; exact h
  cond0 := fun h h' => by rw [cond0_fine]; exact h
  cond1 := fun h h' => by rw [cond1_fine]; exact h'
  cond0_eq a b _ _ := ⟨cond0_fine a b, rfl⟩
  cond1_eq a b _ _ := ⟨cond1_fine a b, rfl⟩
  negS := by
    rintro _ _ x y ⟨a, rfl, r⟩ ⟨b, rfl, r'⟩ h1 ⟨u, hu, h2⟩ ⟨v, hv, h3⟩
    have e1 := neg_fine (junk := junk) r (by norm_num)
    rw [add_fine r' r (by norm_num)] at hu
    rw [sub_fine r' r (by norm_num)] at hv
    cases hu; cases hv
    have rn : Fe25.R 2 (Fe25.neg a) (FieldOps.neg x) := r.neg (by norm_num)
    rw [e1, add_fine rn r' (by norm_num), add_fine r' rn (by norm_num), sub_fine r' rn (by norm_num), Fe25.neg_add, Fe25.add_neg, Fe25.sub_neg]
    refine ⟨⟨_, rfl, h3.1, h3.2.trans ?_⟩, ⟨_, rfl, h3.1, h3.2.trans ?_⟩, ⟨_, rfl, h2.1, h2.2.trans ?_⟩⟩
    · show y - x = -x + y
      ring
    · show y - x = y + -x
      ring
    · show y + x = y - -x
      ring
  setBytes b := ⟨_, get_of (setBytes_ok b) rfl, Fe25.R.setBytes b⟩
  rZero := ⟨_, rfl, Fe25.rZero⟩
  rOne := ⟨_, rfl, Fe25.rOne⟩
  rMinusOne := ⟨_, rfl, Fe25.rMinusOne⟩
  rI := ⟨_, rfl, Fe25.rI⟩
  rD := ⟨_, rfl, Fe25.rD⟩
  r2D := ⟨_, rfl, Fe25.r2D⟩
  rInvSqrtMinusDMinusOne := ⟨_, rfl, Fe25.rInvSqrtMinusDMinusOne⟩
  rDoubleInvSqrtMinusDMinusOne := ⟨_, rfl, Fe25.rDoubleInvSqrtMinusDMinusOne⟩
  rDoubleIInvSqrtMinusDMinusOne := ⟨_, rfl, Fe25.rDoubleIInvSqrtMinusDMinusOne⟩
  rDMinusOneSquared := ⟨_, rfl, Fe25.rDMinusOneSquared⟩
  rOneMinusDSquared := ⟨_, rfl, Fe25.rOneMinusDSquared⟩
  rDp1OverDm1 := ⟨_, rfl, Fe25.rDp1OverDm1⟩
  rSqrtID := ⟨_, rfl, Fe25.rSqrtID⟩
  rInvSqrt1pD := ⟨_, rfl, Fe25.rInvSqrt1pD⟩
  rBaseX := ⟨_, rfl, Fe25.rBaseX⟩
  rBaseY := ⟨_, rfl, Fe25.rBaseY⟩
  rBaseT := ⟨_, rfl, Fe25.rBaseT⟩
  baseS := by
    obtain ⟨h1, h2, h3⟩ := Fe25.simField.baseS
    exact ⟨⟨_, add_fine Fe25.rBaseX Fe25.rBaseY (by norm_num), h1⟩, ⟨_, add_fine Fe25.rBaseY Fe25.rBaseX (by norm_num), h2⟩,
      ⟨_, sub_fine Fe25.rBaseY Fe25.rBaseX (by norm_num), h3⟩⟩
  notBoth := Fe25.not_both

theorem isFine_of {n : ℕ} {a : Fe25W junk} {x : Fp} (h : RW n a x) : a.isFine = true := by
  obtain ⟨a', rfl, -⟩ := h; rfl

theorem ptFine_of {q : ExtPt (Fe25W junk)} {r : ExtPt Fp} (h : Sim.Loose q r) : Fe25W.ptFine q = true := by
  unfold Fe25W.ptFine
  rw [isFine_of h.X, isFine_of h.Y, isFine_of h.Z, isFine_of h.T]; rfl

theorem tabFine_of {t : Table (Fe25W junk)} {t' : Table Fp} (h : Sim.TabRel t t') : Fe25W.tabFine t = true := by
  unfold Fe25W.tabFine
  rw [List.all_eq_true]
  intro row hrow
  rw [List.all_eq_true]
  intro e he
  obtain ⟨i, hi, rfl⟩ := List.getElem_of_mem hrow
  have h1 := (List.forall₂_iff_get.1 h).2 i hi ((List.forall₂_iff_get.1 h).1 ▸ hi)
  obtain ⟨j, hj, rfl⟩ := List.getElem_of_mem he
  have h2 := (List.forall₂_iff_get.1 h1).2 j hj ((List.forall₂_iff_get.1 h1).1 ▸ hj)
  simp only [List.get_eq_getElem] at h2
  unfold Fe25W.nielsFine
  rw [isFine_of h2.P, isFine_of h2.M, isFine_of h2.D]; rfl

theorem fineTab_rel {t : Table Fe25} {t' : Table Fp} (h : Sim.TabRel t t') :
    Sim.TabRel (Fe25W.fineTab t : Table (Fe25W junk)) t' := by
  unfold Fe25W.fineTab
  refine List.forall₂_map_left_iff.2 (h.imp fun row row' hr => ?_)
  refine List.forall₂_map_left_iff.2 (hr.imp fun e e' he => ?_)
  exact ⟨⟨_, rfl, he.P⟩, ⟨_, rfl, he.M⟩, ⟨_, rfl, he.D⟩⟩

open Model.Words Ristretto.Words in
/-- The memories stay related. -/
theorem wrun_simMem {e : Env (Fe25W junk)} {e' : Env Fp} (he : Sim.SimEnv e e') : ∀ (cs : List WCmd) {raw : ℕ → Bool}
    {m : Mem (Fe25W junk)} {m' : Mem Fp}, Sim.SimMem raw m m' → SafeFrom raw (calls cs) = true →
    ∀ {w}, wrun e m cs = some w → ∃ raw', ∃ m'' : Mem Fp, Sim.SimMem raw' w.1 m''
  | [], raw, m, m', h, _, w, hw => by cases hw; exact ⟨raw, m', h⟩
  | c :: cs, raw, m, m', h, hs, w, hw => by
    have h1 : ∃ raw', SafeFrom raw' (calls cs) = true ∧ Sim.OptRel (Sim.SimOut raw') (wexec e m c) (wexec e' m' c) := by
      cases c with
      | put s w => exact ⟨raw, hs, h.setSc s w, rfl⟩
      | call c =>
        change SafeFrom raw (c :: calls cs) = true at hs
        unfold SafeFrom at hs
        rw [Bool.and_eq_true] at hs
        exact ⟨_, hs.2, Proofs.Sim.step he h c hs.1⟩
    obtain ⟨raw', hs', h1⟩ := h1
    unfold wrun at hw
    cases hx : wexec e m c with
    | none => rw [hx] at hw; cases hw
    | some x =>
      cases hy : wexec e' m' c with
      | none => rw [hx, hy] at h1; exact h1.elim
      | some y =>
        rw [hx, hy] at h1
        rw [hx] at hw
        simp only [Option.bind_eq_bind, Option.bind_some] at hw
        cases hr : wrun e x.1 cs with
        | none => rw [hr] at hw; cases hw
        | some z =>
          rw [hr] at hw
          cases hw
          exact (wrun_simMem he cs h1.1 hs' hr :)

end J25
end Ristretto.Proofs
