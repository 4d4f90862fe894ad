import Verif.Proofs.Field51CheckedSim
import Verif.Proofs.EdAgree

/-!
# The checked default field runs the same programs over package edwards25519 as the default field
-/

namespace Ristretto.Proofs
open Model
set_option autoImplicit false

namespace W51
open Sim (F2 R Loose Good OptRel)
variable {junk : Bytes 32}

/-- Computed without loss, and related to the ideal element. -/
def RW (n : ℕ) (a : Fe51W junk) (x : Fp) : Prop := ∃ a', a = Fe51W.fine a' ∧ Fe51.RV n a' x
/-- Computed without loss, and small enough for a second factor. -/
def SW (a : Fe51W junk) (x : Fp) : Prop := ∃ a', a = Fe51W.fine a' ∧ Fe51.Bd (2 ^ 54) a' ∧ Fe51.eval a' = x

theorem add_fine {m n : ℕ} {a b : Fe51} {x y : Fp} (h : Fe51.RV m a x) (h' : Fe51.RV n b y) :
    FieldOps.add (Fe51W.fine a : Fe51W junk) (Fe51W.fine b) = Fe51W.fine (FieldOps.add a b) :=
  map₂_fine (add_in5 (in5_of h.2.1) (in5_of h'.2.1) (by omega)).ok (add_val a b)

theorem sub_fine {m n : ℕ} {a b : Fe51} {x y : Fp} (h : Fe51.RV m a x) (h' : Fe51.RV n b y) :
    FieldOps.sub (Fe51W.fine a : Fe51W junk) (Fe51W.fine b) = Fe51W.fine (FieldOps.sub a b) :=
  map₂_fine (sub_in5 (in5_of h.b63) (le_refl _) (in5_of h'.b63)).ok (sub_val a b)

theorem neg_fine {m : ℕ} {a : Fe51} {x : Fp} (h : Fe51.RV m a x) :
    FieldOps.neg (Fe51W.fine a : Fe51W junk) = Fe51W.fine (FieldOps.neg a) :=
  map_fine (neg_in5 (in5_of h.b63)).ok (neg_val a)

theorem norm_fine {m : ℕ} {a : Fe51} {x : Fp} (h : Fe51.RV m a x) :
    FieldOps.normalize (Fe51W.fine a : Fe51W junk) = Fe51W.fine (FieldOps.normalize a) :=
  map_fine (setReduced_in5 (in5_of h.b63)).ok (setReduced_val a)

theorem bytes_fine {m : ℕ} {a : Fe51} {x : Fp} (h : Fe51.RV m a x) :
    FieldOps.bytes (Fe51W.fine a : Fe51W junk) = FieldOps.bytes a := by
  have e : Fe51W.map WFe.setReduced (Fe51W.fine a : Fe51W junk) = Fe51W.fine (Model.Fe51.setReduced a) :=
    map_fine (setReduced_in5 (in5_of h.b63)).ok (setReduced_val a)
  show Fe51W.bytes (Fe51W.fine a : Fe51W junk) = _
  unfold Fe51W.bytes; rw [e]; rfl

instance simField : Sim.SimField (Fe51W junk) Fp where
  R := RW
  S := SW
  mono := fun ⟨a, h, r⟩ hmn => ⟨a, h, r.mono hmn⟩
  toS := fun ⟨a, h, r⟩ => ⟨a, h, r.le _ (by norm_num), r.2.2⟩
  add := by
    rintro m n _ _ x y ⟨a, rfl, r⟩ ⟨b, rfl, r'⟩ hmn
    exact ⟨_, add_fine r r', r.add r' hmn⟩
  sub := by
    rintro m n _ _ x y ⟨a, rfl, r⟩ ⟨b, rfl, r'⟩ hmn
    exact ⟨_, sub_fine r r', r.sub r' hmn⟩
  neg := by
    rintro m _ x ⟨a, rfl, r⟩ hm
    exact ⟨_, neg_fine r, r.neg⟩
  mulS := by
    rintro _ _ x y ⟨a, rfl, r⟩ ⟨b, rfl, hb, hy⟩
    have r' : Sim.S (F := Fe51) (G := Fp) b y := ⟨hb, hy⟩
    exact ⟨_, map₂_fine (mul_ok (in5_of (r.le _ (by norm_num))) (in5_of hb)) (mul_val a b), Fe51.simField.mulS r r'⟩
  sq := by
    rintro _ x ⟨a, rfl, r⟩
    exact ⟨_, map_fine (square_ok (in5_of (r.le _ (by norm_num)))) (square_val a), Fe51.simField.sq r⟩
  dsq := by
    rintro _ x ⟨a, rfl, r⟩
    exact ⟨_, map_fine (doubledSquare_ok (in5_of (r.le _ (by norm_num)))) (doubledSquare_val a), Fe51.simField.dsq r⟩
  norm := by
    rintro m _ x ⟨a, rfl, r⟩
    exact ⟨_, norm_fine r, r.norm⟩
  bytes := by
    rintro _ x ⟨a, rfl, r⟩
    rw [bytes_fine r]; exact r.bytes
  touch h := h
  isNeg := by
    rintro _ x ⟨a, rfl, r⟩
    have h := r.isNeg
    unfold isNegativeI at h ⊢
    rw [bytes_fine r]; exact h
  isNonZero := by
    rintro _ x ⟨a, rfl, r⟩
    have h := r.isNonZero
    unfold isNonZeroI at h ⊢
    rw [bytes_fine r]; exact h
  cond0 := fun h _ => h
  cond1 := fun _ h' => h'
  cond0_eq _ _ _ _ := ⟨rfl, rfl⟩
  cond1_eq _ _ _ _ := ⟨rfl, rfl⟩
  negS := by
    rintro _ _ x y ⟨a, rfl, r⟩ ⟨b, rfl, r'⟩ _ _ _
    have rn := r.neg
    rw [neg_fine r, add_fine rn r', add_fine r' rn, sub_fine r' rn]
    have h1 := rn.add r' (by norm_num)
    have h2 := r'.add rn (by norm_num)
    have h3 := r'.sub rn (by norm_num)
    exact ⟨⟨_, rfl, h1.le _ (by norm_num), h1.2.2⟩, ⟨_, rfl, h2.le _ (by norm_num), h2.2.2⟩,
      ⟨_, rfl, h3.le _ (by norm_num), h3.2.2⟩⟩
  setBytes b := ⟨_, rfl, Fe51.simField.setBytes b⟩
  rZero := ⟨_, rfl, Fe51.simField.rZero⟩
  rOne := ⟨_, rfl, Fe51.simField.rOne⟩
  rMinusOne := ⟨_, rfl, Fe51.simField.rMinusOne⟩
  rI := ⟨_, rfl, Fe51.simField.rI⟩
  rD := ⟨_, rfl, Fe51.simField.rD⟩
  r2D := ⟨_, rfl, Fe51.simField.r2D⟩
  rInvSqrtMinusDMinusOne := ⟨_, rfl, Fe51.simField.rInvSqrtMinusDMinusOne⟩
  rDoubleInvSqrtMinusDMinusOne := ⟨_, rfl, Fe51.simField.rDoubleInvSqrtMinusDMinusOne⟩
  rDoubleIInvSqrtMinusDMinusOne := ⟨_, rfl, Fe51.simField.rDoubleIInvSqrtMinusDMinusOne⟩
  rDMinusOneSquared := ⟨_, rfl, Fe51.simField.rDMinusOneSquared⟩
  rOneMinusDSquared := ⟨_, rfl, Fe51.simField.rOneMinusDSquared⟩
  rDp1OverDm1 := ⟨_, rfl, Fe51.simField.rDp1OverDm1⟩
  rSqrtID := ⟨_, rfl, Fe51.simField.rSqrtID⟩
  rInvSqrt1pD := ⟨_, rfl, Fe51.simField.rInvSqrt1pD⟩
  rBaseX := ⟨_, rfl, Fe51.simField.rBaseX⟩
  rBaseY := ⟨_, rfl, Fe51.simField.rBaseY⟩
  rBaseT := ⟨_, rfl, Fe51.simField.rBaseT⟩
  baseS := by
    obtain ⟨h1, h2, h3⟩ := Fe51.simField.baseS
    exact ⟨⟨_, add_fine Fe51.simField.rBaseX Fe51.simField.rBaseY, h1⟩, ⟨_, add_fine Fe51.simField.rBaseY Fe51.simField.rBaseX, h2⟩,
      ⟨_, sub_fine Fe51.simField.rBaseY Fe51.simField.rBaseX, h3⟩⟩
  notBoth := Fe25.not_both

theorem isFine_RW {n : ℕ} {a : Fe51W junk} {x : Fp} (h : RW n a x) : a.isFine = true := by
  obtain ⟨a', rfl, -⟩ := h; rfl

theorem nielsFine_RW {q : NielsPt (Fe51W junk)} {r : NielsPt Fp} (h : Sim.SN q r) : Fe51W.nielsFine q = true := by
  unfold Fe51W.nielsFine
  rw [isFine_RW h.P, isFine_RW h.M, isFine_RW h.D]; rfl

theorem ptFine_RW {q : ExtPt (Fe51W junk)} {r : ExtPt Fp} (h : Sim.Loose q r) : Fe51W.ptFine q = true := by
  unfold Fe51W.ptFine
  rw [isFine_RW h.X, isFine_RW h.Y, isFine_RW h.Z, isFine_RW h.T]; rfl

theorem tabFine_RW {t : Table (Fe51W junk)} {t' : Table Fp} (h : Sim.TabRel t t') : Fe51W.tabFine t = true := by
  unfold Fe51W.tabFine
  rw [List.all_eq_true]
  intro row hrow
  rw [List.all_eq_true]
  intro e he
  obtain ⟨i, hi, rfl⟩ := List.getElem_of_mem hrow
  have h1 := (List.forall₂_iff_get.1 h).2 i hi ((List.forall₂_iff_get.1 h).1 ▸ hi)
  obtain ⟨j, hj, rfl⟩ := List.getElem_of_mem he
  have h2 := (List.forall₂_iff_get.1 h1).2 j hj ((List.forall₂_iff_get.1 h1).1 ▸ hj)
  simp only [List.get_eq_getElem] at h2
  exact nielsFine_RW h2

theorem goodW {q : ExtPt (Fe51W junk)} {r : ExtPt Fp} (h : Loose q r) : Good q r := by
  have hs : ∀ {a : Fe51W junk} {x : Fp}, R 4 a x → Sim.S a x := fun ⟨a, e, k⟩ => ⟨a, e, k.2.1.mono (by norm_num), k.2.2⟩
  exact { h with s1 := hs (h.X.add h.Y), s2 := hs (h.Y.add h.X), s3 := hs (h.Y.sub h.X) }

open Model.Ed in
/-- The checked default build and the ideal field. -/
theorem run51W (prog : List Model.Ed.Cmd) :
    OptRel (fun (r : Model.Ed.Mem (Fe51W junk) × List Model.Ed.Out) (r' : Model.Ed.Mem Fp × List Model.Ed.Out) =>
        r.2 = r'.2 ∧ Proofs.Ed.AllSim (fun _ => false) r.1 r'.1)
      (Model.Ed.run (Model.Ed.Mem.init : Model.Ed.Mem (Fe51W junk)) prog) (Model.Ed.run (Model.Ed.Mem.init : Model.Ed.Mem Fp) prog) := by
  have h := Proofs.Ed.grun_free (F := Fe51W junk) goodW
    (show RW 1 _ _ from ⟨_, rfl, Fe51.RV.of1 (by decide +kernel) (LawfulField.eval_feMinusI (F := Fe51))⟩)
    (by
      rintro _ _ x y ⟨a, rfl, r⟩ ⟨b, rfl, r'⟩
      have k := r.sub r' (by norm_num)
      have h := k.isNonZero.1
      rw [sub_fine r r']
      unfold isNonZeroI at h ⊢
      rw [bytes_fine k]; exact h) prog Proofs.Ed.allSim_init
  rw [Proofs.Ed.grun_eq (F := Fe51W junk) (fun _ => rfl), Proofs.Ed.grun_eq (F := Fp) (fun _ => rfl)] at h
  exact h

end W51
end Ristretto.Proofs
