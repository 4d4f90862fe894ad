import Verif.Spec.EdRaw
import Verif.Proofs.SimMachine
import Verif.Proofs.EdGenericChecked

/-!
# Programs over package edwards25519 in the generic build
-/

namespace Ristretto.Proofs.Ed
open Model hiding Mem Cmd exec run bit Out
open Model.Ed FieldOps
open Ristretto.Ed (mayCall fullAfter setFull StepsFine Fine AState ARun)
open Sim (F2 R Loose Good Tight SC SN SJ SP OptRel SimField)
set_option autoImplicit false

section
variable {F : Type} [FieldOps F] [L : SimField F Fp]

/-- A related projective point, as `SetExtended` makes it. -/
structure SP2 (q : ProjPt F) (r : ProjPt Fp) : Prop where
  X : R 2 q.X r.X
  Y : R 2 q.Y r.Y
  Z : R 1 q.Z r.Z

theorem SP2.doubleProjective {q : ProjPt F} {r : ProjPt Fp} (h : SP2 q r) :
    SC (ComplPt.doubleProjective q) (ComplPt.doubleProjective r) := by
  have X := h.X.sq
  have Z := h.Y.sq
  have T := h.Z.dsq
  have t0 := (h.X.add h.Y).sq
  have Y := Z.add X
  have Z := Z.sub X
  exact ⟨t0.sub Y, Y.mono, Z.mono, T.sub Z⟩

theorem sp2 {q : ProjPt F} {r : ProjPt Fp} (h : SP q r) : SP2 q r := ⟨h.X.mono, h.Y.mono, h.Z⟩

section
variable {q : ExtPt F} {r : ExtPt Fp} {n : NielsPt F} {n' : NielsPt Fp}

theorem loose_addNiels (h : Loose q r) (h' : SN n n') :
    SC (ComplPt.addExtendedNiels q n) (ComplPt.addExtendedNiels r n') := by
  have X := h.Y.add h.X
  have Y := h.Y.sub h.X
  have Z := X.mul h'.P
  have Y := Y.mul h'.M
  have T := h'.D.mul h.T
  have t0 := h.Z.add h.Z
  exact ⟨(Z.sub Y).mono, (Z.add Y).mono, t0.add T, t0.sub T⟩

theorem loose_subNiels (h : Loose q r) (h' : SN n n') :
    SC (ComplPt.subExtendedNiels q n) (ComplPt.subExtendedNiels r n') := by
  have X := h.Y.add h.X
  have Y := h.Y.sub h.X
  have Z := X.mul h'.M
  have Y := Y.mul h'.P
  have T := h'.D.mul h.T
  have t0 := h.Z.add h.Z
  exact ⟨(Z.sub Y).mono, (Z.add Y).mono, t0.sub T, t0.add T⟩

theorem loose_niels (h : Loose q r) : SN (NielsPt.ofExtended q) (NielsPt.ofExtended r) := by
  have zInv := h.Z.inverse
  have x := h.X.mul zInv
  have y := h.Y.mul zInv
  have xy := x.mul y
  have xy := (xy.feAdd xy).mul (Sim.rD (F := F) (G := Fp))
  exact ⟨(y.feAdd x).mono, (y.feSub x).mono, xy.mono⟩
end

theorem elligator2_rel2 {r0 : F} {x0 : Fp} (h : R 2 r0 x0) :
    SC (setRistrettoElligator2 r0) (setRistrettoElligator2 x0) := by
  have hST : R 2 (elligator2Jacobi r0).S (elligator2Jacobi x0).S ∧ R 2 (elligator2Jacobi r0).T (elligator2Jacobi x0).T := by
    have r0i := h.mul (Sim.rI (F := F) (G := Fp))
    have r := h.mul r0i
    have rPlusD := (Sim.rD (F := F) (G := Fp)).add r
    have D := ((((Sim.rD (F := F) (G := Fp)).mul r).add (Sim.rOne (F := F) (G := Fp))).mul rPlusD).neg
    have rPlusOne := r.add (Sim.rOne (F := F) (G := Fp))
    have N := (Sim.rOneMinusDSquared (F := F) (G := Fp)).mul rPlusOne
    obtain ⟨sqrt, b⟩ := (N.mul D).invSqrtI
    have sqrt := sqrt.abs
    have twiddle := (Sim.rOne (F := F) (G := Fp)).cond r0i b.not
    have sgn := (Sim.rOne (F := F) (G := Fp)).cond (Sim.rMinusOne (F := F) (G := Fp)) b.not
    have sqrt := sqrt.mul twiddle
    have S := sqrt.mul N
    have T := S.mul (sqrt.mul sgn.neg)
    have T := ((Sim.rDMinusOneSquared (F := F) (G := Fp)).mul T)
    have T := (r.sub (Sim.rOne (F := F) (G := Fp))).mul T
    have T := T.sub (Sim.rOne (F := F) (G := Fp))
    have hs := S.isNeg
    have e : F2 (equal30 (isNegativeI (FieldOps.mul _ _)) _) (equal30 (isNegativeI (FieldOps.mul _ _)) _) :=
      ⟨congrArg₂ equal30 hs.1 b.1, Sim.flag_equal30 _ _⟩
    exact ⟨S.touch.cond (S.neg.mono) e, T⟩
  obtain ⟨hS, hT⟩ := hST
  have s2 := hS.sq
  exact ⟨(hS.mul (Sim.rDoubleInvSqrtMinusDMinusOne (F := F) (G := Fp))).mono, ((Sim.rOne (F := F) (G := Fp)).sub s2).mono, hT.mono,
    ((Sim.rOne (F := F) (G := Fp)).add s2).mono⟩

theorem setJacobi_rel {j : JacPt F} {k : JacPt Fp} (h : SJ j k) : SC (setJacobiQuartic j) (setJacobiQuartic k) := by
  have s2 := h.S.sq
  exact ⟨(h.S.mul (Sim.rDoubleInvSqrtMinusDMinusOne (F := F) (G := Fp))).mono, ((Sim.rOne (F := F) (G := Fp)).sub s2).mono, h.T.mono,
    ((Sim.rOne (F := F) (G := Fp)).add s2).mono⟩

/-- Related memories; `raw` says which extended points are only loosely related. -/
structure AllSim (raw : ℕ → Bool) (m : Mem F) (m' : Mem Fp) : Prop where
  fe : ∀ i, R 2 (m.fes i) (m'.fes i)
  ext : ∀ i, Loose (m.exts i) (m'.exts i)
  good : ∀ i, raw i = false → Good (m.exts i) (m'.exts i)
  cpl : ∀ i, SC (m.cpls i) (m'.cpls i)
  prj : ∀ i, SP2 (m.prjs i) (m'.prjs i)
  nls : ∀ i, SN (m.niels i) (m'.niels i)
  tab : ∀ i, Sim.TabRel (m.tabs i) (m'.tabs i)
  jac : ∀ i, SJ (m.jacs i) (m'.jacs i)

theorem put_rel {A B : Type} {P : A → B → Prop} {f : ℕ → A} {g : ℕ → B} (h : ∀ i, P (f i) (g i)) (k : ℕ) {v : A} {w : B}
    (hv : P v w) (i : ℕ) : P (if i = k then v else f i) (if i = k then w else g i) := by
  split
  · exact hv
  · exact h i

variable {raw : ℕ → Bool} {m : Mem F} {m' : Mem Fp}

theorem AllSim.setFe (h : AllSim raw m m') (f : ℕ) {v : F} {w : Fp} (hv : R 2 v w) :
    AllSim raw (m.setFe f v) (m'.setFe f w) := { h with fe := put_rel h.fe f hv }
theorem AllSim.setC (h : AllSim raw m m') (f : ℕ) {v : ComplPt F} {w : ComplPt Fp} (hv : SC v w) :
    AllSim raw (m.setC f v) (m'.setC f w) := { h with cpl := put_rel h.cpl f hv }
theorem AllSim.setP (h : AllSim raw m m') (f : ℕ) {v : ProjPt F} {w : ProjPt Fp} (hv : SP2 v w) :
    AllSim raw (m.setP f v) (m'.setP f w) := { h with prj := put_rel h.prj f hv }
theorem AllSim.setN (h : AllSim raw m m') (f : ℕ) {v : NielsPt F} {w : NielsPt Fp} (hv : SN v w) :
    AllSim raw (m.setN f v) (m'.setN f w) := { h with nls := put_rel h.nls f hv }
theorem AllSim.setT (h : AllSim raw m m') (f : ℕ) {v : Table F} {w : Table Fp} (hv : Sim.TabRel v w) :
    AllSim raw (m.setT f v) (m'.setT f w) := { h with tab := put_rel h.tab f hv }
theorem AllSim.setJ (h : AllSim raw m m') (f : ℕ) {v : JacPt F} {w : JacPt Fp} (hv : SJ v w) :
    AllSim raw (m.setJ f v) (m'.setJ f w) := { h with jac := put_rel h.jac f hv }
theorem AllSim.setE (h : AllSim raw m m') (f : ℕ) {v : ExtPt F} {w : ExtPt Fp} {b : Bool} (hv : Loose v w)
    (hg : b = false → Good v w) : AllSim (setFull raw f b) (m.setE f v) (m'.setE f w) :=
  { h with
    ext := put_rel h.ext f hv
    good := fun i hi => by
      show Good (if i = f then v else m.exts i) (if i = f then w else m'.exts i)
      unfold setFull at hi
      by_cases hk : i = f
      · rw [if_pos hk] at hi
        rw [if_pos hk, if_pos hk]; exact hg hi
      · rw [if_neg hk] at hi
        rw [if_neg hk, if_neg hk]; exact h.good i hi }
theorem AllSim.setG (h : AllSim raw m m') (f : ℕ) {v : ExtPt F} {w : ExtPt Fp} (hv : Good v w) :
    AllSim (setFull raw f false) (m.setE f v) (m'.setE f w) := h.setE f hv.toLoose fun _ => hv
theorem AllSim.touch (h : AllSim raw m m') (f : ℕ) : AllSim raw (m.touchFe f) (m'.touchFe f) :=
  h.setFe f (h.fe f).touch

theorem blankN : SN (⟨feZero, feZero, feZero⟩ : NielsPt F) (⟨feZero, feZero, feZero⟩ : NielsPt Fp) :=
  ⟨(Sim.rZero (F := F) (G := Fp)).mono, (Sim.rZero (F := F) (G := Fp)).mono, (Sim.rZero (F := F) (G := Fp)).mono⟩

theorem forall2_replicate {A B : Type} {P : A → B → Prop} {a : A} {b : B} (h : P a b) :
    ∀ n, List.Forall₂ P (List.replicate n a) (List.replicate n b)
  | 0 => .nil
  | n + 1 => .cons h (forall2_replicate h n)

theorem allSim_init : AllSim (fun _ => false) (Mem.init : Mem F) (Mem.init : Mem Fp) where
  fe _ := (Sim.rZero (F := F) (G := Fp)).mono
  ext _ := (Sim.tight_blank (F := F) (G := Fp)).loose
  good _ _ := (Sim.tight_blank (F := F) (G := Fp)).good
  cpl _ := ⟨(Sim.rZero (F := F) (G := Fp)).mono, (Sim.rZero (F := F) (G := Fp)).mono, (Sim.rZero (F := F) (G := Fp)).mono, (Sim.rZero (F := F) (G := Fp)).mono⟩
  prj _ := ⟨(Sim.rZero (F := F) (G := Fp)).mono, (Sim.rZero (F := F) (G := Fp)).mono, (Sim.rZero (F := F) (G := Fp))⟩
  nls _ := blankN
  tab _ := forall2_replicate (forall2_replicate blankN 8) 32
  jac _ := ⟨(Sim.rZero (F := F) (G := Fp)).mono, (Sim.rZero (F := F) (G := Fp))⟩

theorem nielsNeg_sim (h : AllSim raw m m') (n q : ℕ) : AllSim raw (nielsNegI m n q) (nielsNegI m' n q) := by
  have h1 := h.setN n (v := { m.niels n with YMinusX := (m.niels q).YPlusX })
    (w := { m'.niels n with YMinusX := (m'.niels q).YPlusX }) ⟨(h.nls n).P, (h.nls q).P, (h.nls n).D⟩
  have h2 := h1.setN n (v := { (m.setN n _).niels n with YPlusX := ((m.setN n _).niels q).YMinusX })
    (w := { (m'.setN n _).niels n with YPlusX := ((m'.setN n _).niels q).YMinusX }) ⟨(h1.nls q).M, (h1.nls n).M, (h1.nls n).D⟩
  exact h2.setN n ⟨(h2.nls n).P, (h2.nls n).M, (h2.nls q).D.neg⟩

theorem inverse_bytes : ∀ {l : List (F × Int32)} {l' : List (Fp × Int32)},
    List.Forall₂ (fun (e : F × Int32) (e' : Fp × Int32) => R 2 e.1 e'.1 ∧ F2 e.2 e'.2) l l' →
    (l.map fun x => bytes x.1) = l'.map fun x => bytes x.1 := by
  intro l l' h
  induction h with
  | nil => rfl
  | cons h1 _ ih => rw [List.map_cons, List.map_cons, h1.1.bytes, ih]

/-- One call. -/
theorem gexec_all (hI : R 1 (feMinusI : F) (feMinusI : Fp))
    (hD : ∀ {a b : F} {x y : Fp}, R 2 a x → R 2 b y → isNonZeroI (FieldOps.sub a b) = isNonZeroI (FieldOps.sub x y))
    (h : AllSim raw m m') (c : Cmd) (hc : mayCall raw c = true) :
    OptRel (fun (r : Mem F × Ed.Out) (r' : Mem Fp × Ed.Out) => r.2 = r'.2 ∧ AllSim (fullAfter raw c) r.1 r'.1) (gexec m c) (gexec m' c) := by
  cases c
  case fZero f => exact ⟨rfl, h.setFe f (Sim.rZero (F := F) (G := Fp)).mono⟩
  case fOne f => exact ⟨rfl, h.setFe f (Sim.rOne (F := F) (G := Fp)).mono⟩
  case fI f => exact ⟨rfl, h.setFe f (Sim.rI (F := F) (G := Fp)).mono⟩
  case fSet f x => exact ⟨rfl, h.setFe f (h.fe x)⟩
  case fAdd f x y => exact ⟨rfl, h.setFe f ((h.fe x).add (h.fe y)).norm.mono⟩
  case fSub f x y => exact ⟨rfl, h.setFe f ((h.fe x).sub (h.fe y)).norm.mono⟩
  case fNeg f x => exact ⟨rfl, h.setFe f (h.fe x).neg⟩
  case fMul f x y => exact ⟨rfl, h.setFe f ((h.fe x).mul (h.fe y)).mono⟩
  case fSquare f x => exact ⟨rfl, h.setFe f (h.fe x).sq.mono⟩
  case fDoubledSquare f x => exact ⟨rfl, h.setFe f (h.fe x).dsq.mono⟩
  case fInverse f x => exact ⟨rfl, h.setFe f (h.fe x).inverse.mono⟩
  case fAbs f x =>
    refine ⟨rfl, ?_⟩
    have h1 := h.setFe f (h.fe x)
    have h2 := h1.touch x
    exact h2.setFe f ((h2.fe f).cond (h.fe x).neg (h1.fe x).isNeg)
  case fExp22523 f x => exact ⟨rfl, h.setFe f (h.fe x).exp22523.mono⟩
  case fInvSqrt f x => exact ⟨rfl, h.setFe f (h.fe x).invSqrt.mono⟩
  case fSqrt f x => exact ⟨rfl, h.setFe f (h.fe x).sqrt⟩
  case fInvSqrtI f x =>
    obtain ⟨h1, h2⟩ := (h.fe x).invSqrtI
    exact ⟨congrArg Ed.Out.int32 h2.1, h.setFe f h1.mono⟩
  case fSetBytes f b => exact ⟨rfl, h.setFe f (Sim.setBytes F Fp b).mono⟩
  case fSetBigInt f x => exact ⟨rfl, h.setFe f (Sim.setBytes F Fp _).mono⟩
  case fCondSet f x b => exact ⟨rfl, h.setFe f ((h.fe f).cond (h.fe x) (bit_F2 b))⟩
  case fBytes f => exact ⟨congrArg Ed.Out.bytes (h.fe f).bytes, h.touch f⟩
  case fBigInt f =>
    refine ⟨congrArg Ed.Out.nat ?_, h.touch f⟩
    unfold feBigInt
    rw [(h.fe f).bytes]
  case fIsNegativeI f => exact ⟨congrArg Ed.Out.int32 (h.fe f).isNeg.1, h.touch f⟩
  case fIsNonZeroI f => exact ⟨congrArg Ed.Out.int32 (h.fe f).isNonZero.1, h.touch f⟩
  case fIsOneI f => exact ⟨congrArg Ed.Out.int32 (h.fe f).isOne.1, h⟩
  case fEqualsI f x =>
    refine ⟨congrArg Ed.Out.int32 ?_, h⟩
    unfold feEqualsI
    rw [hD (h.fe f) (h.fe x)]
  case fEquals f x =>
    refine ⟨congrArg Ed.Out.bool ?_, h⟩
    unfold feEquals
    rw [hD (h.fe f) (h.fe x)]
  case eZero e => exact ⟨rfl, h.setG e Sim.tight_zero.good⟩
  case eBase e => exact ⟨rfl, h.setG e Sim.good_base⟩
  case eTorsion1 e =>
    exact ⟨rfl, h.setG e (Tight.good (r := ExtPt.torsion1) (q := ExtPt.torsion1) ⟨(Sim.rZero (F := F) (G := Fp)), (Sim.rMinusOne (F := F) (G := Fp)), (Sim.rOne (F := F) (G := Fp)), (Sim.rZero (F := F) (G := Fp))⟩)⟩
  case eTorsion2 e => exact ⟨rfl, h.setG e (Tight.good (r := ExtPt.torsion2) (q := ExtPt.torsion2) ⟨(Sim.rI (F := F) (G := Fp)), (Sim.rZero (F := F) (G := Fp)), (Sim.rOne (F := F) (G := Fp)), (Sim.rZero (F := F) (G := Fp))⟩)⟩
  case eTorsion3 e => exact ⟨rfl, h.setG e (Tight.good (r := ExtPt.torsion3) (q := ExtPt.torsion3) ⟨hI, (Sim.rZero (F := F) (G := Fp)), (Sim.rOne (F := F) (G := Fp)), (Sim.rZero (F := F) (G := Fp))⟩)⟩
  case eSet e q => exact ⟨rfl, h.setE e (h.ext q) (h.good q)⟩
  case eCondSet e q b =>
    refine ⟨rfl, h.setE e ((h.ext e).condSet (h.ext q) (bit_F2 b)) fun hb => ?_⟩
    rw [Bool.or_eq_false_iff] at hb
    exact (h.good e hb.1).condSet (h.good q hb.2) (bit_F2 b)
  case eAdd e q r => exact ⟨rfl, h.setG e ((h.ext q).add (h.good r (by simpa [mayCall] using hc))).good⟩
  case eSub e q r => exact ⟨rfl, h.setG e ((h.ext q).sub (h.good r (by simpa [mayCall] using hc))).good⟩
  case eDouble e q => exact ⟨rfl, h.setG e (h.ext q).double.good⟩
  case eNeg e q => exact ⟨rfl, h.setE e (h.ext q).neg fun hb => (h.good q hb).neg⟩
  case eSetCompleted e c => exact ⟨rfl, h.setG e (h.cpl c).toExtended.good⟩
  case eSetRistretto e buf =>
    obtain ⟨h1, h2⟩ := Sim.setRistretto F Fp buf
    exact ⟨congrArg Ed.Out.bool h2, h.setE e h1 fun hb => by cases hb⟩
  case eRistretto e => exact ⟨congrArg Ed.Out.bytes (h.ext e).ristretto, h⟩
  case eEqualsI e q => exact ⟨congrArg Ed.Out.int32 ((h.ext e).equalsI (h.ext q)), h⟩
  case eScalarMult e q s => exact ⟨rfl, h.setG e ((h.good q (by simpa [mayCall] using hc)).scalarMult s).good⟩
  case eVarTimeScalarMult e q s =>
    exact ((h.good q (by simpa [mayCall] using hc)).varTime s).map fun _ _ ht => ⟨rfl, h.setG e ht.good⟩
  case cAddExtended c q r => exact ⟨rfl, h.setC c ((h.ext q).addExtended (h.good r (by simpa [mayCall] using hc)))⟩
  case cSubExtended c q r => exact ⟨rfl, h.setC c ((h.ext q).subExtended (h.good r (by simpa [mayCall] using hc)))⟩
  case cDoubleExtended c q => exact ⟨rfl, h.setC c (h.ext q).doubleExtended⟩
  case cDoubleProjective c p => exact ⟨rfl, h.setC c (h.prj p).doubleProjective⟩
  case cAddExtendedNiels c q n => exact ⟨rfl, h.setC c (loose_addNiels (h.ext q) (h.nls n))⟩
  case cSubExtendedNiels c q n => exact ⟨rfl, h.setC c (loose_subNiels (h.ext q) (h.nls n))⟩
  case cElligator c f => exact ⟨rfl, h.setC c (elligator2_rel2 (h.fe f))⟩
  case pZero p => exact ⟨rfl, h.setP p ⟨(Sim.rZero (F := F) (G := Fp)).mono, (Sim.rOne (F := F) (G := Fp)).mono, (Sim.rOne (F := F) (G := Fp))⟩⟩
  case pSetExtended p q => exact ⟨rfl, h.setP p ⟨(h.ext q).X, (h.ext q).Y, (h.ext q).Z⟩⟩
  case pSetCompleted p c => exact ⟨rfl, h.setP p (sp2 (h.cpl c).toProjective)⟩
  case nZero n => exact ⟨rfl, h.setN n Sim.sn_zero⟩
  case nSet n q => exact ⟨rfl, h.setN n (h.nls q)⟩
  case nCondSet n q b => exact ⟨rfl, h.setN n ((h.nls n).condSet (h.nls q) (bit_F2 b))⟩
  case nNeg n q => exact ⟨rfl, nielsNeg_sim h n q⟩
  case nSetExtended n q => exact ⟨rfl, h.setN n (loose_niels (h.ext q))⟩
  case tCompute t q => exact ⟨rfl, h.setT t (h.good q (by simpa [mayCall] using hc)).table⟩
  case tScalarMult t e s => exact ⟨rfl, h.setG e (Sim.tableMult_rel (h.tab t) s).good⟩
  case tVarTimeScalarMult t e s =>
    exact (Sim.tableVarTime_rel (h.tab t) s).map fun _ _ ht => ⟨rfl, h.setG e ht.good⟩
  case eToJacobi e j =>
    obtain ⟨h0, h1, h2, h3⟩ := (h.ext e).jacobi
    have hr := h.setE (b := true) e (h.ext e).jacobiRecv fun hb => by cases hb
    exact ⟨rfl, (((hr.setJ j h0).setJ _ h1).setJ _ h2).setJ _ h3⟩
  case eInverse e =>
    have hi := (h.ext e).inverse
    refine ⟨?_, h.setE (b := true) e (h.ext e).jacobiRecv fun hb => by cases hb⟩
    exact congrArg₂ Ed.Out.inverse (inverse_bytes hi) (Sim.inverseMask_rel hi 0)
  case jDual j k => exact ⟨rfl, h.setJ j (h.jac k).dual⟩
  case cSetJacobi c j => exact ⟨rfl, h.setC c (setJacobi_rel (h.jac j))⟩

/-- A program. -/
theorem grun_all (hI : R 1 (feMinusI : F) (feMinusI : Fp))
    (hD : ∀ {a b : F} {x y : Fp}, R 2 a x → R 2 b y → isNonZeroI (FieldOps.sub a b) = isNonZeroI (FieldOps.sub x y)) :
    ∀ (prog : List Cmd) {raw : ℕ → Bool} {m : Mem F} {m' : Mem Fp}, AllSim raw m m' → StepsFine raw prog = true →
      OptRel (fun (r : Mem F × List Ed.Out) (r' : Mem Fp × List Ed.Out) => r.2 = r'.2 ∧ ∃ raw', AllSim raw' r.1 r'.1)
        (grun m prog) (grun m' prog)
  | [], raw, m, m', h, _ => ⟨rfl, raw, h⟩
  | c :: cs, raw, m, m', h, hs => by
    unfold StepsFine at hs
    rw [Bool.and_eq_true] at hs
    have h1 := gexec_all hI hD h c hs.1
    unfold grun
    cases hg : gexec m c with
    | none =>
      cases hg' : gexec m' c with
      | none => trivial
      | some r' => rw [hg, hg'] at h1; exact h1.elim
    | some r =>
      cases hg' : gexec m' c with
      | none => rw [hg, hg'] at h1; exact h1.elim
      | some r' =>
        rw [hg, hg'] at h1
        obtain ⟨e1, h2⟩ := h1
        have h3 := grun_all hI hD cs h2 hs.2
        simp only
        cases hk : grun r.1 cs with
        | none =>
          cases hk' : grun r'.1 cs with
          | none => trivial
          | some s' => rw [hk, hk'] at h3; exact h3.elim
        | some s =>
          cases hk' : grun r'.1 cs with
          | none => rw [hk, hk'] at h3; exact h3.elim
          | some s' =>
            rw [hk, hk'] at h3
            obtain ⟨e2, h4⟩ := h3
            exact ⟨congrArg₂ List.cons e1 e2, h4⟩

/-- What a safe program does, in terms of the abstract machine. -/
theorem safe_program (hI : R 1 (feMinusI : F) (feMinusI : Fp))
    (hD : ∀ {a b : F} {x y : Fp}, R 2 a x → R 2 b y → isNonZeroI (FieldOps.sub a b) = isNonZeroI (FieldOps.sub x y))
    (prog : List Cmd) (hs : Fine prog = true) :
    (grun (Mem.init : Mem F) prog = none ↔ run (Mem.init : Mem Fp) prog = none) ∧
    ∀ m outs, grun (Mem.init : Mem F) prog = some (m, outs) → ∃ raw m' a, AllSim raw m m' ∧ Denotes m' a ∧
      ARun Ristretto.Ed.AState.init prog a outs := by
  have h := grun_all hI hD prog allSim_init hs
  rw [grun_eq (F := Fp) (fun _ => rfl)] at h
  constructor
  · cases hg : grun (Mem.init : Mem F) prog <;> cases hr : run (Mem.init : Mem Fp) prog <;> rw [hg, hr] at h
    · simp
    · exact h.elim
    · exact h.elim
    · simp
  · intro m outs hg
    rw [hg] at h
    cases hr : run (Mem.init : Mem Fp) prog with
    | none => rw [hr] at h; exact h.elim
    | some s =>
      rw [hr] at h
      obtain ⟨e, raw, h2⟩ := h
      obtain ⟨a, h3, h4⟩ := run_step (F := Fp) prog denotes_init (m' := s.1) (os := s.2) hr
      have e : outs = s.2 := e
      exact ⟨raw, s.1, a, h2, h4, e ▸ h3⟩

end

theorem rMinusI25 : Fe25.R 1 (feMinusI : Fe25) (feMinusI : Fp) :=
  .of_nat (n := p - 19681161376707505956807079304988542015446066515923890162744021073123829784752) (by decide +kernel)
    (by decide +kernel) (by
      rw [Nat.cast_sub (by norm_num [p]), ZMod.natCast_self, zero_sub]
      rfl)

theorem safe25 (prog : List Cmd) (hs : Fine prog = true) :
    (grun (Mem.init : Mem Fe25) prog = none ↔ run (Mem.init : Mem Fp) prog = none) ∧
    ∀ m outs, grun (Mem.init : Mem Fe25) prog = some (m, outs) → ∃ raw m' a, AllSim raw m m' ∧ Denotes m' a ∧
      ARun Ristretto.Ed.AState.init prog a outs :=
  safe_program (F := Fe25) rMinusI25 fsim25.diff prog hs

theorem safeW (junk : Bytes 32) (prog : List Cmd) (hs : Fine prog = true) :
    (grun (Mem.init : Mem (Fe25W junk)) prog = none ↔ run (Mem.init : Mem Fp) prog = none) ∧
    ∀ m outs, grun (Mem.init : Mem (Fe25W junk)) prog = some (m, outs) → ∃ raw m' a, AllSim raw m m' ∧ Denotes m' a ∧
      ARun Ristretto.Ed.AState.init prog a outs :=
  safe_program (F := Fe25W junk) (L := J25.simField) (show J25.RW 1 _ _ from ⟨_, rfl, rMinusI25⟩) J25.fsimW.diff prog hs

end Ristretto.Proofs.Ed
