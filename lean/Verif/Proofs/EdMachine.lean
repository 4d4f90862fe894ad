import Verif.Spec.EdMachine
import Verif.Proofs.EdExact
import Verif.Proofs.Lizard

/-!
# Programs over package edwards25519 compute in the field and on the curve
-/

namespace Ristretto.Proofs.Ed
open Model Model.Ed FieldOps LawfulField Ristretto.Ed Spec.EdRange
open Model.Ed (Mem exec run)
set_option autoImplicit false

variable {F : Type} [LawfulField F]

/-- The variables hold what the abstract state says. -/
structure Denotes (m : Mem F) (a : AState) : Prop where
  fe : ∀ i, bd 2 (m.fes i) ∧ eval (m.fes i) = a.fes i
  ext : ∀ i (P : Even), a.exts i = some P → IsPt (m.exts i) P
  cpl : ∀ i (P : Even), a.cpls i = some P → IsCp (m.cpls i) P
  prj : ∀ i (P : Even), a.prjs i = some P → IsPp (m.prjs i) P
  nls : ∀ i (P : Even), a.niels i = some P → IsNp (m.niels i) P
  tab : ∀ i (P : Even), a.tabs i = some P → IsTable (m.tabs i) P
  shape : ∀ i, ShapeT (m.tabs i)
  jac : ∀ i s t, a.jacs i = some (s, t) → IsJac (m.jacs i) s t ∧ OnJac s t

theorem denotes_init : Denotes (Mem.init : Mem F) AState.init where
  fe _ := ⟨bd_mono (by omega) bd_feZero, eval_feZero⟩
  ext _ _ h := by cases h
  cpl _ _ h := by cases h
  prj _ _ h := by cases h
  nls _ _ h := by cases h
  tab _ _ h := by cases h
  shape _ := by
    refine ⟨List.length_replicate .., fun row h => ?_⟩
    rw [List.eq_of_mem_replicate h]
    exact List.length_replicate ..
  jac _ _ _ h := by cases h

variable {m : Mem F} {a : AState}

theorem Denotes.setFe (h : Denotes m a) (i : ℕ) {v : F} {w : Fp} (hb : bd 2 v) (he : eval v = w) :
    Denotes (m.setFe i v) (a.setFe i w) :=
  { h with
    fe := fun k => by
      simp only [Mem.setFe, AState.setFe, put]
      by_cases hk : k = i
      · rw [if_pos hk, if_pos hk]; exact ⟨hb, he⟩
      · rw [if_neg hk, if_neg hk]; exact h.fe k }

theorem Denotes.setE (h : Denotes m a) (i : ℕ) {v : ExtPt F} {w : Option Even} (hv : ∀ P : Even, w = some P → IsPt v P) :
    Denotes (m.setE i v) (a.setE i w) :=
  { h with
    ext := fun k P => by
      simp only [Mem.setE, AState.setE, put]
      by_cases hk : k = i
      · rw [if_pos hk, if_pos hk]; exact hv P
      · rw [if_neg hk, if_neg hk]; exact h.ext k P }

theorem Denotes.setC (h : Denotes m a) (i : ℕ) {v : ComplPt F} {w : Option Even}
    (hv : ∀ P : Even, w = some P → IsCp v P) : Denotes (m.setC i v) (a.setC i w) :=
  { h with
    cpl := fun k P => by
      simp only [Mem.setC, AState.setC, put]
      by_cases hk : k = i
      · rw [if_pos hk, if_pos hk]; exact hv P
      · rw [if_neg hk, if_neg hk]; exact h.cpl k P }

theorem Denotes.setP (h : Denotes m a) (i : ℕ) {v : ProjPt F} {w : Option Even}
    (hv : ∀ P : Even, w = some P → IsPp v P) : Denotes (m.setP i v) (a.setP i w) :=
  { h with
    prj := fun k P => by
      simp only [Mem.setP, AState.setP, put]
      by_cases hk : k = i
      · rw [if_pos hk, if_pos hk]; exact hv P
      · rw [if_neg hk, if_neg hk]; exact h.prj k P }

theorem Denotes.setN (h : Denotes m a) (i : ℕ) {v : NielsPt F} {w : Option Even}
    (hv : ∀ P : Even, w = some P → IsNp v P) : Denotes (m.setN i v) (a.setN i w) :=
  { h with
    nls := fun k P => by
      simp only [Mem.setN, AState.setN, put]
      by_cases hk : k = i
      · rw [if_pos hk, if_pos hk]; exact hv P
      · rw [if_neg hk, if_neg hk]; exact h.nls k P }

theorem Denotes.setT (h : Denotes m a) (i : ℕ) {v : Table F} {w : Option Even} (hs : ShapeT v)
    (hv : ∀ P : Even, w = some P → IsTable v P) : Denotes (m.setT i v) (a.setT i w) :=
  { h with
    tab := fun k P => by
      simp only [Mem.setT, AState.setT, put]
      by_cases hk : k = i
      · rw [if_pos hk, if_pos hk]; exact hv P
      · rw [if_neg hk, if_neg hk]; exact h.tab k P
    shape := fun k => by
      simp only [Mem.setT]
      by_cases hk : k = i
      · rw [if_pos hk]; exact hs
      · rw [if_neg hk]; exact h.shape k }

theorem Denotes.setJ (h : Denotes m a) (i : ℕ) {v : JacPt F} {w : Option (Fp × Fp)}
    (hv : ∀ s t, w = some (s, t) → IsJac v s t ∧ OnJac s t) : Denotes (m.setJ i v) (a.setJ i w) :=
  { h with
    jac := fun k s t => by
      simp only [Mem.setJ, AState.setJ, put]
      by_cases hk : k = i
      · rw [if_pos hk, if_pos hk]; exact hv s t
      · rw [if_neg hk, if_neg hk]; exact h.jac k s t }

/-- What panics, and what does not. -/
theorem exec_none_iff (h : Denotes m a) (c : Cmd) : exec m c = none ↔ Panics c := by
  cases c
  case eVarTimeScalarMult e q s =>
    obtain ⟨r, hr⟩ := varTime_total (m.exts q) s
    simp [exec, hr, Panics]
  case tVarTimeScalarMult t e s =>
    simp only [exec, Option.map_eq_none_iff, Panics]
    constructor
    · intro hn
      by_contra hc
      obtain ⟨r, hr⟩ := tableVarTime_total (h.shape t) s (by omega)
      rw [hr] at hn
      cases hn
    · exact tableVarTime_panic (h.shape t) s
  all_goals simp [exec, Panics]

/-! Lifting to unknown operands -/

theorem addO_some {x y : Option Even} {P : Even} (h : addO x y = some P) : ∃ Q R, x = some Q ∧ y = some R ∧ P = Q + R := by
  cases x <;> cases y <;> simp_all [addO]

theorem subO_some {x y : Option Even} {P : Even} (h : subO x y = some P) : ∃ Q R, x = some Q ∧ y = some R ∧ P = Q - R := by
  cases x <;> cases y <;> simp_all [subO]

theorem negO_some {x : Option Even} {P : Even} (h : negO x = some P) : ∃ Q, x = some Q ∧ P = -Q := by
  cases x <;> simp_all [negO]

theorem smulO_some {n : ℤ} {x : Option Even} {P : Even} (h : smulO n x = some P) : ∃ Q, x = some Q ∧ P = n • Q := by
  cases x <;> simp_all [smulO]

theorem coe_smul (n : ℕ) (P : Even) : ((n • P : Even) : EPoint) = n • (P : EPoint) := rfl

theorem flag_bit (b : Bool) : bit b = flag (b = true) := by cases b <;> rfl

theorem torsion_spec : IsPt (ExtPt.torsion1 : ExtPt F) torsM ∧ IsPt (ExtPt.torsion2 : ExtPt F) torsI ∧
    IsPt (ExtPt.torsion3 : ExtPt F) (-torsI) := by
  refine ⟨⟨?_, ?_, ?_, ?_, ?_⟩, ⟨?_, ?_, ?_, ?_, ?_⟩, ⟨?_, ?_, ?_, ?_, ?_⟩⟩
  all_goals first
    | exact bd12 LawfulField.bd_feZero
    | exact bd12 LawfulField.bd_feOne
    | exact bd12 LawfulField.bd_feMinusOne
    | exact bd12 LawfulField.bd_feI
    | exact bd12 LawfulField.bd_feMinusI
    | skip
  all_goals
    simp only [ExtPt.torsion1, ExtPt.torsion2, ExtPt.torsion3, LawfulField.eval_feZero, LawfulField.eval_feOne,
      LawfulField.eval_feMinusOne, LawfulField.eval_feI, LawfulField.eval_feMinusI]
    constructor <;> simp [torsM, torsI]

theorem baseE_eq : (baseE : EPoint) = basePt := by
  rw [basePt_eq, ← sub_eq_add_neg]; rfl

theorem setBigInt_spec (x : ℤ) : bd 1 (feSetBigInt x : F) ∧ eval (feSetBigInt x : F) = (x : Fp) := by
  unfold feSetBigInt
  have hpos : (0 : ℤ) ≤ x % (2 ^ 255 - 19) := Int.emod_nonneg _ (by norm_num)
  have hlt : x % (2 ^ 255 - 19) < 2 ^ 255 - 19 := Int.emod_lt_of_pos _ (by norm_num)
  obtain ⟨h1, h2⟩ := setBytes_law (F := F) (leBytes 32 (x % (2 ^ 255 - 19)).toNat)
  refine ⟨h1, h2.trans ?_⟩
  rw [leVal_leBytes]
  have hn : (x % (2 ^ 255 - 19)).toNat < 2 ^ 255 := by
    have : ((x % (2 ^ 255 - 19)).toNat : ℤ) < 2 ^ 255 := by rw [Int.toNat_of_nonneg hpos]; linarith
    exact_mod_cast this
  rw [Nat.mod_eq_of_lt (lt_trans hn (by norm_num)), Nat.mod_eq_of_lt hn]
  have : (((x % (2 ^ 255 - 19)).toNat : ℕ) : Fp) = ((x % (2 ^ 255 - 19) : ℤ) : Fp) := by
    rw [← Int.cast_natCast, Int.toNat_of_nonneg hpos]
  rw [this]
  have hp : (2 ^ 255 - 19 : ℤ) = (p : ℤ) := by norm_num [p]
  rw [hp]
  exact (ZMod.intCast_eq_intCast_iff _ _ p).2 (Int.mod_modEq _ _)

/-! The calls -/

/-- A call that writes a field element. -/
theorem Denotes.wFe (h : Denotes m a) (i : ℕ) {v : F} {w : Fp} {n : ℕ} (hn : n ≤ 2) (hv : bd n v ∧ eval v = w) :
    Denotes (m.setFe i v) (a.setFe i w) := h.setFe i (bd_mono hn hv.1) hv.2

theorem Denotes.b6 (h : Denotes m a) (i : ℕ) : bd 6 (m.fes i) := bd_mono (by omega) (h.fe i).1
theorem Denotes.b12 (h : Denotes m a) (i : ℕ) : bd 12 (m.fes i) := bd_mono (by omega) (h.fe i).1

theorem nielsNegI_ne {n q : ℕ} (hn : n ≠ q) (m : Mem F) : nielsNegI m n q = m.setN n (m.niels q).neg := by
  have hq : q ≠ n := fun h => hn h.symm
  unfold nielsNegI Mem.setN
  simp only [if_neg hq, if_true, NielsPt.neg]
  congr 1
  funext k
  split
  · rename_i h; simp [h]
  · rfl

theorem nielsNegI_any (m : Mem F) (n q : ℕ) : ∃ v, nielsNegI m n q = m.setN n v := by
  refine ⟨(nielsNegI m n q).niels n, ?_⟩
  unfold nielsNegI Mem.setN
  simp only [if_true]
  congr 1
  funext k
  split <;> rfl

open Classical in
theorem flag_ite (c : Prop) [Decidable c] : flag c = if c then 1 else 0 := rfl

theorem absFp_eq (x : Fp) [Decidable (IsNeg x)] : absFp x = if IsNeg x then -x else x := by
  unfold absFp; congr

theorem coe_zsmul (n : ℤ) (P : Even) : ((n • P : Even) : EPoint) = n • (P : EPoint) := rfl

theorem recv_spec {q : ExtPt F} {P : EPoint} (h : IsPt q P) : IsPt (toJacobiQuarticRistrettoRecv q) P := by
  obtain ⟨x1, x2⟩ := touch_law h.bX
  obtain ⟨y1, y2⟩ := touch_law h.bY
  refine ⟨x1, y1, h.bZ, h.bT, ?_⟩
  have := h.proj
  unfold toJacobiQuarticRistrettoRecv
  simp only [x2, y2]
  exact this

theorem recv_denotes (h : Denotes m a) (e : ℕ) : Denotes (m.setE e (toJacobiQuarticRistrettoRecv (m.exts e))) a :=
  { h with
    ext := fun k P hP => by
      simp only [Mem.setE]
      by_cases hk : k = e
      · rw [if_pos hk]; exact recv_spec (h.ext e P (hk ▸ hP))
      · rw [if_neg hk]; exact h.ext k P hP }

theorem dualJac {q : JacPt F} {s t : Fp} (h : IsJac q s t) : IsJac q.dual (-s) (-t) := by
  obtain ⟨c, ce⟩ := neg_law (bd26 h.bS)
  obtain ⟨e, ee⟩ := neg_law (bd36 h.bT)
  exact ⟨c, bd_mono (by norm_num) e, by
    show eval (neg q.S) = _
    rw [ce, h.hS], by
    show eval (neg q.T) = _
    rw [ee, h.hT]⟩

theorem classOf_eq_zero {P : Even} : classOf P = 0 ↔ (P : EPoint) ∈ E4 := by
  have : classOf P = 0 ↔ (P : EPoint) - 0 ∈ E4 := cls_eq P.2 Even.zero_mem
  rwa [sub_zero] at this

theorem fourPairs_exist {q : ExtPt F} {P : Even} (h : IsPt q P) : ∃ w : Fin 4 → Fp × Fp, FourPairs P w ∧
    (∀ i, OnJac (w i).1 (w i).2) ∧ IsJac (toJacobiQuarticRistretto q).1 (w 0).1 (w 0).2 ∧
    IsJac (toJacobiQuarticRistretto q).2.1 (w 1).1 (w 1).2 ∧ IsJac (toJacobiQuarticRistretto q).2.2.1 (w 2).1 (w 2).2 ∧
    IsJac (toJacobiQuarticRistretto q).2.2.2 (w 3).1 (w 3).2 := by
  by_cases hE : (P : EPoint) ∈ E4
  · obtain ⟨a, b, c, e⟩ := toJacobi_neutral h (mul_eq_zero.2 (mem_E4.1 hE))
    refine ⟨![(0, 1), (0, 1), (1, 2 * sqrtM1 * eC), (-1, 2 * sqrtM1 * eC)],
      ⟨fun hn => absurd (classOf_eq_zero.2 hE) hn, fun _ => rfl⟩, ?_, a, b, c, e⟩
    intro i
    fin_cases i
    · exact onJac_zero_one
    · exact onJac_zero_one
    · exact onJac_one
    · exact onJac_neg_one
  · obtain ⟨s0, t0, s1, t1, s2, t2, s3, t3, j0, o0, j1, o1, j2, o2, j3, o3⟩ := toJacobi_regular h P.2 (xy_ne_of_not_E4 hE)
    have hx : ∀ T ∈ E4, ((P : EPoint) + T).x ≠ 0 := by
      intro T hT h0
      apply hE
      have := E4.sub_mem (mem_E4.2 (Or.inl h0)) hT
      rwa [add_sub_cancel_right] at this
    have hon : ∀ i : Fin 4, OnJac ((![(s0, t0), (s1, t1), (s2, t2), (s3, t3)] : Fin 4 → Fp × Fp) i).1
        ((![(s0, t0), (s1, t1), (s2, t2), (s3, t3)] : Fin 4 → Fp × Fp) i).2 := by
      intro i
      fin_cases i
      · exact onJac_of_ofJac o0 (by have := hx 0 E4.zero_mem; rwa [add_zero] at this)
      · exact onJac_of_ofJac o1 (hx _ torsM_mem)
      · exact onJac_of_ofJac o2 (hx _ (E4.neg_mem torsI_mem))
      · exact onJac_of_ofJac o3 (hx _ torsI_mem)
    refine ⟨![(s0, t0), (s1, t1), (s2, t2), (s3, t3)], ⟨fun _ => ⟨hon, o0, o1, ?_, o3⟩, fun h0 => absurd (classOf_eq_zero.1 h0) hE⟩, hon,
      j0, j1, j2, j3⟩
    rw [sub_eq_add_neg]
    exact o2

theorem toJacobi_step (h : Denotes m a) (e j : ℕ) :
    ∃ a', AStep a (.eToJacobi e j) a' .unit ∧
      Denotes (((((m.setE e (toJacobiQuarticRistrettoRecv (m.exts e))).setJ j (toJacobiQuarticRistretto (m.exts e)).1).setJ (j + 1)
        (toJacobiQuarticRistretto (m.exts e)).2.1).setJ (j + 2) (toJacobiQuarticRistretto (m.exts e)).2.2.1).setJ (j + 3)
        (toJacobiQuarticRistretto (m.exts e)).2.2.2) a' := by
  have hr := recv_denotes h e
  cases hP : a.exts e with
  | none =>
    refine ⟨_, ⟨rfl, fun _ => none, rfl, fun _ => rfl, fun P h' => by rw [hP] at h'; cases h'⟩, ?_⟩
    exact (((hr.setJ j fun _ _ h' => by cases h').setJ _ fun _ _ h' => by cases h').setJ _ fun _ _ h' => by cases h').setJ _
      fun _ _ h' => by cases h'
  | some P =>
    obtain ⟨w, hw, ho, h0, h1, h2, h3⟩ := fourPairs_exist (h.ext e P hP)
    refine ⟨_, ⟨rfl, fun i => some (w i), rfl, fun h' => (by rw [hP] at h'; cases h'), fun Q hQ => ?_⟩, ?_⟩
    · rw [hP] at hQ
      cases hQ
      exact ⟨w, hw, rfl⟩
    · refine (((hr.setJ j ?_).setJ _ ?_).setJ _ ?_).setJ _ ?_
      · intro s t hst
        have e := Option.some.inj hst
        rw [show s = (w 0).1 by rw [e], show t = (w 0).2 by rw [e]]
        exact ⟨h0, ho 0⟩
      · intro s t hst
        have e := Option.some.inj hst
        rw [show s = (w 1).1 by rw [e], show t = (w 1).2 by rw [e]]
        exact ⟨h1, ho 1⟩
      · intro s t hst
        have e := Option.some.inj hst
        rw [show s = (w 2).1 by rw [e], show t = (w 2).2 by rw [e]]
        exact ⟨h2, ho 2⟩
      · intro s t hst
        have e := Option.some.inj hst
        rw [show s = (w 3).1 by rw [e], show t = (w 3).2 by rw [e]]
        exact ⟨h3, ho 3⟩

theorem mask_testBit : ∀ (k : UInt8) (j : Fin 8), ((k >>> UInt8.ofNat j) &&& 1 = 1) ↔ k.toNat.testBit j = true :=
  uint8_forall (by decide +kernel)

theorem inverse_all {q : ExtPt F} {P : Even} (h : IsPt q P) :
    ∀ e ∈ ristrettoElligator2Inverse q, (e.2 = 0 ∨ e.2 = 1) ∧ bd 6 e.1 := by
  obtain ⟨w, -, ho, h0, h1, h2, h3⟩ := fourPairs_exist h
  intro e he
  obtain ⟨j, -, hr⟩ := forall2_right (inverse_results h0 (ho 0) h1 (ho 1) h2 (ho 2) h3 (ho 3)) he
  exact ⟨hr.bits, hr.bound⟩

theorem sq_mul_d_iff {x : Fp} (hx : ¬ IsNeg x) : x ^ 2 * d = sqrtM1 ↔ x = missed := by
  constructor
  · intro h
    have h1 : (x - missed) * (x + missed) * d = 0 := by linear_combination h - missed_sq
    rcases mul_eq_zero.1 ((mul_eq_zero.1 h1).resolve_right d_ne_zero) with h2 | h2
    · exact sub_eq_zero.1 h2
    · exfalso
      have h3 : x = -missed := eq_neg_of_add_eq_zero_left h2
      have h4 := isNeg_neg missed_ne_zero
      rw [← h3] at h4
      exact hx (h4.2 missed_nonneg)
  · rintro rfl
    rw [sq]; exact missed_sq

theorem preimages_spec {q : ExtPt F} {P : Even} (h : IsPt q P) :
    Preimages P ((ristrettoElligator2Inverse q).map fun x => bytes x.1)
      (Point.inverseMask 0 (ristrettoElligator2Inverse q)) := by
  have hl : (ristrettoElligator2Inverse q).length = 8 := rfl
  have hall := inverse_all h
  have hreg := fun hE => inverse_exact h P.2 (P := (P : EPoint)) hE
  have hneu := fun hE => inverse_neutral h (P := (P : EPoint)) hE
  have hdis := fun hE => inverse_distinct h P.2 (P := (P : EPoint)) hE
  generalize ristrettoElligator2Inverse q = L at *
  have hbit : ∀ j (hj : j < L.length), (Point.inverseMask 0 L).toNat.testBit j = true ↔ L[j].2 = 1 := by
    intro j hj
    have h1 := mask_testBit (Point.inverseMask 0 L) ⟨j, by omega⟩
    have h2 := inverseMask_bit hl (fun e he => (hall e he).1) (j := j) (by omega)
    rw [← h1, h2]
    split <;> simp_all
  have hval : ∀ j (hj : j < L.length), leVal (bytes L[j].1) = (eval L[j].1).val := fun j hj =>
    bytes_law (bd_mono (by omega) (hall _ (List.getElem_mem hj)).2)
  have hfound : ∀ x : Fp, (∃ (j : ℕ) (b : Bytes 32), (L.map fun x => bytes x.1)[j]? = some b ∧
      (Point.inverseMask 0 L).toNat.testBit j = true ∧ leVal b = x.val) ↔ Found L x := by
    intro x
    constructor
    · rintro ⟨j, b, hb, ht, hv⟩
      rw [List.getElem?_map, Option.map_eq_some_iff] at hb
      obtain ⟨e, he, rfl⟩ := hb
      obtain ⟨hj, rfl⟩ := List.getElem?_eq_some_iff.1 he
      refine ⟨_, List.getElem_mem hj, (hbit j hj).1 ht, ?_⟩
      rw [hval j hj] at hv
      exact ZMod.val_injective _ hv
    · rintro ⟨e, he, h1, rfl⟩
      obtain ⟨j, hj, rfl⟩ := List.mem_iff_getElem.1 he
      exact ⟨j, _, by rw [List.getElem?_map, List.getElem?_eq_getElem hj]; rfl, (hbit j hj).2 h1, hval j hj⟩
  have hcls : ∀ x : Fp, (∃ Q, Elligator x Q ∧ Q - (P : EPoint) ∈ E4) ↔ ∃ Q : Even, Elligator x Q ∧ classOf Q = classOf P := by
    intro x
    constructor
    · rintro ⟨Q, h1, h2⟩
      exact ⟨⟨Q, elligator_even h1⟩, h1, (cls_eq _ _).2 h2⟩
    · rintro ⟨Q, h1, h2⟩
      exact ⟨Q, h1, (cls_eq _ _).1 h2⟩
  refine ⟨by rw [List.length_map]; exact hl, fun x => ?_, fun hP j k b hj hk h1 h2 => ?_⟩
  · rw [hfound x]
    by_cases hE : (P : EPoint) ∈ E4
    · rw [hneu hE x, hcls x]
      constructor
      · rintro ⟨a1, a2, a3⟩
        exact ⟨a1, a2, fun _ h' => a3 ((sq_mul_d_iff a1).1 h')⟩
      · rintro ⟨a1, a2, a3⟩
        exact ⟨a1, a2, fun h' => a3 (classOf_eq_zero.2 hE) ((sq_mul_d_iff a1).2 h')⟩
    · rw [hreg hE x, hcls x]
      constructor
      · rintro ⟨a1, a2⟩
        exact ⟨a1, a2, fun h' => absurd (classOf_eq_zero.1 h') hE⟩
      · rintro ⟨a1, a2, -⟩
        exact ⟨a1, a2⟩
  · have hE : (P : EPoint) ∉ E4 := fun h' => hP (classOf_eq_zero.2 h')
    have hd := List.pairwise_iff_getElem.1 (hdis hE)
    rw [List.getElem?_map, Option.map_eq_some_iff] at hj hk
    obtain ⟨e, he, he'⟩ := hj
    obtain ⟨f, hf, hf'⟩ := hk
    obtain ⟨hj, rfl⟩ := List.getElem?_eq_some_iff.1 he
    obtain ⟨hk, rfl⟩ := List.getElem?_eq_some_iff.1 hf
    have hv : eval L[j].1 = eval L[k].1 := by
      apply ZMod.val_injective
      rw [← hval j hj, ← hval k hk, he', hf']
    rcases Nat.lt_trichotomy j k with hlt | heq | hlt
    · exact absurd hv (hd j k hj hk hlt ((hbit j hj).1 h1) ((hbit k hk).1 h2))
    · exact heq
    · exact absurd hv.symm (hd k j hk hj hlt ((hbit k hk).1 h2) ((hbit j hj).1 h1))

set_option maxHeartbeats 1000000 in
open Classical in
/-- One call. -/
theorem exec_step (h : Denotes m a) (c : Cmd) {m' : Mem F} {o : Out} (he : exec m c = some (m', o)) :
    ∃ a', AStep a c a' o ∧ Denotes m' a' := by
  cases c
  case fZero f => cases he; exact ⟨_, ⟨rfl, rfl⟩, h.wFe f (by omega) ⟨bd_feZero, eval_feZero⟩⟩
  case fOne f => cases he; exact ⟨_, ⟨rfl, rfl⟩, h.wFe f (by omega) ⟨bd_feOne, eval_feOne⟩⟩
  case fI f => cases he; exact ⟨_, ⟨rfl, rfl⟩, h.wFe f (by omega) ⟨bd_feI, eval_feI⟩⟩
  case fSet f x => cases he; exact ⟨_, ⟨rfl, rfl⟩, h.wFe f le_rfl (h.fe x)⟩
  case fAdd f x y =>
    cases he
    refine ⟨_, ⟨rfl, rfl⟩, h.wFe f (n := 1) (by omega) ?_⟩
    rw [← (h.fe x).2, ← (h.fe y).2]; exact feAdd_spec (h.b6 x) (h.b6 y)
  case fSub f x y =>
    cases he
    refine ⟨_, ⟨rfl, rfl⟩, h.wFe f (n := 1) (by omega) ?_⟩
    rw [← (h.fe x).2, ← (h.fe y).2]; exact feSub_spec (h.b6 x) (h.b6 y)
  case fNeg f x =>
    cases he
    refine ⟨_, ⟨rfl, rfl⟩, h.wFe f (n := 2) (by omega) ?_⟩
    rw [← (h.fe x).2]; exact neg_law (h.b6 x)
  case fMul f x y =>
    cases he
    refine ⟨_, ⟨rfl, rfl⟩, h.wFe f (n := 1) (by omega) ?_⟩
    rw [← (h.fe x).2, ← (h.fe y).2]; exact mul_law (h.b6 x) (h.b6 y)
  case fSquare f x =>
    cases he
    refine ⟨_, ⟨rfl, rfl⟩, h.wFe f (n := 1) (by omega) ?_⟩
    rw [← (h.fe x).2, pow_two]; exact square_law (h.b6 x)
  case fDoubledSquare f x =>
    cases he
    refine ⟨_, ⟨rfl, rfl⟩, h.wFe f (n := 2) (by omega) ?_⟩
    rw [← (h.fe x).2, pow_two]; exact doubledSquare_law (h.b6 x)
  case fInverse f x =>
    cases he
    refine ⟨_, ⟨rfl, rfl⟩, h.wFe f (n := 1) (by omega) ?_⟩
    rw [← (h.fe x).2]; exact feInverse_spec (h.b6 x)
  case fAbs f x =>
    cases he
    refine ⟨_, ⟨rfl, rfl⟩, h.wFe f (n := 2) (by omega) ?_⟩
    rw [← (h.fe x).2, ← absFp_eq]; exact feAbs_spec (h.fe x).1 (by omega)
  case fExp22523 f x =>
    cases he
    refine ⟨_, ⟨rfl, rfl⟩, h.wFe f (n := 1) (by omega) ?_⟩
    rw [← (h.fe x).2]; exact exp22523_pow (h.b6 x)
  case fInvSqrt f x =>
    cases he
    obtain ⟨h1, h2, h3⟩ := invSqrt_spec (h.b6 x)
    rw [(h.fe x).2] at h2 h3
    exact ⟨_, ⟨_, fun hs h0 => by rw [pow_two]; exact h3 h0 hs, h2, rfl, rfl⟩, h.wFe f (by omega) ⟨h1, rfl⟩⟩
  case fSqrt f x =>
    cases he
    obtain ⟨h1, h2, h3⟩ := feSqrt_spec (h.b6 x)
    rw [(h.fe x).2] at h3
    exact ⟨_, ⟨_, fun hs => by rw [pow_two]; exact h3 hs, h2, rfl, rfl⟩, h.wFe f (by omega) ⟨h1, rfl⟩⟩
  case fInvSqrtI f x =>
    cases he
    obtain ⟨h1, h2⟩ := invSqrtI_spec (h.b6 x)
    rw [(h.fe x).2] at h2
    refine ⟨_, ⟨_, rfl, ?_⟩, h.wFe f (by omega) ⟨h1, rfl⟩⟩
    rcases h2 with ⟨h2, h3⟩ | ⟨h2, h3, h4⟩ | ⟨h2, h3, h4⟩
    · have hn : a.fes x ≠ 0 := by rintro h0; rw [h0, zero_mul] at h3; exact zero_ne_one h3
      have hs : IsSquare (a.fes x) := by
        refine ⟨(eval (invSqrtI (m.fes x)).1)⁻¹, ?_⟩
        rw [← mul_inv]
        exact eq_inv_of_mul_eq_one_left h3
      rw [if_neg hn, if_pos hs, h2]
      exact ⟨by linear_combination h3, rfl⟩
    · have hn : a.fes x ≠ 0 := by rintro h0; exact h3 (by rw [h0]; exact IsSquare.zero)
      rw [if_neg hn, if_neg h3, h2]
      exact ⟨by linear_combination sqrtM1 * h4 - sqrtM1_sq, rfl⟩
    · rw [if_pos h3, h2]
      exact ⟨h4, rfl⟩
  case fSetBytes f buf => cases he; exact ⟨_, ⟨rfl, rfl⟩, h.wFe f (by omega) (setBytes_law buf)⟩
  case fSetBigInt f x => cases he; exact ⟨_, ⟨rfl, rfl⟩, h.wFe f (by omega) (setBigInt_spec x)⟩
  case fCondSet f x b =>
    cases he
    refine ⟨_, ⟨rfl, rfl⟩, ?_⟩
    rw [flag_bit, condSet_flag]
    cases b
    · have e : m.setFe f (m.fes f) = m := by
        unfold Mem.setFe; congr 1; funext k; split <;> simp_all
      simpa [e] using h
    · simpa using h.wFe f le_rfl (h.fe x)
  case fBytes f => cases he; exact ⟨_, ⟨rfl, _, rfl, by rw [← (h.fe f).2]; exact bytes_law (h.b12 f)⟩, h⟩
  case fBigInt f =>
    cases he
    refine ⟨_, ⟨rfl, ?_⟩, h⟩
    rw [← (h.fe f).2, ← bytes_law (h.b12 f)]; rfl
  case fIsNegativeI f => cases he; exact ⟨_, ⟨rfl, by rw [isNegativeI_spec (h.b12 f), (h.fe f).2]; congr⟩, h⟩
  case fIsNonZeroI f => cases he; exact ⟨_, ⟨rfl, by rw [isNonZeroI_spec (h.b12 f), (h.fe f).2]; congr⟩, h⟩
  case fIsOneI f => cases he; exact ⟨_, ⟨rfl, by rw [isOneI_spec (h.b6 f), (h.fe f).2]; congr⟩, h⟩
  case fEqualsI f x =>
    cases he; exact ⟨_, ⟨rfl, by rw [feEqualsI_spec (h.b6 f) (h.b6 x), (h.fe f).2, (h.fe x).2]; congr⟩, h⟩
  case fEquals f x =>
    cases he; exact ⟨_, ⟨rfl, by rw [feEquals_spec (h.b6 f) (h.b6 x), (h.fe f).2, (h.fe x).2]⟩, h⟩
  case eZero e => cases he; exact ⟨_, ⟨rfl, rfl⟩, h.setE e fun P hP => by cases hP; exact zero_spec⟩
  case eBase e =>
    cases he
    exact ⟨_, ⟨rfl, rfl⟩, h.setE e fun P hP => by cases hP; rw [baseE_eq]; exact base_spec⟩
  case eTorsion1 e => cases he; exact ⟨_, ⟨rfl, rfl⟩, h.setE e fun P hP => by cases hP; exact torsion_spec.1⟩
  case eTorsion2 e => cases he; exact ⟨_, ⟨rfl, rfl⟩, h.setE e fun P hP => by cases hP; exact torsion_spec.2.1⟩
  case eTorsion3 e => cases he; exact ⟨_, ⟨rfl, rfl⟩, h.setE e fun P hP => by cases hP; exact torsion_spec.2.2⟩
  case eSet e q => cases he; exact ⟨_, ⟨rfl, rfl⟩, h.setE e (h.ext q)⟩
  case eCondSet e q b =>
    cases he
    refine ⟨_, ⟨rfl, rfl⟩, ?_⟩
    rw [flag_bit, condSet_spec]
    cases b
    · have e : m.setE e (m.exts e) = m := by
        unfold Mem.setE; congr 1; funext k; split <;> simp_all
      simpa [e] using h
    · simpa using h.setE e (h.ext q)
  case eAdd e q r =>
    cases he
    refine ⟨_, ⟨rfl, rfl⟩, h.setE e fun P hP => ?_⟩
    obtain ⟨Q, R, h1, h2, rfl⟩ := addO_some hP
    exact add_spec (h.ext q Q h1) (h.ext r R h2)
  case eSub e q r =>
    cases he
    refine ⟨_, ⟨rfl, rfl⟩, h.setE e fun P hP => ?_⟩
    obtain ⟨Q, R, h1, h2, rfl⟩ := subO_some hP
    exact sub_spec (h.ext q Q h1) (h.ext r R h2)
  case eDouble e q =>
    cases he
    refine ⟨_, ⟨rfl, rfl⟩, h.setE e fun P hP => ?_⟩
    obtain ⟨Q, R, h1, h2, rfl⟩ := addO_some hP
    cases h1.symm.trans h2
    exact double_spec (h.ext q Q h1)
  case eNeg e q =>
    cases he
    refine ⟨_, ⟨rfl, rfl⟩, h.setE e fun P hP => ?_⟩
    obtain ⟨Q, h1, rfl⟩ := negO_some hP
    exact neg_spec (h.ext q Q h1)
  case eSetCompleted e c =>
    cases he; exact ⟨_, ⟨rfl, rfl⟩, h.setE e fun P hP => toExtended_spec (h.cpl c P hP)⟩
  case eSetRistretto e buf =>
    cases he
    rcases setRistretto_spec (F := F) buf with ⟨s, Q, h1, h2, h3, h4, h5⟩ | ⟨h1, h2, h3⟩
    · have hQ := even_of_enc (enc_decodes ⟨h1, h2⟩)
      refine ⟨_, Or.inl ⟨⟨Q, hQ⟩, ?_, ⟨s, h3, h1, h2.1, h2.2, h2.3, h2.4⟩, rfl, by rw [h4]⟩,
        h.setE e fun P hP => by cases hP; exact h5⟩
      exact decode_eq_some.2 (encodes_iff.1 ⟨Q, hQ, s, rfl, enc_decodes ⟨h1, h2⟩, h3⟩)
    · refine ⟨_, Or.inr ⟨?_, rfl, by rw [h2]⟩, h.setE e fun P hP => by cases hP⟩
      cases hd : decode buf with
      | none => rfl
      | some g =>
        rw [(setBytes_some (F := F) hd).1] at h2
        cases h2
  case eRistretto e =>
    cases he
    exact ⟨_, ⟨rfl, _, rfl, fun P hP => Holds.bytes ⟨P, P.2, h.ext e P hP, rfl⟩⟩, h⟩
  case eEqualsI e q =>
    cases he
    refine ⟨_, ⟨rfl, _, rfl, fun P Q hP hQ => ?_⟩, h⟩
    rw [ristrettoEqualsI_spec (h.ext e P hP) (h.ext q Q hQ)]
    unfold flag
    simp only [classOf, cls_eq]
  case eScalarMult e q s =>
    cases he
    refine ⟨_, ⟨rfl, rfl⟩, h.setE e fun P hP => ?_⟩
    obtain ⟨Q, h1, rfl⟩ := smulO_some hP
    exact scalarMult_all (h.ext q Q h1) s
  case eVarTimeScalarMult e q s =>
    simp only [exec, Option.map_eq_some_iff] at he
    obtain ⟨v, hv, he⟩ := he
    cases he
    refine ⟨_, ⟨rfl, rfl⟩, h.setE e fun P hP => ?_⟩
    obtain ⟨Q, h1, rfl⟩ := smulO_some hP
    obtain ⟨r, hr, hp⟩ := varTimeScalarMult_all (h.ext q Q h1) s
    cases hr.symm.trans hv
    exact hp
  case cAddExtended c q r =>
    cases he
    refine ⟨_, ⟨rfl, rfl⟩, h.setC c fun P hP => ?_⟩
    obtain ⟨Q, R, h1, h2, rfl⟩ := addO_some hP
    exact addExtended_spec (h.ext q Q h1) (h.ext r R h2)
  case cSubExtended c q r =>
    cases he
    refine ⟨_, ⟨rfl, rfl⟩, h.setC c fun P hP => ?_⟩
    obtain ⟨Q, R, h1, h2, rfl⟩ := subO_some hP
    exact subExtended_spec (h.ext q Q h1) (h.ext r R h2)
  case cDoubleExtended c q =>
    cases he
    refine ⟨_, ⟨rfl, rfl⟩, h.setC c fun P hP => ?_⟩
    obtain ⟨Q, R, h1, h2, rfl⟩ := addO_some hP
    cases h1.symm.trans h2
    exact doubleExtended_spec (h.ext q Q h1)
  case cDoubleProjective c q =>
    cases he
    refine ⟨_, ⟨rfl, rfl⟩, h.setC c fun P hP => ?_⟩
    obtain ⟨Q, R, h1, h2, rfl⟩ := addO_some hP
    cases h1.symm.trans h2
    exact doubleProjective_spec (h.prj q Q h1)
  case cAddExtendedNiels c q r =>
    cases he
    refine ⟨_, ⟨rfl, rfl⟩, h.setC c fun P hP => ?_⟩
    obtain ⟨Q, R, h1, h2, rfl⟩ := addO_some hP
    exact addExtendedNiels_spec (h.ext q Q h1) (h.nls r R h2)
  case cSubExtendedNiels c q r =>
    cases he
    refine ⟨_, ⟨rfl, rfl⟩, h.setC c fun P hP => ?_⟩
    obtain ⟨Q, R, h1, h2, rfl⟩ := subO_some hP
    exact subExtendedNiels_spec (h.ext q Q h1) (h.nls r R h2)
  case cElligator c f =>
    cases he
    obtain ⟨P, h1, h2⟩ := setRistrettoElligator2_spec (h.b6 f)
    rw [(h.fe f).2] at h1
    exact ⟨_, ⟨⟨P, elligator_even h1⟩, h1, rfl, rfl⟩, h.setC c fun Q hQ => by cases hQ; exact h2⟩
  case pZero q =>
    cases he
    refine ⟨_, ⟨rfl, rfl⟩, h.setP q fun P hP => ?_⟩
    cases hP
    exact extToProjective_spec zero_spec
  case pSetExtended p q => cases he; exact ⟨_, ⟨rfl, rfl⟩, h.setP p fun P hP => extToProjective_spec (h.ext q P hP)⟩
  case pSetCompleted p c => cases he; exact ⟨_, ⟨rfl, rfl⟩, h.setP p fun P hP => toProjective_spec (h.cpl c P hP)⟩
  case nZero n => cases he; exact ⟨_, ⟨rfl, rfl⟩, h.setN n fun P hP => by cases hP; exact nielsZero_spec⟩
  case nSet n q => cases he; exact ⟨_, ⟨rfl, rfl⟩, h.setN n (h.nls q)⟩
  case nCondSet n q b =>
    cases he
    refine ⟨_, ⟨rfl, rfl⟩, ?_⟩
    rw [flag_bit, nielsCondSet_spec]
    cases b
    · have e : m.setN n (m.niels n) = m := by
        unfold Mem.setN; congr 1; funext k; split <;> simp_all
      simpa [e] using h
    · simpa using h.setN n (h.nls q)
  case nNeg n q =>
    cases he
    refine ⟨_, ⟨rfl, rfl⟩, ?_⟩
    by_cases hn : n = q
    · rw [if_pos hn]
      obtain ⟨v, hv⟩ := nielsNegI_any m n q
      rw [hv]
      exact h.setN n fun P hP => by cases hP
    · rw [if_neg hn, nielsNegI_ne hn]
      refine h.setN n fun P hP => ?_
      obtain ⟨Q, h1, rfl⟩ := negO_some hP
      exact nielsNeg_spec (h.nls q Q h1)
  case nSetExtended n q => cases he; exact ⟨_, ⟨rfl, rfl⟩, h.setN n fun P hP => ofExtended_spec (h.ext q P hP)⟩
  case tCompute t q =>
    cases he
    exact ⟨_, ⟨rfl, rfl⟩, h.setT t (tableCompute_shape _) fun P hP => (tableCompute_spec (h.ext q P hP)).1⟩
  case tScalarMult t e s =>
    cases he
    refine ⟨_, ⟨rfl, rfl⟩, h.setE e fun P hP => ?_⟩
    obtain ⟨Q, h1, rfl⟩ := smulO_some hP
    exact tableScalarMult_all (h.tab t Q h1) (h.shape t) s
  case tVarTimeScalarMult t e s =>
    simp only [exec, Option.map_eq_some_iff] at he
    obtain ⟨v, hv, he⟩ := he
    cases he
    refine ⟨_, ⟨rfl, rfl⟩, h.setE e fun P hP => ?_⟩
    obtain ⟨Q, h1, rfl⟩ := smulO_some hP
    by_cases hd : topDigit 16 63 (leVal s) ≤ 8
    · obtain ⟨r, hr, hp⟩ := (tableVarTime_all (h.tab t Q h1) (h.shape t) s).1 hd
      cases hr.symm.trans hv
      rw [coe_zsmul, natCast_zsmul]
      exact hp
    · rw [tableVarTime_panic (h.shape t) s (by omega)] at hv
      cases hv
  case eToJacobi e j =>
    cases he
    exact toJacobi_step h e j
  case eInverse e =>
    cases he
    refine ⟨a, ⟨rfl, _, _, rfl, fun P hP => preimages_spec (h.ext e P hP)⟩, ?_⟩
    exact recv_denotes h e
  case jDual j k =>
    cases he
    refine ⟨_, ⟨rfl, rfl⟩, h.setJ j fun s t hst => ?_⟩
    cases hk : a.jacs k with
    | none => rw [hk] at hst; cases hst
    | some w =>
      rw [hk] at hst
      cases hst
      obtain ⟨h1, h2⟩ := h.jac k w.1 w.2 hk
      exact ⟨dualJac h1, onJac_neg h2⟩
  case cSetJacobi c j =>
    cases he
    cases hj : a.jacs j with
    | none => exact ⟨_, ⟨rfl, none, rfl, fun _ => rfl, fun s t hst => by rw [hj] at hst; cases hst⟩, h.setC c fun P hP => by cases hP⟩
    | some w =>
      obtain ⟨h1, h2⟩ := h.jac j w.1 w.2 hj
      obtain ⟨P, hP⟩ := ofJac_exists h2
      refine ⟨_, ⟨rfl, some ⟨P, ofJac_even hP⟩, rfl, fun hn => (by rw [hj] at hn; cases hn), fun s t hst => ?_⟩,
        h.setC c fun Q hQ => ?_⟩
      · rw [hj] at hst
        cases hst
        exact ⟨h2, _, rfl, hP, fun Q hQ => ofJac_unique h2 hQ hP⟩
      · cases hQ
        exact setJacobiQuartic_spec h1 h2 hP

/-- Programs. -/
theorem run_step : ∀ (cs : List Cmd) {m : Mem F} {a : AState}, Denotes m a → ∀ {m' : Mem F} {os : List Out},
    run m cs = some (m', os) → ∃ a', ARun a cs a' os ∧ Denotes m' a'
  | [], m, a, h, m', os, he => by cases he; exact ⟨a, .nil a, h⟩
  | c :: cs, m, a, h, m', os, he => by
    simp only [run] at he
    cases h1 : exec m c with
    | none => rw [h1] at he; cases he
    | some r =>
      obtain ⟨m1, o⟩ := r
      rw [h1] at he
      simp only at he
      obtain ⟨b, hb, hd⟩ := exec_step h c h1
      cases h2 : run m1 cs with
      | none => rw [h2] at he; cases he
      | some rs =>
        obtain ⟨m2, os2⟩ := rs
        rw [h2] at he
        cases he
        obtain ⟨a', ha, hd'⟩ := run_step cs hd h2
        exact ⟨a', .cons hb ha, hd'⟩

theorem run_none_iff : ∀ (cs : List Cmd) {m : Mem F} {a : AState}, Denotes m a → (run m cs = none ↔ ∃ c ∈ cs, Panics c)
  | [], m, a, _ => by simp [run]
  | c :: cs, m, a, h => by
    have hc := exec_none_iff h c
    cases h1 : exec m c with
    | none =>
      simp only [run, h1, true_iff]
      exact ⟨c, by simp, hc.1 h1⟩
    | some r =>
      obtain ⟨m1, o⟩ := r
      obtain ⟨b, -, hd⟩ := exec_step h c h1
      have ih := run_none_iff cs hd
      have hp : ¬ Panics c := fun hp => by rw [hc.2 hp] at h1; cases h1
      simp only [run, h1, List.mem_cons, exists_eq_or_imp, hp, false_or]
      rw [← ih]
      cases run m1 cs <;> simp

end Ristretto.Proofs.Ed
