import Verif.Spec.Coords
import Verif.Proofs.EdMachine
import Verif.Proofs.AsmField
import Verif.Props.Coords
import Verif.Props.Jacobi

/-!
# Property theorems: programs over the exported methods of package edwards25519
-/

namespace Ristretto.Props
open Model Proofs Ed
set_option autoImplicit false

/-- The variables of a program over the default field implementation hold what the abstract state says. -/
structure EdMeans (m : Model.Ed.Mem Fe51) (a : Ed.AState) : Prop where
  fe : ∀ i, feVal (m.fes i) = a.fes i
  ext : ∀ i (P : Even), a.exts i = some P → IsPoint (m.exts i) P
  completed : ∀ i (P : Even), a.cpls i = some P → IsCompleted (m.cpls i) P
  projective : ∀ i (P : Even), a.prjs i = some P → IsProjective (m.prjs i) P
  niels : ∀ i (P : Even), a.niels i = some P → IsNielsPoint (m.niels i) P
  table : ∀ i (P : Even), a.tabs i = some P → IsTableOf (m.tabs i) P
  jacobi : ∀ i s t, a.jacs i = some (s, t) → IsJacobi (m.jacs i) s t

theorem edMeans_of_denotes {m : Model.Ed.Mem Fe51} {a : Ed.AState} (h : Proofs.Ed.Denotes m a) : EdMeans m a where
  fe i := (h.fe i).2
  ext i P hP := isPoint_iff.2 (h.ext i P hP)
  completed i P hP := isCompleted_iff.2 (h.cpl i P hP)
  projective i P hP := isProjective_iff.2 (h.prj i P hP)
  niels i P hP := isNiels_iff.2 (h.nls i P hP)
  table i P hP := isTableOf_iff.2 ⟨h.tab i P hP, (h.shape i).1⟩
  jacobi i s t hst := isJacobi_iff.2 (h.jac i s t hst).1

/-- **C60.** A program over the methods of package edwards25519 that does not panic computes in GF(2^255-19) and on the
curve: what it returns and the final contents of its variables are possible for `AStep`, call after call. -/
theorem C60_program (prog : List Model.Ed.Cmd) (m : Model.Ed.Mem Fe51) (outs : List Model.Ed.Out)
    (h : Model.Ed.run Model.Ed.Mem.init prog = some (m, outs)) :
    ∃ a, Ed.ARun Ed.AState.init prog a outs ∧ EdMeans m a := by
  obtain ⟨a, h1, h2⟩ := Proofs.Ed.run_step prog Proofs.Ed.denotes_init h
  exact ⟨a, h1, edMeans_of_denotes h2⟩

/-- **C60** (panics): a program panics if and only if it multiplies in variable time with a table, by a scalar whose top
digit is above 8.  Scalars below 2^255 have no such digit. -/
theorem C60_panics (prog : List Model.Ed.Cmd) :
    (Model.Ed.run (Model.Ed.Mem.init : Model.Ed.Mem Fe51) prog = none ↔
      ∃ t e s, Model.Ed.Cmd.tVarTimeScalarMult t e s ∈ prog ∧ 8 < Spec.EdRange.topDigit 16 63 (leVal s)) ∧
    ∀ n < 2 ^ 255, Spec.EdRange.topDigit 16 63 n ≤ 8 := by
  refine ⟨(Proofs.Ed.run_none_iff prog Proofs.Ed.denotes_init).trans ?_, fun n hn => ?_⟩
  · constructor
    · rintro ⟨c, hc, hp⟩
      cases c
      case tVarTimeScalarMult t e s => exact ⟨t, e, s, hc, hp⟩
      all_goals exact hp.elim
    · rintro ⟨t, e, s, hc, hp⟩
      exact ⟨_, hc, hp⟩
  · rw [Proofs.Ed.topDigit4_le]
    norm_num at *
    omega

/-- **C60** (multiples): the multiplications compute the multiple by the scalar itself below these bounds. -/
theorem C60_multiples (n : ℕ) :
    (n < 2 ^ 254 → Ed.byWindows n = n) ∧ (n ≤ 2 ^ 255 → Ed.byNaf n = n) ∧ (n < 2 ^ 255 → Ed.byTable n = n) := by
  refine ⟨fun h => ?_, fun h => ?_, fun h => ?_⟩
  · have h1 : n % 2 ^ 255 = n := Nat.mod_eq_of_lt (by rw [pow_succ]; omega)
    have h2 : Spec.EdRange.topDigit 32 50 n ≤ 16 := by
      rw [Proofs.Ed.topDigit5_le]
      norm_num at *
      omega
    unfold Ed.byWindows Spec.EdRange.lost
    rw [h1, if_pos h2]
    simp
  · unfold Ed.byNaf
    rw [Proofs.Ed.carryOut_zero 256 n (by rw [pow_succ 2 255]; omega)]
    simp
  · have h2 : Spec.EdRange.topDigit 16 63 n ≤ 8 := by
      rw [Proofs.Ed.topDigit4_le]
      norm_num at *
      omega
    unfold Ed.byTable Spec.EdRange.lost
    rw [if_pos h2]
    simp

/-- **C60** (amd64 assembly): the same for the build that multiplies with the assembly routines. -/
theorem C60_asm (prog : List Model.Ed.Cmd) :
    (Model.Ed.run (Model.Ed.Mem.init : Model.Ed.Mem Model.Asm.FeAsm) prog = none ↔
      ∃ t e s, Model.Ed.Cmd.tVarTimeScalarMult t e s ∈ prog ∧ 8 < Spec.EdRange.topDigit 16 63 (leVal s)) ∧
    ∀ m outs, Model.Ed.run (Model.Ed.Mem.init : Model.Ed.Mem Model.Asm.FeAsm) prog = some (m, outs) →
      ∃ a, Ed.ARun Ed.AState.init prog a outs := by
  refine ⟨(Proofs.Ed.run_none_iff prog Proofs.Ed.denotes_init).trans ?_, fun m outs hr => ?_⟩
  · constructor
    · rintro ⟨c, hc, hp⟩
      cases c
      case tVarTimeScalarMult t e s => exact ⟨t, e, s, hc, hp⟩
      all_goals exact hp.elim
    · rintro ⟨t, e, s, hc, hp⟩
      exact ⟨_, hc, hp⟩
  · obtain ⟨a, h1, -⟩ := Proofs.Ed.run_step prog Proofs.Ed.denotes_init hr
    exact ⟨a, h1⟩

/-- A field program: `5 / 5 = 1`, whatever the representation of the inverse. -/
example (m : Model.Ed.Mem Fe51) (outs : List Model.Ed.Out)
    (h : Model.Ed.run Model.Ed.Mem.init [.fSetBigInt 0 5, .fInverse 1 0, .fMul 0 0 1, .fIsOneI 0] = some (m, outs)) :
    outs = [.unit, .unit, .unit, .int32 1] := by
  obtain ⟨a, h1, -⟩ := C60_program _ _ _ h
  have h5 : (5 : Fp) ≠ 0 := by
    have : ((5 : ℕ) : Fp) ≠ 0 := by rw [Ne, ZMod.natCast_eq_zero_iff]; decide +kernel
    exact_mod_cast this
  cases h1 with
  | cons s1 h1 =>
    obtain ⟨rfl, rfl⟩ := s1
    cases h1 with
    | cons s2 h1 =>
      obtain ⟨rfl, rfl⟩ := s2
      cases h1 with
      | cons s3 h1 =>
        obtain ⟨rfl, rfl⟩ := s3
        cases h1 with
        | cons s4 h1 =>
          obtain ⟨rfl, rfl⟩ := s4
          cases h1
          simp [AState.setFe, put, h5]

/-- A curve program: a table and `ScalarMult` agree, here for the scalar 7. -/
example (m : Model.Ed.Mem Fe51) (outs : List Model.Ed.Out)
    (h : Model.Ed.run Model.Ed.Mem.init [.eBase 0, .tCompute 0 0, .tScalarMult 0 1 (leBytes 32 7),
      .eScalarMult 0 0 (leBytes 32 7), .eEqualsI 0 1] = some (m, outs)) :
    outs = [.unit, .unit, .unit, .unit, .int32 1] := by
  obtain ⟨a, h1, -⟩ := C60_program _ _ _ h
  have h7 : leVal (leBytes 32 7) = 7 := by decide +kernel
  cases h1 with
  | cons s1 h1 =>
    obtain ⟨rfl, rfl⟩ := s1
    cases h1 with
    | cons s2 h1 =>
      obtain ⟨rfl, rfl⟩ := s2
      cases h1 with
      | cons s3 h1 =>
        obtain ⟨rfl, rfl⟩ := s3
        cases h1 with
        | cons s4 h1 =>
          obtain ⟨rfl, rfl⟩ := s4
          cases h1 with
          | cons s5 h1 =>
            obtain ⟨rfl, i, rfl, hi⟩ := s5
            cases h1
            have m1 : byWindows 7 = 7 := (C60_multiples 7).1 (by norm_num)
            have m2 : byTable 7 = 7 := (C60_multiples 7).2.2 (by norm_num)
            rw [hi ((7 : ℤ) • baseE) ((7 : ℤ) • baseE)
              (by simp [AState.setE, AState.setT, put, smulO, h7, m1])
              (by simp [AState.setE, AState.setT, put, smulO, h7, m2]), if_pos rfl]

/-- A program on the Jacobi quartic: the fourth pair of a point, its other pair, and back to the curve gives a point of the
same class, here for the base point. -/
example (m : Model.Ed.Mem Fe51) (outs : List Model.Ed.Out)
    (h : Model.Ed.run Model.Ed.Mem.init [.eBase 0, .eToJacobi 0 0, .jDual 9 3, .cSetJacobi 0 9, .eSetCompleted 1 0,
      .eEqualsI 0 1] = some (m, outs)) :
    outs = [.unit, .unit, .unit, .unit, .unit, .int32 1] := by
  obtain ⟨a, h1, -⟩ := C60_program _ _ _ h
  have hb : classOf baseE ≠ 0 := by
    intro h0
    apply basePt_not_E4
    have h1 := Proofs.Ed.classOf_eq_zero.1 h0
    rwa [show ((baseE : Even) : EPoint) = basePt from basePt_eq.symm] at h1
  cases h1 with
  | cons s1 h1 =>
    obtain ⟨rfl, rfl⟩ := s1
    cases h1 with
    | cons s2 h1 =>
      obtain ⟨rfl, v, rfl, -, hv⟩ := s2
      obtain ⟨w, hw, rfl⟩ := hv baseE (by simp [AState.setE, put])
      obtain ⟨hon, -, -, -, ho⟩ := hw.1 hb
      cases h1 with
      | cons s3 h1 =>
        obtain ⟨rfl, rfl⟩ := s3
        cases h1 with
        | cons s4 h1 =>
          obtain ⟨rfl, v, rfl, -, hv⟩ := s4
          obtain ⟨-, P, rfl, -, hP⟩ := hv (-(w 3).1) (-(w 3).2) (by simp [AState.setJ, put, dualO])
          have hP' := hP _ (ofJac_neg ho)
          cases h1 with
          | cons s5 h1 =>
            obtain ⟨rfl, rfl⟩ := s5
            cases h1 with
            | cons s6 h1 =>
              obtain ⟨rfl, i, rfl, hi⟩ := s6
              cases h1
              rw [hi baseE P (by simp [AState.setE, AState.setJ, AState.setC, put])
                (by simp [AState.setE, AState.setJ, AState.setC, put]), if_pos]
              refine (cls_eq _ _).2 ?_
              rw [← hP', ← sub_sub, sub_self, zero_sub]
              exact E4.neg_mem torsI_mem

/-! ## C61: outside the range -/

/-- **C61, partial.**  The full statement would have no bounds on `s`, and would be false; see below. -/
theorem C61_multiplications_partial (q : Pt) (t : Table Fe51) (P : EPoint) (s : Bytes 32) (hq : IsPoint q P)
    (ht : IsTableOf t P) :
    (leVal s < 2 ^ 254 → IsPoint (scalarMult q s) (leVal s • P)) ∧
    (leVal s < 2 ^ 255 → IsPoint (tableScalarMult t s) (leVal s • P) ∧
      (∃ r, varTimeScalarMult q s = some r ∧ IsPoint r (leVal s • P)) ∧
      ∃ r, tableVarTimeScalarMult t s = some r ∧ IsPoint r (leVal s • P)) := by
  rw [isPoint_iff] at hq
  rw [isTableOf_iff] at ht
  simp only [isPoint_iff]
  exact ⟨scalarMult_spec hq s, fun h => ⟨tableScalarMult_spec ht.1 ht.2 s h, varTimeScalarMult_spec hq s h,
    tableVarTimeScalarMult_spec ht.1 ht.2 s h⟩⟩

/-- The hypotheses are met. -/
example : ∃ (q : Pt) (t : Table Fe51) (P : EPoint), P ≠ 0 ∧ IsPoint q P ∧ IsTableOf t P :=
  ⟨ExtPt.base, tableCompute ExtPt.base, basePt, fun h => basePt_not_E4 (h ▸ E4.zero_mem), isPoint_iff.2 base_spec,
    isTableOf_iff.2 (tableCompute_spec base_spec)⟩

theorem pow_smul_basePt (k : ℕ) : 2 ^ k • basePt ≠ 0 := by
  intro h
  have h4 : (2 ^ k * 4) • stdBase = 0 := by
    have e : stdBase = basePt + torsI := by rw [basePt_eq]; abel
    have ht : (4 : ℕ) • torsI = 0 := torsI_mem
    rw [e, nsmul_add, mul_nsmul basePt, h, nsmul_zero, mul_nsmul' torsI, ht, nsmul_zero, add_zero]
  have hd : l ∣ 2 ^ k * 4 := by
    rw [← addOrderOf_stdBase]; exact addOrderOf_dvd_of_nsmul_eq_zero h4
  have e4 : 2 ^ k * 4 = 2 ^ (k + 2) := by rw [pow_add]; norm_num
  rw [e4] at hd
  have hc : Nat.Coprime l (2 ^ (k + 2)) := Nat.Coprime.pow_right _ (by decide +kernel)
  have := Nat.Coprime.eq_one_of_dvd hc hd
  exact absurd this (by decide +kernel)

/-- **C61 is false of the code**: `ScalarMult` by 2^255 gives the neutral element, for every point. -/
theorem C61_scalarMult_false : ∃ s : Bytes 32, leVal s = 2 ^ 255 ∧
    (∀ (q : Pt) (P : EPoint), IsPoint q P → IsPoint (scalarMult q s) 0) ∧
    ∃ (q : Pt) (P : EPoint), IsPoint q P ∧ leVal s • P ≠ 0 :=
  ⟨Proofs.Ed.bit255, Proofs.Ed.leVal_bit255,
    fun q P hq => isPoint_iff.2 (Proofs.Ed.scalarMult_bit255 (isPoint_iff.1 hq)),
    ExtPt.base, basePt, isPoint_iff.2 base_spec, by rw [Proofs.Ed.leVal_bit255]; exact pow_smul_basePt 255⟩

/-- **C61 is false of the code**: for the scalar 2^256-1, `VarTimeScalarMult` and the constant-time multiplication with
a table give the negative of the point, and the variable-time multiplication with a table panics. -/
theorem C61_varTime_false : ∃ s : Bytes 32, leVal s = 2 ^ 256 - 1 ∧
    (∀ (q : Pt) (t : Table Fe51) (P : EPoint), IsPoint q P → IsTableOf t P →
      (∃ r, varTimeScalarMult q s = some r ∧ IsPoint r (-P)) ∧ IsPoint (tableScalarMult t s) (-P) ∧
      tableVarTimeScalarMult t s = none) ∧
    ∃ (q : Pt) (t : Table Fe51) (P : EPoint), IsPoint q P ∧ IsTableOf t P ∧ leVal s • P ≠ -P := by
  refine ⟨Proofs.Ed.allOnes, Proofs.Ed.leVal_allOnes, fun q t P hq ht => ?_, ExtPt.base, tableCompute ExtPt.base, basePt,
    isPoint_iff.2 base_spec, isTableOf_iff.2 (tableCompute_spec base_spec), fun h => ?_⟩
  · have hs : Proofs.Ed.ShapeT t := ⟨ht.1, fun row hr => by
      obtain ⟨i, hi⟩ := List.mem_iff_getElem?.1 hr
      exact (ht.2 i row hi).1⟩
    rw [isPoint_iff] at hq
    rw [isTableOf_iff] at ht
    simp only [isPoint_iff]
    exact ⟨Proofs.Ed.varTimeScalarMult_allOnes hq, Proofs.Ed.tableScalarMult_allOnes ht.1 hs,
      Proofs.Ed.tableVarTime_allOnes hs⟩
  · rw [Proofs.Ed.leVal_allOnes] at h
    apply pow_smul_basePt 256
    have e : (2 ^ 256 : ℕ) = (2 ^ 256 - 1) + 1 := by decide +kernel
    rw [e, add_nsmul, h, one_nsmul, neg_add_cancel]

/-- **C61 is false of the code**: `n.Neg(n)` on a Niels point overwrites the coordinate it still needs.  Unless the
point is killed by four, the result is the Niels form of no point at all. -/
theorem C61_niels_neg_false (m : Model.Ed.Mem Fe51) (n : ℕ) (P : EPoint) (h : IsNielsPoint (m.niels n) P)
    (hP : 4 • P ≠ 0) :
    ∃ m' o, Model.Ed.exec m (.nNeg n n) = some (m', o) ∧ ¬ ∃ Q, IsNielsPoint (m'.niels n) Q := by
  refine ⟨_, _, rfl, ?_⟩
  rintro ⟨Q, hQ⟩
  have hN := isNiels_iff.1 hQ
  have hn := isNiels_iff.1 h
  have e1 : (Model.Ed.nielsNegI m n n).niels n = ⟨(m.niels n).YPlusX, (m.niels n).YPlusX, FieldOps.neg (m.niels n).XY2D⟩ := by
    simp [Model.Ed.nielsNegI, Model.Ed.Mem.setN]
  rw [e1] at hN
  obtain ⟨-, hd⟩ := LawfulField.neg_law (LawfulField.bd_mono (by omega) hn.bD : LawfulField.bd 6 (m.niels n).XY2D)
  have h1 := hN.yp
  have h2 := hN.ym
  have h3 := hN.xy
  simp only at h1 h2 h3
  rw [hd, hn.xy] at h3
  have hx : Q.x = 0 := by
    have h22 : (2 : Fp) * Q.x = 0 := by linear_combination h2 - h1
    exact (mul_eq_zero.1 h22).resolve_left two_ne_zero'
  apply hP
  have h4 : P.x * P.y = 0 := by
    rw [hx] at h3
    have : (2 * d) * (P.x * P.y) = 0 := by linear_combination -h3
    exact (mul_eq_zero.1 this).resolve_left (mul_ne_zero two_ne_zero' d_ne_zero)
  have : P ∈ E4 := mem_E4.2 (mul_eq_zero.1 h4)
  exact this

/-- The hypotheses are met by a program: base point, to Niels form. -/
example : ∃ (m : Model.Ed.Mem Fe51) (outs : List Model.Ed.Out),
    Model.Ed.run Model.Ed.Mem.init [.eBase 0, .nSetExtended 0 0] = some (m, outs) ∧
    IsNielsPoint (m.niels 0) basePt ∧ 4 • basePt ≠ 0 := by
  refine ⟨_, _, rfl, ?_, fun h => basePt_not_E4 h⟩
  exact isNiels_iff.2 (ofExtended_spec base_spec)

/-- **C61 is false of the code**: the point `SetBase` stores is not `(x, 4/5)`.  It stands for the same group element
(C24). -/
theorem C61_base_false (P : EPoint) (h : IsPoint (ExtPt.base : Pt) P) : P.y ≠ 4 / 5 := by
  have hP : P = basePt := (isPoint_iff.1 h).inj base_spec
  rw [hP]
  intro hy
  have h5 : (5 : Fp) ≠ 0 := by
    have : ((5 : ℕ) : Fp) ≠ 0 := by rw [Ne, ZMod.natCast_eq_zero_iff]; decide +kernel
    exact_mod_cast this
  rw [eq_div_iff h5] at hy
  have : ((9771384041963202563870679428059935816164187996444183106833894008023910952347 * 5 : ℕ) : Fp) = ((4 : ℕ) : Fp) := by
    push_cast
    exact_mod_cast hy
  rw [ZMod.natCast_eq_natCast_iff'] at this
  exact absurd this (by decide +kernel)

example : IsPoint (ExtPt.base : Pt) basePt := isPoint_iff.2 base_spec

end Ristretto.Props
