import Verif.Spec.Abstract
import Verif.Model.BaseTable
import Verif.Proofs.ScalarMult
import Verif.Proofs.RistrettoMath

/-!
# The precomputed table of the base point

Every entry is compared, in the kernel, with the multiple of the base point it has to be.
-/

namespace Ristretto.Proofs
open Model
set_option autoImplicit false

/-- The base point of the package (`epBase`). -/
def basePt : EPoint where
  x := baseX
  y := baseY
  on := NP.onCurve_of_mod (by decide +kernel)

/-- `basePt` in numbers. -/
def baseN : NP := ⟨7413488746097234319268533557746747958297143720389000677696299943083562100178,
  9771384041963202563870679428059935816164187996444183106833894008023910952347, 1,
  7413488746097234319268533557746747958297143720389000677696299943083562100178 *
  9771384041963202563870679428059935816164187996444183106833894008023910952347 % p⟩

theorem baseN_rep : NP.Rep baseN basePt :=
  NP.rep_affine basePt _ _ rfl rfl (by decide +kernel) (by decide +kernel)

theorem base_spec {F : Type} [LawfulField F] : IsPt (ExtPt.base : ExtPt F) basePt where
  bX := LawfulField.bd_epBaseX
  bY := LawfulField.bd_epBaseY
  bZ := bd12 LawfulField.bd_feOne
  bT := LawfulField.bd_epBaseT
  proj := by
    refine ⟨?_, ?_, ?_, ?_⟩
    · show LawfulField.eval (FieldOps.feOne : F) ≠ 0
      rw [LawfulField.eval_feOne]; exact one_ne_zero
    all_goals
      simp only [ExtPt.base, LawfulField.eval_feOne, LawfulField.eval_epBaseX,
        LawfulField.eval_epBaseY, LawfulField.eval_epBaseT, mul_one]
      try rfl

/-- The package's base point and the base point `(x, 4/5)` of Ed25519 differ by a 4-torsion point. -/
theorem basePt_eq : basePt = stdBase + -torsI := by
  have h := NP.add_rep baseN_rep (a := baseN) (NP.rep_affine torsI
    19681161376707505956807079304988542015446066515923890162744021073123829784752 0 rfl
    (by simp [torsI]) (by decide +kernel) (by decide +kernel))
  have := (NP.eqv_iff h stdBase_rep).1 (by decide +kernel)
  rw [← this]; abel

theorem basePt_sub_stdBase : basePt - stdBase ∈ E4 := by
  rw [basePt_eq, add_sub_cancel_left]; exact E4.neg_mem torsI_mem

/-- The two are different points of the curve, though. -/
theorem basePt_ne_stdBase : basePt ≠ stdBase := by
  intro h
  exact absurd ((NP.eqv_iff baseN_rep stdBase_rep).2 h) (by decide +kernel)

theorem basePt_even : basePt ∈ Even := by
  rw [basePt_eq]
  exact Even.add_mem stdBase_even (E4_le_Even (E4.neg_mem torsI_mem))

theorem basePt_not_E4 : basePt ∉ E4 := by
  intro h
  have h4 : (4 : ℕ) • stdBase = 0 := by
    have : stdBase ∈ E4 := by
      have e : stdBase = basePt - (basePt - stdBase) := by abel
      rw [e]; exact E4.sub_mem h basePt_sub_stdBase
    exact this
  have := addOrderOf_dvd_of_nsmul_eq_zero h4
  rw [addOrderOf_stdBase] at this
  exact absurd (Nat.le_of_dvd (by norm_num) this) (by decide +kernel)

/-- All limbs are below `2^51`. -/
def smallLimbs (a : Fe51) : Bool :=
  decide (a.l0.toNat < 2 ^ 51) && decide (a.l1.toNat < 2 ^ 51) && decide (a.l2.toNat < 2 ^ 51) &&
  decide (a.l3.toNat < 2 ^ 51) && decide (a.l4.toNat < 2 ^ 51)

/-- Compare an entry with a point. -/
def checkEntry (e : NielsPt Fe51) (n : NP) : Bool :=
  smallLimbs e.YPlusX && smallLimbs e.YMinusX && smallLimbs e.XY2D &&
  Fe51.nat e.YPlusX * n.Z % p == (n.Y + n.X) % p &&
  Fe51.nat e.YMinusX * n.Z % p == (n.Y + (p - n.X)) % p &&
  Fe51.nat e.XY2D * n.Z % p == 2 * dNat * n.T % p

theorem smallLimbs_bd {a : Fe51} (h : smallLimbs a = true) : LawfulField.bd 2 a := by
  simp only [smallLimbs, Bool.and_eq_true, decide_eq_true_eq] at h
  obtain ⟨⟨⟨⟨h0, h1⟩, h2⟩, h3⟩, h4⟩ := h
  have hU : 2 ^ 51 ≤ 2 * Fe51.U := by decide
  exact ⟨by omega, by omega, by omega, by omega, by omega⟩

theorem checkEntry_spec {e : NielsPt Fe51} {n : NP} {P : EPoint} (hn : n.Rep P)
    (h : checkEntry e n = true) : IsNp e P := by
  simp only [checkEntry, Bool.and_eq_true, beq_iff_eq] at h
  obtain ⟨⟨⟨⟨⟨b1, b2⟩, b3⟩, h1⟩, h2⟩, h3⟩ := h
  obtain ⟨hp, hx, -⟩ := hn
  have c1 := natCast_eq_of_mod h1
  have c2 := natCast_eq_of_mod h2
  have c3 := natCast_eq_of_mod h3
  rw [Nat.cast_mul, Nat.cast_add, hp.x, hp.y] at c1
  rw [Nat.cast_mul, Nat.cast_add, NP.csub hx.le, hp.x, hp.y] at c2
  rw [Nat.cast_mul, Nat.cast_mul, Nat.cast_mul, hp.t, ← d_eq] at c3
  refine ⟨smallLimbs_bd b1, smallLimbs_bd b2, smallLimbs_bd b3, ?_, ?_, ?_⟩
  · apply mul_right_cancel₀ hp.z
    show ((Fe51.nat e.YPlusX : ℕ) : Fp) * _ = _
    rw [c1]; ring
  · apply mul_right_cancel₀ hp.z
    show ((Fe51.nat e.YMinusX : ℕ) : Fp) * _ = _
    rw [c2]; ring
  · apply mul_right_cancel₀ hp.z
    show ((Fe51.nat e.XY2D : ℕ) : Fp) * _ = _
    rw [c3]; push_cast; ring

/-- Compare a row with `n, n + a, n + 2a, ...`. -/
def checkRow (a : NP) : NP → List (NielsPt Fe51) → Bool
  | _, [] => true
  | n, e :: es => checkEntry e n && checkRow a (n.add a) es

theorem checkRow_spec {a : NP} {P : EPoint} (ha : a.Rep P) : ∀ (row : List (NielsPt Fe51)) (n : NP)
    (m : ℕ), n.Rep ((m + 1) • P) → checkRow a n row = true →
    ∀ (k : ℕ) (e : NielsPt Fe51), row[k]? = some e → IsNp e ((m + k + 1) • P) := by
  intro row
  induction row with
  | nil => intro n m _ _ k e h; simp at h
  | cons x xs ih =>
    intro n m hn h k e hk
    simp only [checkRow, Bool.and_eq_true] at h
    cases k with
    | zero =>
      simp only [List.getElem?_cons_zero, Option.some.injEq] at hk
      subst hk
      exact checkEntry_spec hn h.1
    | succ k =>
      rw [List.getElem?_cons_succ] at hk
      have := ih (n.add a) (m + 1) (by rw [succ_nsmul]; exact NP.add_rep hn ha) h.2 k e hk
      rwa [show m + 1 + k + 1 = m + (k + 1) + 1 by ring] at this

/-- Double eight times. -/
def dbl8 (a : NP) : NP :=
  let a := a.add a; let a := a.add a; let a := a.add a; let a := a.add a
  let a := a.add a; let a := a.add a; let a := a.add a; a.add a

theorem dbl_rep {a : NP} {P : EPoint} {n : ℕ} (h : a.Rep (n • P)) : (a.add a).Rep ((2 * n) • P) := by
  rw [two_mul, add_nsmul]; exact NP.add_rep h h

theorem dbl8_rep {a : NP} {P : EPoint} (h : a.Rep P) : (dbl8 a).Rep (256 • P) := by
  have h0 : a.Rep (1 • P) := by rw [one_nsmul]; exact h
  exact dbl_rep (dbl_rep (dbl_rep (dbl_rep (dbl_rep (dbl_rep (dbl_rep (dbl_rep h0)))))))

def checkTable : Table Fe51 → NP → Bool
  | [], _ => true
  | row :: rows, a => decide (row.length = 8) && checkRow a a row && checkTable rows (dbl8 a)

theorem checkTable_spec : ∀ (t : Table Fe51) (a : NP) (P : EPoint), a.Rep P →
    checkTable t a = true → IsTable t P := by
  intro t
  induction t with
  | nil => intros; trivial
  | cons row rows ih =>
    intro a P ha h
    simp only [checkTable, Bool.and_eq_true, decide_eq_true_eq] at h
    refine ⟨⟨h.1.1, fun k e hk => ?_⟩, ih _ _ (dbl8_rep ha) h.2⟩
    have := checkRow_spec ha row a 0 (by simpa using ha) h.1.2 k e hk
    rwa [zero_add] at this

theorem checkTable_base : checkTable baseTable baseN = true := by decide +kernel

/-- The 256 entries are the right multiples of the base point. -/
theorem baseTable_spec : IsTable baseTable basePt ∧ baseTable.length = 32 :=
  ⟨checkTable_spec _ _ _ baseN_rep checkTable_base, by decide +kernel⟩

end Ristretto.Proofs
