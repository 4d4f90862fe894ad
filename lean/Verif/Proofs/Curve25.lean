import Verif.Proofs.Field25Bytes
import Verif.Proofs.Curve

/-!
# The point formulas over the generic field implementation

The same formulas as in `Verif/Proofs/Curve.lean`.  The limbs are signed and not renormalised by `add` and `sub`,
so that the bounds are different: the second factor of a product must have limbs up to `times19`.
-/

namespace Ristretto.Proofs
open Model FieldOps
set_option autoImplicit false

namespace Fe25

/-- Bounds in units of a tight limb. -/
def bu (n : ℕ) (a : Fe25) : Prop := Limbs25 (n * 2 ^ 25) (n * (2 ^ 24 + 2 ^ 16)) a

theorem bu_tight {a : Fe25} (h : Tight25 a) : bu 1 a := by
  unfold bu Tight25 at *
  simpa using h

theorem bu_mono {m n : ℕ} {a : Fe25} (h : m ≤ n) (ha : bu m a) : bu n a :=
  Limbs25.mono ha (Nat.mul_le_mul_right _ h) (Nat.mul_le_mul_right _ h)

theorem bu_add {m n : ℕ} {a b : Fe25} (ha : bu m a) (hb : bu n b) (h : m + n ≤ 10) :
    bu (m + n) (FieldOps.add a b) ∧ feVal25 (FieldOps.add a b) = feVal25 a + feVal25 b := by
  have := add_spec a b _ _ _ _ ha hb (by omega) (by omega)
  rw [← Nat.add_mul, ← Nat.add_mul] at this
  exact this

theorem bu_sub {m n : ℕ} {a b : Fe25} (ha : bu m a) (hb : bu n b) (h : m + n ≤ 10) :
    bu (m + n) (FieldOps.sub a b) ∧ feVal25 (FieldOps.sub a b) = feVal25 a - feVal25 b := by
  have := sub_spec a b _ _ _ _ ha hb (by omega) (by omega)
  rw [← Nat.add_mul, ← Nat.add_mul] at this
  exact this

theorem bu_neg {m : ℕ} {a : Fe25} (ha : bu m a) (h : m ≤ 10) :
    bu m (FieldOps.neg a) ∧ feVal25 (FieldOps.neg a) = - feVal25 a :=
  neg_spec a _ _ ha (by omega) (by omega)

theorem bu_19 {a : Fe25} (ha : bu 3 a) : Limbs25 times19 times19 a := Limbs25.mono ha (by decide) (by decide)

theorem bu_27 {a : Fe25} (ha : bu 3 a) : Limbs25 (2 ^ 27) (2 ^ 27) a := Limbs25.mono ha (by decide) (by decide)

theorem bu_mul {a b : Fe25} (ha : Limbs25 (2 ^ 27) (2 ^ 27) a) (hb : Limbs25 times19 times19 b) :
    bu 1 (FieldOps.mul a b) ∧ feVal25 (FieldOps.mul a b) = feVal25 a * feVal25 b := by
  obtain ⟨h1, h2⟩ := mul_spec a b ha hb
  exact ⟨bu_tight h1, h2⟩

theorem bu_square {a : Fe25} (ha : Limbs25 (2 ^ 27) (2 ^ 27) a) :
    bu 1 (FieldOps.square a) ∧ feVal25 (FieldOps.square a) = feVal25 a * feVal25 a := by
  obtain ⟨h1, h2⟩ := square_spec a ha
  exact ⟨bu_tight h1, h2⟩

theorem bu_doubledSquare {a : Fe25} (ha : Limbs25 times19 times19 a) :
    bu 1 (FieldOps.doubledSquare a) ∧ feVal25 (FieldOps.doubledSquare a) = 2 * (feVal25 a * feVal25 a) := by
  obtain ⟨h1, h2⟩ := doubledSquare_spec a ha
  exact ⟨bu_tight h1, h2⟩

theorem wide_add {a b : Fe25} (ha : Limbs25 (2 ^ 26) (2 ^ 26) a) (hb : Limbs25 (2 ^ 26) (2 ^ 26) b) :
    Limbs25 (2 ^ 27) (2 ^ 27) (FieldOps.add a b) ∧ feVal25 (FieldOps.add a b) = feVal25 a + feVal25 b :=
  add_spec a b _ _ _ _ ha hb (by norm_num) (by norm_num)

theorem wide_sub {a b : Fe25} (ha : Limbs25 (2 ^ 26) (2 ^ 26) a) (hb : Limbs25 (2 ^ 26) (2 ^ 26) b) :
    Limbs25 (2 ^ 27) (2 ^ 27) (FieldOps.sub a b) ∧ feVal25 (FieldOps.sub a b) = feVal25 a - feVal25 b :=
  sub_spec a b _ _ _ _ ha hb (by norm_num) (by norm_num)

theorem w27 {a : Fe25} (ha : Limbs25 (2 ^ 26) (2 ^ 26) a) : Limbs25 (2 ^ 27) (2 ^ 27) a :=
  Limbs25.mono ha (by decide) (by decide)

theorem w19 {a : Fe25} (ha : Limbs25 (2 ^ 26) (2 ^ 26) a) : Limbs25 times19 times19 a :=
  Limbs25.mono ha (by decide) (by decide)

theorem t27 {a : Fe25} (ha : Limbs25 times19 times19 a) : Limbs25 (2 ^ 27) (2 ^ 27) a :=
  Limbs25.mono ha (by decide) (by decide)

theorem bu1_19 {a : Fe25} (ha : bu 1 a) : Limbs25 times19 times19 a := bu_19 (bu_mono (by norm_num) ha)
theorem bu2_19 {a : Fe25} (ha : bu 2 a) : Limbs25 times19 times19 a := bu_19 (bu_mono (by norm_num) ha)
theorem bu1_27 {a : Fe25} (ha : bu 1 a) : Limbs25 (2 ^ 27) (2 ^ 27) a := bu_27 (bu_mono (by norm_num) ha)
theorem bu2_27 {a : Fe25} (ha : bu 2 a) : Limbs25 (2 ^ 27) (2 ^ 27) a := bu_27 (bu_mono (by norm_num) ha)

/-- Completed coordinates of `P`, ready to be multiplied. -/
structure IsC (q : ComplPt Fe25) (P : EPoint) : Prop where
  bX : bu 3 q.X
  bY : bu 3 q.Y
  bZ : bu 3 q.Z
  bT : bu 3 q.T
  compl : Compl P (feVal25 q.X) (feVal25 q.Y) (feVal25 q.Z) (feVal25 q.T)

theorem bu1_tight {a : Fe25} (h : bu 1 a) : Limbs25 (2 ^ 25) (2 ^ 24 + 2 ^ 16) a := by
  unfold bu at h; simpa using h

theorem toExtended_spec {c : ComplPt Fe25} {P : EPoint} (h : IsC c P) : IsTightPoint c.toExtended P := by
  obtain ⟨hx, ex⟩ := bu_mul (bu_27 h.bX) (bu_19 h.bT)
  obtain ⟨hy, ey⟩ := bu_mul (bu_27 h.bY) (bu_19 h.bZ)
  obtain ⟨hz, ez⟩ := bu_mul (bu_27 h.bZ) (bu_19 h.bT)
  obtain ⟨ht, et⟩ := bu_mul (bu_27 h.bX) (bu_19 h.bY)
  refine ⟨bu1_tight hx, bu1_tight hy, bu1_tight hz, bu1_tight ht, ?_⟩
  simp only [ComplPt.toExtended, ex, ey, ez, et]
  exact h.compl.proj

/-- The limbs of `2 d`. -/
theorem bu_fe2D : Limbs25 times19 times19 (fe2D : Fe25) := by decide +kernel

theorem addExtended_spec {q r : ExtPt Fe25} {P Q : EPoint} {B C : ℕ} (h2D : feVal25 fe2D = 2 * d)
    (hq : IsWidePoint q P) (hr : IsPoint25 B C r Q) (hB : B < 2 ^ 30) (hC : C < 2 ^ 30)
    (hs : SecondOperand r) :
    IsC (ComplPt.addExtended q r) (P + Q) := by
  obtain ⟨s1, -, s3, s4, s5⟩ := hs
  obtain ⟨a1, a1e⟩ := wide_sub hq.limbY hq.limbX
  have a2e : feVal25 (FieldOps.sub r.Y r.X) = _ := (sub_spec _ _ _ _ _ _ hr.limbY hr.limbX (by omega) (by omega)).2
  obtain ⟨a3, a3e⟩ := bu_mul (b := FieldOps.sub r.Y r.X) a1 s3
  obtain ⟨b1, b1e⟩ := wide_add hq.limbX hq.limbY
  have b2e : feVal25 (FieldOps.add r.X r.Y) = _ := (Fe25.add_spec _ _ _ _ _ _ hr.limbX hr.limbY (by omega) (by omega)).2
  obtain ⟨b3, b3e⟩ := bu_mul (b := FieldOps.add r.X r.Y) b1 s1
  obtain ⟨c1, c1e⟩ := bu_mul (w27 hq.limbT) s5
  obtain ⟨c2, c2e⟩ := bu_mul (bu1_27 c1) bu_fe2D
  obtain ⟨d1, d1e⟩ := bu_mul (w27 hq.limbZ) s4
  obtain ⟨d2, d2e⟩ := bu_add d1 d1 (by norm_num)
  obtain ⟨x, xe⟩ := bu_sub b3 a3 (by norm_num)
  obtain ⟨t, te⟩ := bu_sub d2 c2 (by norm_num)
  obtain ⟨z, ze⟩ := bu_add d2 c2 (by norm_num)
  obtain ⟨y, ye⟩ := bu_add b3 a3 (by norm_num)
  refine ⟨bu_mono (by norm_num) x, bu_mono (by norm_num) y, z, t, ?_⟩
  simp only [ComplPt.addExtended, xe, te, ze, ye, d2e, d1e, c2e, c1e, b3e, b2e, b1e, a3e, a2e, a1e, h2D]
  exact hq.proj.add hr.proj

theorem subExtended_spec {q r : ExtPt Fe25} {P Q : EPoint} {B C : ℕ} (h2D : feVal25 fe2D = 2 * d)
    (hq : IsWidePoint q P) (hr : IsPoint25 B C r Q) (hB : B < 2 ^ 30) (hC : C < 2 ^ 30)
    (hs : SecondOperand r) :
    IsC (ComplPt.subExtended q r) (P - Q) := by
  obtain ⟨s1, s2, s3, s4, s5⟩ := hs
  obtain ⟨a1, a1e⟩ := wide_sub hq.limbY hq.limbX
  have a2e : feVal25 (FieldOps.add r.Y r.X) = _ := (Fe25.add_spec _ _ _ _ _ _ hr.limbY hr.limbX (by omega) (by omega)).2
  obtain ⟨a3, a3e⟩ := bu_mul (b := FieldOps.add r.Y r.X) a1 s2
  obtain ⟨b1, b1e⟩ := wide_add hq.limbX hq.limbY
  have b2e : feVal25 (FieldOps.sub r.Y r.X) = _ := (sub_spec _ _ _ _ _ _ hr.limbY hr.limbX (by omega) (by omega)).2
  obtain ⟨b3, b3e⟩ := bu_mul (b := FieldOps.sub r.Y r.X) b1 s3
  obtain ⟨c1, c1e⟩ := bu_mul (w27 hq.limbT) s5
  obtain ⟨c2, c2e⟩ := bu_mul (bu1_27 c1) bu_fe2D
  obtain ⟨d1, d1e⟩ := bu_mul (w27 hq.limbZ) s4
  obtain ⟨d2, d2e⟩ := bu_add d1 d1 (by norm_num)
  obtain ⟨x, xe⟩ := bu_sub b3 a3 (by norm_num)
  obtain ⟨t, te⟩ := bu_add d2 c2 (by norm_num)
  obtain ⟨z, ze⟩ := bu_sub d2 c2 (by norm_num)
  obtain ⟨y, ye⟩ := bu_add b3 a3 (by norm_num)
  refine ⟨bu_mono (by norm_num) x, bu_mono (by norm_num) y, z, t, ?_⟩
  simp only [ComplPt.subExtended, xe, te, ze, ye, d2e, d1e, c2e, c1e, b3e, b2e, b1e, a3e, a2e, a1e, h2D]
  have := hq.proj.add hr.proj.neg
  rw [sub_eq_add_neg P Q]
  convert this using 1 <;> ring

theorem doubleExtended_spec {q : ExtPt Fe25} {P : EPoint} (hq : IsWidePoint q P) :
    IsC (ComplPt.doubleExtended q) (P + P) := by
  obtain ⟨a, ae⟩ := bu_square (w27 hq.limbX)
  obtain ⟨b, be⟩ := bu_square (w27 hq.limbY)
  obtain ⟨c, ce⟩ := bu_doubledSquare (w19 hq.limbZ)
  obtain ⟨dd, de⟩ := bu_neg a (by norm_num)
  obtain ⟨s, se⟩ := wide_add hq.limbX hq.limbY
  obtain ⟨x1, x1e⟩ := bu_square s
  obtain ⟨x2, x2e⟩ := bu_sub x1 a (by norm_num)
  obtain ⟨x3, x3e⟩ := bu_sub x2 b (by norm_num)
  obtain ⟨z, ze⟩ := bu_add dd b (by norm_num)
  obtain ⟨t, te⟩ := bu_sub z c (by norm_num)
  obtain ⟨y, ye⟩ := bu_sub dd b (by norm_num)
  refine ⟨x3, bu_mono (by norm_num) y, bu_mono (by norm_num) z, t, ?_⟩
  simp only [ComplPt.doubleExtended, x3e, x2e, x1e, te, ze, ye, de, se, ce, be, ae]
  have := (Proj.double hq.proj.z hq.proj.x hq.proj.y).scale (c := 1) (e := -1) one_ne_zero
    (neg_ne_zero.2 one_ne_zero)
  convert this using 1 <;> ring

theorem negPt_spec {q : ExtPt Fe25} {P : EPoint} {B C : ℕ} (hB : B < 2 ^ 31) (hC : C < 2 ^ 31) (hq : IsPoint25 B C q P) :
    IsPoint25 B C q.neg (-P) := by
  obtain ⟨x, xe⟩ := Fe25.neg_spec _ _ _ hq.limbX hB hC
  obtain ⟨t, te⟩ := Fe25.neg_spec _ _ _ hq.limbT hB hC
  refine ⟨x, hq.limbY, hq.limbZ, t, ?_⟩
  have xe' : feVal25 (FieldOps.neg q.X) = _ := xe
  have te' : feVal25 (FieldOps.neg q.T) = _ := te
  simp only [ExtPt.neg, xe', te']
  exact hq.proj.neg

theorem addExtendedNiels_spec {q : ExtPt Fe25} {r : NielsPt Fe25} {P Q : EPoint} (hq : IsWidePoint q P)
    (hz : Tight25 q.Z) (hr : IsNielsPoint25 r Q) : IsC (ComplPt.addExtendedNiels q r) (P + Q) := by
  obtain ⟨x1, x1e⟩ := wide_add hq.limbY hq.limbX
  obtain ⟨y1, y1e⟩ := wide_sub hq.limbY hq.limbX
  obtain ⟨z1, z1e⟩ := bu_mul x1 hr.limbP
  obtain ⟨y2, y2e⟩ := bu_mul y1 hr.limbM
  obtain ⟨t1, t1e⟩ := bu_mul (t27 hr.limbD) (w19 hq.limbT)
  obtain ⟨t0, t0e⟩ := bu_add (bu_tight hz) (bu_tight hz) (by norm_num)
  obtain ⟨x, xe⟩ := bu_sub z1 y2 (by norm_num)
  obtain ⟨y, ye⟩ := bu_add z1 y2 (by norm_num)
  obtain ⟨z, ze⟩ := bu_add t0 t1 (by norm_num)
  obtain ⟨t, te⟩ := bu_sub t0 t1 (by norm_num)
  refine ⟨bu_mono (by norm_num) x, bu_mono (by norm_num) y, z, t, ?_⟩
  simp only [ComplPt.addExtendedNiels, xe, te, ze, ye, t0e, t1e, y2e, z1e, y1e, x1e, hr.p, hr.m, hr.d]
  have h2 : Proj Q Q.x Q.y 1 (Q.x * Q.y) := ⟨one_ne_zero, by ring, by ring, by ring⟩
  convert hq.proj.add h2 using 1 <;> ring

theorem subExtendedNiels_spec {q : ExtPt Fe25} {r : NielsPt Fe25} {P Q : EPoint} (hq : IsWidePoint q P)
    (hz : Tight25 q.Z) (hr : IsNielsPoint25 r Q) : IsC (ComplPt.subExtendedNiels q r) (P - Q) := by
  obtain ⟨x1, x1e⟩ := wide_add hq.limbY hq.limbX
  obtain ⟨y1, y1e⟩ := wide_sub hq.limbY hq.limbX
  obtain ⟨z1, z1e⟩ := bu_mul x1 hr.limbM
  obtain ⟨y2, y2e⟩ := bu_mul y1 hr.limbP
  obtain ⟨t1, t1e⟩ := bu_mul (t27 hr.limbD) (w19 hq.limbT)
  obtain ⟨t0, t0e⟩ := bu_add (bu_tight hz) (bu_tight hz) (by norm_num)
  obtain ⟨x, xe⟩ := bu_sub z1 y2 (by norm_num)
  obtain ⟨y, ye⟩ := bu_add z1 y2 (by norm_num)
  obtain ⟨z, ze⟩ := bu_sub t0 t1 (by norm_num)
  obtain ⟨t, te⟩ := bu_add t0 t1 (by norm_num)
  refine ⟨bu_mono (by norm_num) x, bu_mono (by norm_num) y, z, t, ?_⟩
  simp only [ComplPt.subExtendedNiels, xe, te, ze, ye, t0e, t1e, y2e, z1e, y1e, x1e, hr.p, hr.m, hr.d]
  have h2 : Proj (-Q) (-Q.x) Q.y 1 (-(Q.x * Q.y)) :=
    ⟨one_ne_zero, by rw [EPoint.neg_x]; ring, by rw [EPoint.neg_y]; ring,
      by rw [EPoint.neg_x, EPoint.neg_y]; ring⟩
  rw [sub_eq_add_neg]
  convert hq.proj.add h2 using 1 <;> ring

end Fe25
end Ristretto.Proofs
