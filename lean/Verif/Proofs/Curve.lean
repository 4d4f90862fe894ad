import Verif.Model.Curve
import Verif.Proofs.FieldFlags
import Verif.Proofs.FieldPow
import Verif.Spec.Order

/-!
# The point formulas compute the group law
-/

namespace Ristretto.Proofs
open Model FieldOps LawfulField
set_option autoImplicit false

variable {F : Type} [LawfulField F]

/-- `p` holds extended coordinates of `P`, with small limbs. -/
structure IsPt (q : ExtPt F) (P : EPoint) : Prop where
  bX : bd 2 q.X
  bY : bd 2 q.Y
  bZ : bd 2 q.Z
  bT : bd 2 q.T
  proj : Proj P (eval q.X) (eval q.Y) (eval q.Z) (eval q.T)

/-- `p` holds completed coordinates of `P`. -/
structure IsCp (q : ComplPt F) (P : EPoint) : Prop where
  bX : bd 6 q.X
  bY : bd 6 q.Y
  bZ : bd 6 q.Z
  bT : bd 6 q.T
  compl : Compl P (eval q.X) (eval q.Y) (eval q.Z) (eval q.T)

/-- `p` holds projective coordinates of `P`. -/
structure IsPp (q : ProjPt F) (P : EPoint) : Prop where
  bX : bd 2 q.X
  bY : bd 2 q.Y
  bZ : bd 2 q.Z
  z : eval q.Z ≠ 0
  x : eval q.X = P.x * eval q.Z
  y : eval q.Y = P.y * eval q.Z

/-- `p` holds affine Niels coordinates of `P`. -/
structure IsNp (q : NielsPt F) (P : EPoint) : Prop where
  bP : bd 2 q.YPlusX
  bM : bd 2 q.YMinusX
  bD : bd 2 q.XY2D
  yp : eval q.YPlusX = P.y + P.x
  ym : eval q.YMinusX = P.y - P.x
  xy : eval q.XY2D = 2 * d * P.x * P.y

theorem IsPt.inj {q : ExtPt F} {P Q : EPoint} (h : IsPt q P) (h' : IsPt q Q) : P = Q :=
  h.proj.inj h'.proj

section mono
variable {a : F}
theorem bd12 (h : bd 1 a) : bd 2 a := bd_mono (by norm_num) h
theorem bd16 (h : bd 1 a) : bd 6 a := bd_mono (by norm_num) h
theorem bd26 (h : bd 2 a) : bd 6 a := bd_mono (by norm_num) h
theorem bd36 (h : bd 3 a) : bd 6 a := bd_mono (by norm_num) h
theorem bd46 (h : bd 4 a) : bd 6 a := bd_mono (by norm_num) h
theorem bd56 (h : bd 5 a) : bd 6 a := bd_mono (by norm_num) h
theorem bd612 (h : bd 6 a) : bd 12 a := bd_mono (by norm_num) h
theorem bd212 (h : bd 2 a) : bd 12 a := bd_mono (by norm_num) h
theorem bd112 (h : bd 1 a) : bd 12 a := bd_mono (by norm_num) h
end mono

theorem toExtended_spec {c : ComplPt F} {P : EPoint} (h : IsCp c P) : IsPt c.toExtended P := by
  obtain ⟨hx, ex⟩ := mul_law h.bX h.bT
  obtain ⟨hy, ey⟩ := mul_law h.bY h.bZ
  obtain ⟨hz, ez⟩ := mul_law h.bZ h.bT
  obtain ⟨ht, et⟩ := mul_law h.bX h.bY
  refine ⟨bd12 hx, bd12 hy, bd12 hz, bd12 ht, ?_⟩
  simp only [ComplPt.toExtended, ex, ey, ez, et]
  exact h.compl.proj

theorem toProjective_spec {c : ComplPt F} {P : EPoint} (h : IsCp c P) : IsPp c.toProjective P := by
  obtain ⟨hx, ex⟩ := mul_law h.bX h.bT
  obtain ⟨hy, ey⟩ := mul_law h.bY h.bZ
  obtain ⟨hz, ez⟩ := mul_law h.bZ h.bT
  have hp := h.compl.proj
  refine ⟨bd12 hx, bd12 hy, bd12 hz, ?_, ?_, ?_⟩
  · simp only [ComplPt.toProjective, ez]; exact hp.z
  · simp only [ComplPt.toProjective, ez, ex]; exact hp.x
  · simp only [ComplPt.toProjective, ez, ey]; exact hp.y

theorem extToProjective_spec {c : ExtPt F} {P : EPoint} (h : IsPt c P) : IsPp c.toProjective P :=
  ⟨h.bX, h.bY, h.bZ, h.proj.z, h.proj.x, h.proj.y⟩

theorem addExtended_spec {q r : ExtPt F} {P Q : EPoint} (hq : IsPt q P) (hr : IsPt r Q) :
    IsCp (ComplPt.addExtended q r) (P + Q) := by
  obtain ⟨a1, a1e⟩ := sub_law hq.bY (bd26 hq.bX) (by norm_num)
  obtain ⟨a2, a2e⟩ := sub_law hr.bY (bd26 hr.bX) (by norm_num)
  obtain ⟨a3, a3e⟩ := mul_law (bd46 a1) (bd46 a2)
  obtain ⟨b1, b1e⟩ := add_law hq.bX hq.bY (by norm_num)
  obtain ⟨b2, b2e⟩ := add_law hr.bX hr.bY (by norm_num)
  obtain ⟨b3, b3e⟩ := mul_law (bd46 b1) (bd46 b2)
  obtain ⟨c1, c1e⟩ := mul_law (bd26 hq.bT) (bd26 hr.bT)
  obtain ⟨c2, c2e⟩ := mul_law (bd16 c1) (bd16 (bd_fe2D (F := F)))
  obtain ⟨d1, d1e⟩ := mul_law (bd26 hq.bZ) (bd26 hr.bZ)
  obtain ⟨d2, d2e⟩ := add_law d1 d1 (by norm_num)
  obtain ⟨x, xe⟩ := sub_law b3 (bd16 a3) (by norm_num)
  obtain ⟨t, te⟩ := sub_law d2 (bd16 c2) (by norm_num)
  obtain ⟨z, ze⟩ := add_law d2 c2 (by norm_num)
  obtain ⟨y, ye⟩ := add_law b3 a3 (by norm_num)
  refine ⟨bd36 x, bd26 y, bd36 z, bd46 t, ?_⟩
  simp only [ComplPt.addExtended, xe, te, ze, ye, d2e, d1e, c2e, c1e, b3e, b2e, b1e, a3e, a2e, a1e,
    eval_fe2D]
  exact hq.proj.add hr.proj

theorem neg_spec {q : ExtPt F} {P : EPoint} (hq : IsPt q P) : IsPt q.neg (-P) := by
  obtain ⟨x, xe⟩ := neg_law (bd26 hq.bX)
  obtain ⟨t, te⟩ := neg_law (bd26 hq.bT)
  refine ⟨x, hq.bY, hq.bZ, t, ?_⟩
  simp only [ExtPt.neg, xe, te]
  exact hq.proj.neg

theorem subExtended_spec {q r : ExtPt F} {P Q : EPoint} (hq : IsPt q P) (hr : IsPt r Q) :
    IsCp (ComplPt.subExtended q r) (P - Q) := by
  obtain ⟨a1, a1e⟩ := sub_law hq.bY (bd26 hq.bX) (by norm_num)
  obtain ⟨a2, a2e⟩ := add_law hr.bY hr.bX (by norm_num)
  obtain ⟨a3, a3e⟩ := mul_law (bd46 a1) (bd46 a2)
  obtain ⟨b1, b1e⟩ := add_law hq.bX hq.bY (by norm_num)
  obtain ⟨b2, b2e⟩ := sub_law hr.bY (bd26 hr.bX) (by norm_num)
  obtain ⟨b3, b3e⟩ := mul_law (bd46 b1) (bd46 b2)
  obtain ⟨c1, c1e⟩ := mul_law (bd26 hq.bT) (bd26 hr.bT)
  obtain ⟨c2, c2e⟩ := mul_law (bd16 c1) (bd16 (bd_fe2D (F := F)))
  obtain ⟨d1, d1e⟩ := mul_law (bd26 hq.bZ) (bd26 hr.bZ)
  obtain ⟨d2, d2e⟩ := add_law d1 d1 (by norm_num)
  obtain ⟨x, xe⟩ := sub_law b3 (bd16 a3) (by norm_num)
  obtain ⟨t, te⟩ := add_law d2 c2 (by norm_num)
  obtain ⟨z, ze⟩ := sub_law d2 (bd16 c2) (by norm_num)
  obtain ⟨y, ye⟩ := add_law b3 a3 (by norm_num)
  refine ⟨bd36 x, bd26 y, bd46 z, bd36 t, ?_⟩
  simp only [ComplPt.subExtended, xe, te, ze, ye, d2e, d1e, c2e, c1e, b3e, b2e, b1e, a3e, a2e, a1e,
    eval_fe2D]
  have := hq.proj.add hr.proj.neg
  rw [sub_eq_add_neg P Q]
  convert this using 1 <;> ring

theorem doubleProjective_spec {q : ProjPt F} {P : EPoint} (hq : IsPp q P) :
    IsCp (ComplPt.doubleProjective q) (P + P) := by
  obtain ⟨a, ae⟩ := square_law (bd26 hq.bX)
  obtain ⟨b, be⟩ := square_law (bd26 hq.bY)
  obtain ⟨c, ce⟩ := doubledSquare_law (bd26 hq.bZ)
  obtain ⟨s, se⟩ := add_law hq.bX hq.bY (by norm_num)
  obtain ⟨t0, t0e⟩ := square_law (bd46 s)
  obtain ⟨y, ye⟩ := add_law b a (by norm_num)
  obtain ⟨z, ze⟩ := sub_law b (bd16 a) (by norm_num)
  obtain ⟨x, xe⟩ := sub_law t0 (bd26 y) (by norm_num)
  obtain ⟨t, te⟩ := sub_law c (bd36 z) (by norm_num)
  refine ⟨bd36 x, bd26 y, bd36 z, bd46 t, ?_⟩
  simp only [ComplPt.doubleProjective, xe, te, ze, ye, t0e, se, ce, be, ae]
  exact Proj.double hq.z hq.x hq.y

theorem doubleExtended_spec {q : ExtPt F} {P : EPoint} (hq : IsPt q P) :
    IsCp (ComplPt.doubleExtended q) (P + P) := by
  obtain ⟨a, ae⟩ := square_law (bd26 hq.bX)
  obtain ⟨b, be⟩ := square_law (bd26 hq.bY)
  obtain ⟨c, ce⟩ := doubledSquare_law (bd26 hq.bZ)
  obtain ⟨dd, de⟩ := neg_law (bd16 a)
  obtain ⟨s, se⟩ := add_law hq.bX hq.bY (by norm_num)
  obtain ⟨x1, x1e⟩ := square_law (bd46 s)
  obtain ⟨x2, x2e⟩ := sub_law x1 (bd16 a) (by norm_num)
  obtain ⟨x3, x3e⟩ := sub_law x2 (bd16 b) (by norm_num)
  obtain ⟨z, ze⟩ := add_law dd b (by norm_num)
  obtain ⟨t, te⟩ := sub_law z (bd26 c) (by norm_num)
  obtain ⟨y, ye⟩ := sub_law dd (bd16 b) (by norm_num)
  refine ⟨bd56 x3, bd46 y, bd36 z, bd56 t, ?_⟩
  simp only [ComplPt.doubleExtended, x3e, x2e, x1e, te, ze, ye, de, se, ce, be, ae]
  have := (Proj.double hq.proj.z hq.proj.x hq.proj.y).scale (c := 1) (e := -1) one_ne_zero
    (neg_ne_zero.2 one_ne_zero)
  convert this using 1 <;> ring

theorem add_spec {q r : ExtPt F} {P Q : EPoint} (hq : IsPt q P) (hr : IsPt r Q) :
    IsPt (ExtPt.add q r) (P + Q) := toExtended_spec (addExtended_spec hq hr)

theorem sub_spec {q r : ExtPt F} {P Q : EPoint} (hq : IsPt q P) (hr : IsPt r Q) :
    IsPt (ExtPt.sub q r) (P - Q) := toExtended_spec (subExtended_spec hq hr)

theorem double_spec {q : ExtPt F} {P : EPoint} (hq : IsPt q P) :
    IsPt (ExtPt.double q) (P + P) := toExtended_spec (doubleExtended_spec hq)

theorem zero_spec : IsPt (ExtPt.zero : ExtPt F) 0 := by
  refine ⟨bd12 bd_feZero, bd12 bd_feOne, bd12 bd_feOne, bd12 bd_feZero, ?_⟩
  simp only [ExtPt.zero, eval_feZero, eval_feOne]
  constructor <;> simp

theorem condSet_spec {q r : ExtPt F} (c : Prop) [Decidable c] :
    q.condSet r (flag c) = if c then r else q := by
  unfold ExtPt.condSet
  simp only [condSet_flag]
  split <;> rfl

/-! Niels points -/

theorem addExtendedNiels_spec {q : ExtPt F} {r : NielsPt F} {P Q : EPoint} (hq : IsPt q P)
    (hr : IsNp r Q) : IsCp (ComplPt.addExtendedNiels q r) (P + Q) := by
  obtain ⟨x1, x1e⟩ := add_law hq.bY hq.bX (by norm_num)
  obtain ⟨y1, y1e⟩ := sub_law hq.bY (bd26 hq.bX) (by norm_num)
  obtain ⟨z1, z1e⟩ := mul_law (bd46 x1) (bd26 hr.bP)
  obtain ⟨y2, y2e⟩ := mul_law (bd46 y1) (bd26 hr.bM)
  obtain ⟨t1, t1e⟩ := mul_law (bd26 hr.bD) (bd26 hq.bT)
  obtain ⟨t0, t0e⟩ := add_law hq.bZ hq.bZ (by norm_num)
  obtain ⟨x, xe⟩ := sub_law z1 (bd16 y2) (by norm_num)
  obtain ⟨y, ye⟩ := add_law z1 y2 (by norm_num)
  obtain ⟨z, ze⟩ := add_law t0 t1 (by norm_num)
  obtain ⟨t, te⟩ := sub_law t0 (bd16 t1) (by norm_num)
  refine ⟨bd36 x, bd26 y, bd56 z, t, ?_⟩
  simp only [ComplPt.addExtendedNiels, xe, te, ze, ye, t0e, t1e, y2e, z1e, y1e, x1e, hr.yp, hr.ym,
    hr.xy]
  have h2 : Proj Q Q.x Q.y 1 (Q.x * Q.y) := ⟨one_ne_zero, by ring, by ring, by ring⟩
  convert hq.proj.add h2 using 1 <;> ring

theorem nielsNeg_spec {r : NielsPt F} {Q : EPoint} (hr : IsNp r Q) : IsNp r.neg (-Q) := by
  obtain ⟨x, xe⟩ := neg_law (bd26 hr.bD)
  refine ⟨hr.bM, hr.bP, x, ?_, ?_, ?_⟩
  · simp only [NielsPt.neg, hr.ym, EPoint.neg_x, EPoint.neg_y]; ring
  · simp only [NielsPt.neg, hr.yp, EPoint.neg_x, EPoint.neg_y]; ring
  · simp only [NielsPt.neg, xe, hr.xy, EPoint.neg_x, EPoint.neg_y]; ring

theorem subExtendedNiels_spec {q : ExtPt F} {r : NielsPt F} {P Q : EPoint} (hq : IsPt q P)
    (hr : IsNp r Q) : IsCp (ComplPt.subExtendedNiels q r) (P - Q) := by
  obtain ⟨x1, x1e⟩ := add_law hq.bY hq.bX (by norm_num)
  obtain ⟨y1, y1e⟩ := sub_law hq.bY (bd26 hq.bX) (by norm_num)
  obtain ⟨z1, z1e⟩ := mul_law (bd46 x1) (bd26 hr.bM)
  obtain ⟨y2, y2e⟩ := mul_law (bd46 y1) (bd26 hr.bP)
  obtain ⟨t1, t1e⟩ := mul_law (bd26 hr.bD) (bd26 hq.bT)
  obtain ⟨t0, t0e⟩ := add_law hq.bZ hq.bZ (by norm_num)
  obtain ⟨x, xe⟩ := sub_law z1 (bd16 y2) (by norm_num)
  obtain ⟨y, ye⟩ := add_law z1 y2 (by norm_num)
  obtain ⟨z, ze⟩ := sub_law t0 (bd16 t1) (by norm_num)
  obtain ⟨t, te⟩ := add_law t0 t1 (by norm_num)
  refine ⟨bd36 x, bd26 y, z, bd56 t, ?_⟩
  simp only [ComplPt.subExtendedNiels, xe, te, ze, ye, t0e, t1e, y2e, z1e, y1e, x1e, hr.yp, hr.ym,
    hr.xy]
  have h2 : Proj (-Q) (-Q.x) Q.y 1 (-(Q.x * Q.y)) :=
    ⟨one_ne_zero, by rw [EPoint.neg_x]; ring, by rw [EPoint.neg_y]; ring,
      by rw [EPoint.neg_x, EPoint.neg_y]; ring⟩
  rw [sub_eq_add_neg]
  convert hq.proj.add h2 using 1 <;> ring

theorem nielsZero_spec : IsNp (NielsPt.zero : NielsPt F) 0 := by
  refine ⟨bd12 bd_feOne, bd12 bd_feOne, bd12 bd_feZero, ?_, ?_, ?_⟩ <;>
    simp [NielsPt.zero, eval_feOne, eval_feZero]

theorem nielsCondSet_spec {q r : NielsPt F} (c : Prop) [Decidable c] :
    q.condSet r (flag c) = if c then r else q := by
  unfold NielsPt.condSet
  simp only [condSet_flag]
  split <;> rfl

theorem ofExtended_spec {q : ExtPt F} {P : EPoint} (hq : IsPt q P) :
    IsNp (NielsPt.ofExtended q) P := by
  obtain ⟨zi, zie⟩ := feInverse_spec (bd26 hq.bZ)
  obtain ⟨x, xe⟩ := mul_law (bd26 hq.bX) (bd16 zi)
  obtain ⟨y, ye⟩ := mul_law (bd26 hq.bY) (bd16 zi)
  obtain ⟨yp, ype⟩ := feAdd_spec (bd16 y) (bd16 x)
  obtain ⟨ym, yme⟩ := feSub_spec (bd16 y) (bd16 x)
  obtain ⟨t1, t1e⟩ := mul_law (bd16 x) (bd16 y)
  obtain ⟨t2, t2e⟩ := feAdd_spec (bd16 t1) (bd16 t1)
  obtain ⟨t3, t3e⟩ := mul_law (bd16 t2) (bd16 (bd_feD (F := F)))
  have hx : eval q.X * (eval q.Z)⁻¹ = P.x := by
    rw [hq.proj.x, mul_assoc, mul_inv_cancel₀ hq.proj.z, mul_one]
  have hy : eval q.Y * (eval q.Z)⁻¹ = P.y := by
    rw [hq.proj.y, mul_assoc, mul_inv_cancel₀ hq.proj.z, mul_one]
  refine ⟨bd12 yp, bd12 ym, bd12 t3, ?_, ?_, ?_⟩
  · simp only [NielsPt.ofExtended, ype, xe, ye, zie, hx, hy]
  · simp only [NielsPt.ofExtended, yme, xe, ye, zie, hx, hy]
  · simp only [NielsPt.ofExtended, t3e, t2e, t1e, xe, ye, zie, hx, hy, eval_feD]; ring

end Ristretto.Proofs
