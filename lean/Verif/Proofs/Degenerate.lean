import Verif.Proofs.Api

/-!
# Variables that hold no point

`var p Point` and the receiver of a failed `SetBytes` have `X = Y = T = 0`.  Such coordinates belong to
no point; here is what the methods do with them.  `Zp c q`: `q` is degenerate if `c`, and the neutral
point otherwise.
-/

namespace Ristretto.Proofs
open Model FieldOps LawfulField
set_option autoImplicit false

variable {F : Type} [LawfulField F]

/-- Small limbs. -/
structure Small (q : ExtPt F) : Prop where
  bX : bd 2 q.X
  bY : bd 2 q.Y
  bZ : bd 2 q.Z
  bT : bd 2 q.T

/-- Small limbs and `X = Y = T = 0`. -/
structure Deg (q : ExtPt F) : Prop extends Small q where
  x : eval q.X = 0
  y : eval q.Y = 0
  t : eval q.T = 0

structure DegC (c : ComplPt F) : Prop where
  bX : bd 6 c.X
  bY : bd 6 c.Y
  bZ : bd 6 c.Z
  bT : bd 6 c.T
  x : eval c.X = 0
  y : eval c.Y = 0

structure DegP (c : ProjPt F) : Prop where
  bX : bd 2 c.X
  bY : bd 2 c.Y
  bZ : bd 2 c.Z
  x : eval c.X = 0
  y : eval c.Y = 0

/-- A table entry with all values zero. -/
structure DegN (r : NielsPt F) : Prop where
  bP : bd 2 r.YPlusX
  bM : bd 2 r.YMinusX
  bD : bd 2 r.XY2D
  yp : eval r.YPlusX = 0
  ym : eval r.YMinusX = 0

theorem IsPt.small {q : ExtPt F} {P : EPoint} (h : IsPt q P) : Small q := ⟨h.bX, h.bY, h.bZ, h.bT⟩

theorem DegC.toExtended {c : ComplPt F} (h : DegC c) : Deg c.toExtended := by
  obtain ⟨hx, ex⟩ := mul_law h.bX h.bT
  obtain ⟨hy, ey⟩ := mul_law h.bY h.bZ
  obtain ⟨hz, ez⟩ := mul_law h.bZ h.bT
  obtain ⟨ht, et⟩ := mul_law h.bX h.bY
  refine ⟨⟨bd12 hx, bd12 hy, bd12 hz, bd12 ht⟩, ?_, ?_, ?_⟩
  · simp only [ComplPt.toExtended, ex, h.x, zero_mul]
  · simp only [ComplPt.toExtended, ey, h.y, zero_mul]
  · simp only [ComplPt.toExtended, et, h.x, zero_mul]

theorem DegC.toProjective {c : ComplPt F} (h : DegC c) : DegP c.toProjective := by
  obtain ⟨hx, ex⟩ := mul_law h.bX h.bT
  obtain ⟨hy, ey⟩ := mul_law h.bY h.bZ
  obtain ⟨hz, ez⟩ := mul_law h.bZ h.bT
  refine ⟨bd12 hx, bd12 hy, bd12 hz, ?_, ?_⟩
  · simp only [ComplPt.toProjective, ex, h.x, zero_mul]
  · simp only [ComplPt.toProjective, ey, h.y, zero_mul]

theorem addExtended_deg {q r : ExtPt F} (hq : Small q) (hr : Small r)
    (h : (eval q.X = 0 ∧ eval q.Y = 0) ∨ (eval r.X = 0 ∧ eval r.Y = 0)) : DegC (ComplPt.addExtended q r) := by
  obtain ⟨a1, a1e⟩ := sub_law hq.bY (bd26 hq.bX) (by norm_num)
  obtain ⟨a2, a2e⟩ := sub_law hr.bY (bd26 hr.bX) (by norm_num)
  obtain ⟨a3, a3e⟩ := mul_law (bd46 a1) (bd46 a2)
  obtain ⟨b1, b1e⟩ := add_law hq.bX hq.bY (by norm_num)
  obtain ⟨b2, b2e⟩ := add_law hr.bX hr.bY (by norm_num)
  obtain ⟨b3, b3e⟩ := mul_law (bd46 b1) (bd46 b2)
  obtain ⟨c1, c1e⟩ := mul_law (bd26 hq.bT) (bd26 hr.bT)
  obtain ⟨c2, c2e⟩ := mul_law (bd16 c1) (bd16 (bd_fe2D (F := F)))
  obtain ⟨d1, d1e⟩ := mul_law (bd26 hq.bZ) (bd26 hr.bZ)
  obtain ⟨d2, d2e⟩ := add_law d1 d1 (by norm_num)
  obtain ⟨x, xe⟩ := sub_law b3 (bd16 a3) (by norm_num)
  obtain ⟨t, te⟩ := sub_law d2 (bd16 c2) (by norm_num)
  obtain ⟨z, ze⟩ := add_law d2 c2 (by norm_num)
  obtain ⟨y, ye⟩ := add_law b3 a3 (by norm_num)
  refine ⟨bd36 x, bd26 y, bd36 z, bd46 t, ?_, ?_⟩
  · simp only [ComplPt.addExtended, xe, b3e, b2e, b1e, a3e, a2e, a1e]
    rcases h with ⟨h1, h2⟩ | ⟨h1, h2⟩ <;> rw [h1, h2] <;> ring
  · simp only [ComplPt.addExtended, ye, b3e, b2e, b1e, a3e, a2e, a1e]
    rcases h with ⟨h1, h2⟩ | ⟨h1, h2⟩ <;> rw [h1, h2] <;> ring

theorem subExtended_deg {q r : ExtPt F} (hq : Small q) (hr : Small r)
    (h : (eval q.X = 0 ∧ eval q.Y = 0) ∨ (eval r.X = 0 ∧ eval r.Y = 0)) : DegC (ComplPt.subExtended q r) := by
  obtain ⟨a1, a1e⟩ := sub_law hq.bY (bd26 hq.bX) (by norm_num)
  obtain ⟨a2, a2e⟩ := add_law hr.bY hr.bX (by norm_num)
  obtain ⟨a3, a3e⟩ := mul_law (bd46 a1) (bd46 a2)
  obtain ⟨b1, b1e⟩ := add_law hq.bX hq.bY (by norm_num)
  obtain ⟨b2, b2e⟩ := sub_law hr.bY (bd26 hr.bX) (by norm_num)
  obtain ⟨b3, b3e⟩ := mul_law (bd46 b1) (bd46 b2)
  obtain ⟨c1, c1e⟩ := mul_law (bd26 hq.bT) (bd26 hr.bT)
  obtain ⟨c2, c2e⟩ := mul_law (bd16 c1) (bd16 (bd_fe2D (F := F)))
  obtain ⟨d1, d1e⟩ := mul_law (bd26 hq.bZ) (bd26 hr.bZ)
  obtain ⟨d2, d2e⟩ := add_law d1 d1 (by norm_num)
  obtain ⟨x, xe⟩ := sub_law b3 (bd16 a3) (by norm_num)
  obtain ⟨t, te⟩ := add_law d2 c2 (by norm_num)
  obtain ⟨z, ze⟩ := sub_law d2 (bd16 c2) (by norm_num)
  obtain ⟨y, ye⟩ := add_law b3 a3 (by norm_num)
  refine ⟨bd36 x, bd26 y, bd46 z, bd36 t, ?_, ?_⟩
  · simp only [ComplPt.subExtended, xe, b3e, b2e, b1e, a3e, a2e, a1e]
    rcases h with ⟨h1, h2⟩ | ⟨h1, h2⟩ <;> rw [h1, h2] <;> ring
  · simp only [ComplPt.subExtended, ye, b3e, b2e, b1e, a3e, a2e, a1e]
    rcases h with ⟨h1, h2⟩ | ⟨h1, h2⟩ <;> rw [h1, h2] <;> ring

theorem DegP.double {q : ProjPt F} (hq : DegP q) : DegC (ComplPt.doubleProjective q) := by
  obtain ⟨a, ae⟩ := square_law (bd26 hq.bX)
  obtain ⟨b, be⟩ := square_law (bd26 hq.bY)
  obtain ⟨c, ce⟩ := doubledSquare_law (bd26 hq.bZ)
  obtain ⟨s, se⟩ := add_law hq.bX hq.bY (by norm_num)
  obtain ⟨t0, t0e⟩ := square_law (bd46 s)
  obtain ⟨y, ye⟩ := add_law b a (by norm_num)
  obtain ⟨z, ze⟩ := sub_law b (bd16 a) (by norm_num)
  obtain ⟨x, xe⟩ := sub_law t0 (bd26 y) (by norm_num)
  obtain ⟨t, te⟩ := sub_law c (bd36 z) (by norm_num)
  refine ⟨bd36 x, bd26 y, bd36 z, bd46 t, ?_, ?_⟩
  · simp only [ComplPt.doubleProjective, xe, ye, t0e, se, be, ae, hq.x, hq.y]; ring
  · simp only [ComplPt.doubleProjective, ye, be, ae, hq.x, hq.y]; ring

theorem Deg.doubleExtended {q : ExtPt F} (hq : Deg q) : DegC (ComplPt.doubleExtended q) := by
  obtain ⟨a, ae⟩ := square_law (bd26 hq.bX)
  obtain ⟨b, be⟩ := square_law (bd26 hq.bY)
  obtain ⟨c, ce⟩ := doubledSquare_law (bd26 hq.bZ)
  obtain ⟨dd, de⟩ := neg_law (bd16 a)
  obtain ⟨s, se⟩ := add_law hq.bX hq.bY (by norm_num)
  obtain ⟨x1, x1e⟩ := square_law (bd46 s)
  obtain ⟨x2, x2e⟩ := sub_law x1 (bd16 a) (by norm_num)
  obtain ⟨x3, x3e⟩ := sub_law x2 (bd16 b) (by norm_num)
  obtain ⟨z, ze⟩ := add_law dd b (by norm_num)
  obtain ⟨t, te⟩ := sub_law z (bd26 c) (by norm_num)
  obtain ⟨y, ye⟩ := sub_law dd (bd16 b) (by norm_num)
  refine ⟨bd56 x3, bd46 y, bd36 z, bd56 t, ?_, ?_⟩
  · simp only [ComplPt.doubleExtended, x3e, x2e, x1e, se, be, ae, hq.x, hq.y]; ring
  · simp only [ComplPt.doubleExtended, ye, de, be, ae, hq.x, hq.y]; ring

theorem Deg.neg {q : ExtPt F} (hq : Deg q) : Deg q.neg := by
  obtain ⟨x, xe⟩ := neg_law (bd26 hq.bX)
  obtain ⟨t, te⟩ := neg_law (bd26 hq.bT)
  refine ⟨⟨x, hq.bY, hq.bZ, t⟩, ?_, hq.y, ?_⟩
  · simp only [ExtPt.neg, xe, hq.x, neg_zero]
  · simp only [ExtPt.neg, te, hq.t, neg_zero]

theorem addExtendedNiels_deg {q : ExtPt F} {r : NielsPt F} (hq : Small q) (bP : bd 2 r.YPlusX)
    (bM : bd 2 r.YMinusX) (bD : bd 2 r.XY2D)
    (h : (eval q.X = 0 ∧ eval q.Y = 0) ∨ (eval r.YPlusX = 0 ∧ eval r.YMinusX = 0)) :
    DegC (ComplPt.addExtendedNiels q r) := by
  obtain ⟨x1, x1e⟩ := add_law hq.bY hq.bX (by norm_num)
  obtain ⟨y1, y1e⟩ := sub_law hq.bY (bd26 hq.bX) (by norm_num)
  obtain ⟨z1, z1e⟩ := mul_law (bd46 x1) (bd26 bP)
  obtain ⟨y2, y2e⟩ := mul_law (bd46 y1) (bd26 bM)
  obtain ⟨t1, t1e⟩ := mul_law (bd26 bD) (bd26 hq.bT)
  obtain ⟨t0, t0e⟩ := add_law hq.bZ hq.bZ (by norm_num)
  obtain ⟨x, xe⟩ := sub_law z1 (bd16 y2) (by norm_num)
  obtain ⟨y, ye⟩ := add_law z1 y2 (by norm_num)
  obtain ⟨z, ze⟩ := add_law t0 t1 (by norm_num)
  obtain ⟨t, te⟩ := sub_law t0 (bd16 t1) (by norm_num)
  refine ⟨bd36 x, bd26 y, bd56 z, t, ?_, ?_⟩
  · simp only [ComplPt.addExtendedNiels, xe, y2e, z1e, y1e, x1e]
    rcases h with ⟨h1, h2⟩ | ⟨h1, h2⟩ <;> rw [h1, h2] <;> ring
  · simp only [ComplPt.addExtendedNiels, ye, y2e, z1e, y1e, x1e]
    rcases h with ⟨h1, h2⟩ | ⟨h1, h2⟩ <;> rw [h1, h2] <;> ring

theorem DegN.neg {r : NielsPt F} (h : DegN r) : DegN r.neg := by
  obtain ⟨x, -⟩ := neg_law (bd26 h.bD)
  exact ⟨h.bM, h.bP, x, h.ym, h.yp⟩

theorem Deg.ofExtended {q : ExtPt F} (hq : Deg q) : DegN (NielsPt.ofExtended q) := by
  obtain ⟨zi, zie⟩ := feInverse_spec (bd26 hq.bZ)
  obtain ⟨x, xe⟩ := mul_law (bd26 hq.bX) (bd16 zi)
  obtain ⟨y, ye⟩ := mul_law (bd26 hq.bY) (bd16 zi)
  obtain ⟨yp, ype⟩ := feAdd_spec (bd16 y) (bd16 x)
  obtain ⟨ym, yme⟩ := feSub_spec (bd16 y) (bd16 x)
  obtain ⟨t1, t1e⟩ := mul_law (bd16 x) (bd16 y)
  obtain ⟨t2, t2e⟩ := feAdd_spec (bd16 t1) (bd16 t1)
  obtain ⟨t3, t3e⟩ := mul_law (bd16 t2) (bd16 (bd_feD (F := F)))
  refine ⟨bd12 yp, bd12 ym, bd12 t3, ?_, ?_⟩
  · simp only [NielsPt.ofExtended, ype, xe, ye, hq.x, hq.y, zero_mul, add_zero]
  · simp only [NielsPt.ofExtended, yme, xe, ye, hq.x, hq.y, zero_mul, sub_zero]

/-! Degenerate or neutral -/

/-- `q` is degenerate if `c`, and the neutral point otherwise. -/
def Zp (c : Prop) (q : ExtPt F) : Prop := (c → Deg q) ∧ (¬ c → IsPt q 0)
def ZpC (c : Prop) (q : ComplPt F) : Prop := (c → DegC q) ∧ (¬ c → IsCp q 0)
def ZpP (c : Prop) (q : ProjPt F) : Prop := (c → DegP q) ∧ (¬ c → IsPp q 0)
def ZpN (c : Prop) (q : NielsPt F) : Prop := (c → DegN q) ∧ (¬ c → IsNp q 0)

variable {c c' : Prop}

theorem Zp.small {q : ExtPt F} (h : Zp c q) : Small q := by
  by_cases hc : c
  · exact (h.1 hc).toSmall
  · exact (h.2 hc).small

theorem Zp.congr {q : ExtPt F} (h : Zp c q) (hc : c ↔ c') : Zp c' q :=
  ⟨fun h' => h.1 (hc.2 h'), fun h' => h.2 (fun h'' => h' (hc.1 h''))⟩

theorem ZpC.congr {q : ComplPt F} (h : ZpC c q) (hc : c ↔ c') : ZpC c' q :=
  ⟨fun h' => h.1 (hc.2 h'), fun h' => h.2 (fun h'' => h' (hc.1 h''))⟩

theorem ZpC.toExtended {q : ComplPt F} (h : ZpC c q) : Zp c q.toExtended :=
  ⟨fun hc => (h.1 hc).toExtended, fun hc => toExtended_spec (h.2 hc)⟩

theorem ZpC.toProjective {q : ComplPt F} (h : ZpC c q) : ZpP c q.toProjective :=
  ⟨fun hc => (h.1 hc).toProjective, fun hc => toProjective_spec (h.2 hc)⟩

theorem ZpP.double {q : ProjPt F} (h : ZpP c q) : ZpC c (ComplPt.doubleProjective q) :=
  ⟨fun hc => (h.1 hc).double, fun hc => by simpa using doubleProjective_spec (h.2 hc)⟩

theorem Zp.doubleExtended {q : ExtPt F} (h : Zp c q) : ZpC c (ComplPt.doubleExtended q) :=
  ⟨fun hc => (h.1 hc).doubleExtended, fun hc => by simpa using doubleExtended_spec (h.2 hc)⟩

theorem Zp.addExtended {q r : ExtPt F} (h : Zp c q) (h' : Zp c' r) : ZpC (c ∨ c') (ComplPt.addExtended q r) := by
  refine ⟨fun hc => addExtended_deg h.small h'.small ?_, fun hc => ?_⟩
  · rcases hc with hc | hc
    · exact Or.inl ⟨(h.1 hc).x, (h.1 hc).y⟩
    · exact Or.inr ⟨(h'.1 hc).x, (h'.1 hc).y⟩
  · rw [not_or] at hc
    simpa using addExtended_spec (h.2 hc.1) (h'.2 hc.2)

theorem Zp.subExtended {q r : ExtPt F} (h : Zp c q) (h' : Zp c' r) : ZpC (c ∨ c') (ComplPt.subExtended q r) := by
  refine ⟨fun hc => subExtended_deg h.small h'.small ?_, fun hc => ?_⟩
  · rcases hc with hc | hc
    · exact Or.inl ⟨(h.1 hc).x, (h.1 hc).y⟩
    · exact Or.inr ⟨(h'.1 hc).x, (h'.1 hc).y⟩
  · rw [not_or] at hc
    simpa using subExtended_spec (h.2 hc.1) (h'.2 hc.2)

theorem Zp.addNiels {q : ExtPt F} {r : NielsPt F} (h : Zp c q) (h' : ZpN c' r) :
    Zp (c ∨ c') (ComplPt.addExtendedNiels q r).toExtended := by
  have hs : bd 2 r.YPlusX ∧ bd 2 r.YMinusX ∧ bd 2 r.XY2D := by
    by_cases hc : c'
    · exact ⟨(h'.1 hc).bP, (h'.1 hc).bM, (h'.1 hc).bD⟩
    · exact ⟨(h'.2 hc).bP, (h'.2 hc).bM, (h'.2 hc).bD⟩
  refine ZpC.toExtended ⟨fun hc => addExtendedNiels_deg h.small hs.1 hs.2.1 hs.2.2 ?_, fun hc => ?_⟩
  · rcases hc with hc | hc
    · exact Or.inl ⟨(h.1 hc).x, (h.1 hc).y⟩
    · exact Or.inr ⟨(h'.1 hc).yp, (h'.1 hc).ym⟩
  · rw [not_or] at hc
    simpa using addExtendedNiels_spec (h.2 hc.1) (h'.2 hc.2)

theorem Zp.neg {q : ExtPt F} (h : Zp c q) : Zp c q.neg :=
  ⟨fun hc => (h.1 hc).neg, fun hc => by simpa using neg_spec (h.2 hc)⟩

theorem ZpN.neg {q : NielsPt F} (h : ZpN c q) : ZpN c q.neg :=
  ⟨fun hc => (h.1 hc).neg, fun hc => by simpa using nielsNeg_spec (h.2 hc)⟩

theorem Deg.zp {q : ExtPt F} (h : Deg q) : Zp True q := ⟨fun _ => h, fun h' => absurd trivial h'⟩
theorem zp_zero : Zp False (ExtPt.zero : ExtPt F) := ⟨False.elim, fun _ => zero_spec⟩
theorem zpN_zero : ZpN False (NielsPt.zero : NielsPt F) := ⟨False.elim, fun _ => nielsZero_spec⟩

theorem Deg.add_left {q r : ExtPt F} (h : Deg q) (hr : Small r) : Deg (ExtPt.add q r) :=
  (addExtended_deg h.toSmall hr (Or.inl ⟨h.x, h.y⟩)).toExtended
theorem Deg.add_right {q r : ExtPt F} (h : Deg r) (hq : Small q) : Deg (ExtPt.add q r) :=
  (addExtended_deg hq h.toSmall (Or.inr ⟨h.x, h.y⟩)).toExtended
theorem Deg.sub_left {q r : ExtPt F} (h : Deg q) (hr : Small r) : Deg (ExtPt.sub q r) :=
  (subExtended_deg h.toSmall hr (Or.inl ⟨h.x, h.y⟩)).toExtended
theorem Deg.sub_right {q r : ExtPt F} (h : Deg r) (hq : Small q) : Deg (ExtPt.sub q r) :=
  (subExtended_deg hq h.toSmall (Or.inr ⟨h.x, h.y⟩)).toExtended
theorem Deg.double {q : ExtPt F} (h : Deg q) : Deg (ExtPt.double q) := h.doubleExtended.toExtended

/-! Equality and encoding -/

theorem equalsI_deg {q r : ExtPt F} (hq : Small q) (hr : Small r)
    (h : (eval q.X = 0 ∧ eval q.Y = 0) ∨ (eval r.X = 0 ∧ eval r.Y = 0)) : ExtPt.ristrettoEqualsI q r = 1 := by
  obtain ⟨a, ae⟩ := mul_law (bd26 hq.bX) (bd26 hr.bY)
  obtain ⟨b, be⟩ := mul_law (bd26 hr.bX) (bd26 hq.bY)
  unfold ExtPt.ristrettoEqualsI
  simp only
  rw [feEqualsI_spec (bd16 a) (bd16 b)]
  have : eval (mul q.X r.Y) = eval (mul r.X q.Y) := by
    rw [ae, be]
    rcases h with ⟨h1, h2⟩ | ⟨h1, h2⟩ <;> rw [h1, h2] <;> ring
  rw [flag, if_pos this]
  simp

/-- A variable with `X = 0` is encoded as 32 zero bytes. -/
theorem ristretto_x_zero {q : ExtPt F} (hq : Small q) (h : eval q.X = 0) : leVal (ExtPt.ristretto q) = 0 := by
  obtain ⟨d1, -⟩ := add_law hq.bZ hq.bY (by norm_num)
  obtain ⟨u1, -⟩ := sub_law hq.bZ (bd26 hq.bY) (by norm_num)
  obtain ⟨u2, -⟩ := mul_law (bd46 u1) (bd46 d1)
  obtain ⟨v, ve⟩ := mul_law (bd26 hq.bX) (bd26 hq.bY)
  obtain ⟨w, we⟩ := square_law (bd16 v)
  obtain ⟨w2, w2e⟩ := mul_law (bd16 w) (bd16 u2)
  obtain ⟨i, iz, -⟩ := invSqrt_spec (bd16 w2)
  have i0 := iz (by rw [w2e, we, ve, h]; ring)
  obtain ⟨i1, i1e⟩ := mul_law (bd16 i) (bd16 u2)
  obtain ⟨i2, i2e⟩ := mul_law (bd16 i) (bd16 v)
  obtain ⟨z1, z1e⟩ := mul_law (bd16 i1) (bd16 i2)
  obtain ⟨z2, z2e⟩ := mul_law (bd16 z1) (bd26 hq.bT)
  obtain ⟨z3, z3e⟩ := mul_law (bd16 z2) (bd26 hq.bT)
  obtain ⟨nx, nxe⟩ := mul_law (bd26 hq.bY) (bd16 (bd_feI (F := F)))
  obtain ⟨ny, nye⟩ := mul_law (bd26 hq.bX) (bd16 (bd_feI (F := F)))
  obtain ⟨di, die⟩ := mul_law (bd16 (bd_feInvSqrtMinusDMinusOne (F := F))) (bd16 i1)
  rw [i0, zero_mul] at i1e i2e
  rw [i1e, mul_zero] at die
  have fin : ∀ ny di : F, bd 2 ny → bd 1 di → eval di = 0 →
      leVal (bytes (condSet (touch (mul (FieldOps.sub q.Z ny) di)) (FieldOps.neg (touch (mul (FieldOps.sub q.Z ny) di)))
        (isNegativeI (mul (FieldOps.sub q.Z ny) di)))) = 0 := by
    intro ny di hny hdi hz
    obtain ⟨s1, -⟩ := sub_law hq.bZ (bd26 hny) (by norm_num)
    obtain ⟨s2, s2e⟩ := mul_law (bd46 s1) (bd16 hdi)
    rw [hz, mul_zero] at s2e
    obtain ⟨s3, s3e⟩ := touch_law s2
    obtain ⟨s4, s4e⟩ := neg_law (bd16 s3)
    rw [isNegativeI_spec (bd112 s2), condSet_flag]
    split
    · rw [bytes_law (bd212 s4), s4e, s3e, s2e]; simp
    · rw [bytes_law (bd112 s3), s3e, s2e]; simp
  have cn : ∀ x ny : F, bd 1 x → bd 2 ny → bd 2 (condSet ny (FieldOps.neg ny) (isNegativeI x)) := by
    intro x ny hx hny
    rw [isNegativeI_spec (bd112 hx), condSet_flag]
    split
    · exact (neg_law (bd26 hny)).1
    · exact hny
  unfold ExtPt.ristretto
  simp only
  rw [isNegativeI_spec (bd112 z3), one_sub_flag]
  simp only [condSet_flag]
  split
  · exact fin _ _ (cn _ _ (mul_law (bd26 hq.bX) (bd16 z2)).1 hq.bY) i2 i2e
  · exact fin _ _ (cn _ _ (mul_law (bd16 nx) (bd16 z2)).1 (bd12 ny)) di die

theorem leVal_eq_zero {n : ℕ} {a b : Bytes n} (ha : leVal a = 0) (hb : leVal b = 0) : a = b :=
  leVal_inj (ha.trans hb.symm)

theorem Deg.ristretto {q : ExtPt F} (h : Deg q) : ExtPt.ristretto q = encode 0 := by
  rw [← (holds_zero (F := F)).bytes]
  exact leVal_eq_zero (ristretto_x_zero h.toSmall h.x) (ristretto_x_zero zero_spec.small eval_feZero)

/-! Scalar multiplication -/

theorem double5_zp {p : ExtPt F} (hp : Zp c p) :
    Zp c (
      let cp := ComplPt.doubleExtended p
      let cp := ComplPt.doubleProjective cp.toProjective
      let cp := ComplPt.doubleProjective cp.toProjective
      let cp := ComplPt.doubleProjective cp.toProjective
      let cp := ComplPt.doubleProjective cp.toProjective
      cp.toExtended) :=
  hp.doubleExtended.toProjective.double.toProjective.double.toProjective.double.toProjective.double.toExtended

theorem double4_zp {p : ExtPt F} (hp : Zp c p) : Zp c (double4 p) :=
  hp.doubleExtended.toProjective.double.toProjective.double.toProjective.double.toExtended

theorem scalarMultLut_deg {q : ExtPt F} (hq : Deg q) (k : ℕ) (e : ExtPt F)
    (h : (scalarMultLut q)[k]? = some e) : Zp (k ≠ 0) e := by
  have ad : ∀ a : ExtPt F, Deg a → Deg (ExtPt.add a q) := fun a ha => ha.add_left hq.toSmall
  have h2 := hq.double
  have h3 := ad _ h2
  have h4 := h2.double
  have h5 := ad _ h4
  have h6 := h3.double
  have h7 := ad _ h6
  have h8 := h4.double
  have h9 := ad _ h8
  have h10 := h5.double
  have h11 := ad _ h10
  have h12 := h6.double
  have h13 := ad _ h12
  have h14 := h7.double
  have h15 := ad _ h14
  have h16 := h8.double
  have key : k = 0 ∧ e = ExtPt.zero ∨ k ≠ 0 ∧ Deg e := by
    unfold scalarMultLut at h
    simp only at h
    rcases k with _ | _ | _ | _ | _ | _ | _ | _ | _ | _ | _ | _ | _ | _ | _ | _ | _ | k
    · left; exact ⟨rfl, by simpa using h.symm⟩
    all_goals
      first
      | (right; refine ⟨by omega, ?_⟩; simp only [List.getElem?_cons_succ, List.getElem?_cons_zero, Option.some.injEq] at h; subst h; assumption)
      | (simp at h)
  rcases key with ⟨rfl, rfl⟩ | ⟨h1, h2⟩
  · exact ⟨fun h => absurd rfl h, fun _ => zero_spec⟩
  · exact ⟨fun _ => h2, fun h => absurd h1 h⟩

theorem selectLoop15_zp (w : Int8) (rest : List (ExtPt F)) : ∀ (j : ℕ) (t : ExtPt F),
    j + rest.length ≤ 17 → 1 ≤ j →
    (∀ (k : ℕ) (e : ExtPt F), rest[k]? = some e → Deg e) →
    Zp (w.toInt.natAbs ≠ 0 ∧ w.toInt.natAbs < j) t →
    Zp (w.toInt.natAbs ≠ 0 ∧ w.toInt.natAbs < j + rest.length)
      (scalarMultSelectLoop w.toInt32 (Int32.ofNat j) rest t) := by
  induction rest with
  | nil => intro j t _ _ _ ht; simpa [scalarMultSelectLoop] using ht
  | cons e rest ih =>
    intro j t hj h1 hr ht
    simp only [List.length_cons] at hj
    have hstep := equal15_spec ⟨j, by omega⟩ w
    simp only at hstep
    rw [scalarMultSelectLoop, hstep, condSet_spec, show (Int32.ofNat j + 1) = Int32.ofNat (j + 1) by rw [Int32.ofNat_add]; rfl]
    refine (ih (j + 1) _ (by omega) (by omega) (fun k e' h' => hr (k + 1) e' (by simpa using h')) ?_).congr
      (by rw [List.length_cons]; omega)
    split
    · rename_i hw
      have hd := hr 0 e rfl
      exact ⟨fun _ => hd, fun hn => absurd ⟨by omega, by omega⟩ hn⟩
    · rename_i hw
      exact ht.congr (by omega)

theorem condNeg_zp {t : ExtPt F} (ht : Zp c t) (b : Prop) [Decidable b] :
    Zp c ⟨condSet t.X (FieldOps.neg t.X) (flag b), t.Y, t.Z, condSet t.T (FieldOps.neg t.T) (flag b)⟩ := by
  simp only [condSet_flag]
  by_cases h : b
  · simp only [h, if_true]; exact ht.neg
  · simp only [h, if_false]; exact ht

theorem scalarMultSelect_zp {q : ExtPt F} (hq : Deg q) (w : Int8)
    (h1 : -16 ≤ w.toInt) (h2 : w.toInt ≤ 16) :
    Zp (w.toInt ≠ 0) (scalarMultSelect (scalarMultLut q) w.toInt32) := by
  unfold scalarMultSelect
  simp only
  rw [negative_spec]
  apply condNeg_zp
  have hl := scalarMultLut_deg hq
  have h0 : (scalarMultLut q).headD ExtPt.zero = ExtPt.zero := rfl
  have hlen : (scalarMultLut q).tail.length = 16 := rfl
  rw [h0]
  have := selectLoop15_zp w (scalarMultLut q).tail 1 ExtPt.zero (by rw [hlen]) le_rfl
    (fun k e h => (hl (k + 1) e (by simpa [List.getElem?_tail] using h)).1 (by omega))
    (zp_zero.congr ⟨False.elim, fun h => by omega⟩)
  refine this.congr ?_
  rw [hlen]
  omega

theorem scalarMult_foldr_zp {q : ExtPt F} (hq : Deg q) (ws : List Int8)
    (h : ∀ w ∈ ws, -16 ≤ w.toInt ∧ w.toInt ≤ 16) :
    Zp (∃ w ∈ ws, w.toInt ≠ 0) (ws.foldr (fun w p => scalarMultStep (scalarMultLut q) p w) ExtPt.zero) := by
  induction ws with
  | nil => exact zp_zero.congr (by simp)
  | cons w ws ih =>
    rw [List.foldr_cons]
    have h1 := ih (fun w' hw' => h w' (List.mem_cons_of_mem _ hw'))
    have h2 := h w List.mem_cons_self
    have := ((double5_zp h1).addExtended (scalarMultSelect_zp hq w h2.1 h2.2)).toExtended
    refine this.congr ?_
    simp only [List.mem_cons, exists_eq_or_imp]
    exact or_comm

theorem digitsVal_zero (b : ℤ) (ws : List Int8) (h : ∀ w ∈ ws, w.toInt = 0) : digitsVal b ws = 0 := by
  induction ws with
  | nil => rfl
  | cons w ws ih =>
    simp only [digitsVal, h w List.mem_cons_self, ih (fun w' hw' => h w' (List.mem_cons_of_mem _ hw'))]
    simp

theorem bytes_zero {s : Bytes 32} (h : leVal s = 0) : s = Vector.replicate 32 0 :=
  leVal_eq_zero h (by decide +kernel)

theorem scalarMult_deg {q : ExtPt F} (hq : Deg q) (s : Bytes 32) (hs : leVal s < 2 ^ 254) :
    Zp (leVal s ≠ 0) (scalarMult q s) := by
  obtain ⟨hv, hr⟩ := computeScalarWindow5_spec s hs
  have := scalarMult_foldr_zp hq _ hr
  unfold scalarMult
  simp only
  rw [List.foldl_reverse]
  refine this.congr ⟨?_, ?_⟩
  · rintro ⟨w, hw, h0⟩ hz
    rw [bytes_zero hz] at hw
    have : ∀ w ∈ computeScalarWindow5 (Vector.replicate 32 0), w.toInt = 0 := by decide +kernel
    exact h0 (this w hw)
  · intro h0
    by_contra hn
    push Not at hn
    have := digitsVal_zero 32 _ hn
    rw [hv] at this
    exact h0 (by exact_mod_cast this)

theorem varTimeLutLoop_deg {d : ExtPt F} (hd : Deg d) : ∀ (n : ℕ) (c : ExtPt F), Deg c →
    (varTimeLutLoop d n c).length = n ∧ ∀ e ∈ varTimeLutLoop d n c, Deg e := by
  intro n
  induction n with
  | zero => intro c _; exact ⟨rfl, by simp [varTimeLutLoop]⟩
  | succ n ih =>
    intro c hc
    obtain ⟨h1, h2⟩ := ih (ExtPt.add c d) (hc.add_left hd.toSmall)
    refine ⟨by simp [varTimeLutLoop, h1], ?_⟩
    intro e he
    rcases List.mem_cons.1 he with rfl | he
    · exact hc
    · exact h2 e he

theorem lutGet_deg {q : ExtPt F} (hq : Deg q) (k : Int8) (h0 : ¬ k < 0) (h8 : k.toInt.toNat < 8) :
    ∃ e, lutGet (varTimeLut q) k = some e ∧ Deg e := by
  obtain ⟨hl, hk⟩ := varTimeLutLoop_deg hq.double 8 q hq
  unfold lutGet varTimeLut
  rw [if_neg h0]
  refine ⟨_, List.getElem?_eq_getElem (by rw [hl]; exact h8), hk _ (List.getElem_mem _)⟩

theorem varTimeDigit_deg {q p : ExtPt F} (hq : Deg q) (hp : Zp c p) {w : Int8} (ho : w.toInt % 2 = 1)
    (h1 : -15 ≤ w.toInt) (h2 : w.toInt ≤ 15) :
    ∃ r, varTimeDigit w (varTimeLut q) p = some r ∧ ZpC True r := by
  unfold varTimeDigit
  by_cases hw : w > 0
  · rw [if_pos hw]
    obtain ⟨a, b, -⟩ := lut_pos w ho h1 h2 hw
    obtain ⟨e, he, hd⟩ := lutGet_deg hq _ a b
    exact ⟨_, by rw [he]; rfl, (hp.addExtended hd.zp).congr (by simp)⟩
  · rw [if_neg hw]
    obtain ⟨a, b, -⟩ := lut_neg w ho h1 h2 hw
    obtain ⟨e, he, hd⟩ := lutGet_deg hq _ a b
    exact ⟨_, by rw [he]; rfl, (hp.subExtended hd.zp).congr (by simp)⟩

theorem nafSkip_zp (naf : ℕ → Int8) : ∀ (i : ℕ) (cp : ComplPt F), ZpC c cp →
    (nafSkip naf i cp).1 ≤ i ∧ ZpC c (nafSkip naf i cp).2 := by
  intro i
  induction i with
  | zero => intro cp h; exact ⟨le_rfl, h⟩
  | succ i ih =>
    intro cp h
    unfold nafSkip
    split
    · exact ⟨le_rfl, h⟩
    · obtain ⟨h1, h2⟩ := ih _ h.toProjective.double
      exact ⟨by omega, h2⟩

theorem varTimeLoop_deg {q : ExtPt F} (hq : Deg q) (naf : ℕ → Int8) (hok : NafOk naf) :
    ∀ (fuel i : ℕ) (c : Prop) (p : ExtPt F), i < fuel → naf i ≠ 0 → Zp c p →
    ∃ r, varTimeLoop naf (varTimeLut q) fuel i p = some r ∧ Zp True r := by
  intro fuel
  induction fuel with
  | zero => intro i c p h; omega
  | succ fuel ih =>
    intro i c p hi hn hp
    have ho := (hok i).resolve_left hn
    obtain ⟨cp, e1, h1⟩ := varTimeDigit_deg hq hp ho.1 ho.2.1 ho.2.2
    unfold varTimeLoop
    rw [e1]
    simp only [Option.bind_eq_bind, Option.bind_some]
    cases i with
    | zero => exact ⟨_, rfl, h1.toExtended⟩
    | succ i =>
      simp only
      obtain ⟨h2, h3⟩ := nafSkip_zp naf i _ h1.toProjective.double
      split
      · exact ⟨_, rfl, h3.toExtended⟩
      · rename_i hz
        exact ih _ _ _ (by omega) hz h3.toExtended

theorem varTimeScalarMult_deg {q : ExtPt F} (hq : Deg q) (s : Bytes 32) (hs : leVal s < 2 ^ 255) :
    ∃ r, varTimeScalarMult q s = some r ∧ Zp (leVal s ≠ 0) r := by
  obtain ⟨hv, hok, hz⟩ := computeScalar5NAF_spec s hs
  unfold varTimeScalarMult
  simp only
  cases ht : nafTop (computeScalar5NAF s) 256 with
  | none =>
    have h0 := nafTop_none _ _ ht
    rw [nafTail_zero _ _ _ (fun j _ => by
      by_cases hj : j < 256
      · exact h0 j hj
      · exact hz j (by omega))] at hv
    exact ⟨_, rfl, zp_zero.congr ⟨False.elim, fun h => h (by exact_mod_cast hv.symm)⟩⟩
  | some i =>
    obtain ⟨h1, h2, -⟩ := nafTop_some _ _ _ ht
    obtain ⟨r, e, h⟩ := varTimeLoop_deg hq _ hok (i + 1) i False ExtPt.zero (by omega) h2 zp_zero
    refine ⟨r, e, h.congr ⟨fun _ h0 => ?_, fun _ => trivial⟩⟩
    rw [bytes_zero h0] at ht
    have : nafTop (computeScalar5NAF (Vector.replicate 32 0)) 256 = none := by decide +kernel
    rw [this] at ht
    cases ht

/-! Tables -/

/-- A table of zero entries. -/
def DegT (t : Table F) : Prop := t.length = 32 ∧ ∀ row ∈ t, row.length = 8 ∧ ∀ e ∈ row, DegN e

theorem tableRow_deg {cp : ExtPt F} (h : Deg cp) : ∀ (n : ℕ) (b : ExtPt F), Small b →
    (tableRow cp n b).1.length = n ∧ (∀ e ∈ (tableRow cp n b).1, DegN e) ∧ (0 < n → Deg (tableRow cp n b).2) := by
  intro n
  induction n with
  | zero => intro b _; exact ⟨rfl, by simp [tableRow], by omega⟩
  | succ n ih =>
    intro b hb
    have hd := h.add_right hb
    obtain ⟨h1, h2, h3⟩ := ih _ hd.toSmall
    refine ⟨by simp [tableRow, h1], ?_, fun _ => ?_⟩
    · intro e he
      rcases List.mem_cons.1 he with rfl | he
      · exact hd.ofExtended
      · exact h2 e he
    · cases n with
      | zero => exact hd
      | succ n => exact h3 (by omega)

theorem tableLoop_deg : ∀ (n : ℕ) (cp : ExtPt F), Deg cp → (tableLoop n cp).length = n ∧
    ∀ row ∈ tableLoop n cp, row.length = 8 ∧ ∀ e ∈ row, DegN e := by
  intro n
  induction n with
  | zero => intro cp _; exact ⟨rfl, by simp [tableLoop]⟩
  | succ n ih =>
    intro cp h
    obtain ⟨h1, h2, h3⟩ := tableRow_deg h 8 ExtPt.zero zero_spec.small
    have h4 := double5_zp (h3 (by omega)).zp
    obtain ⟨h5, h6⟩ := ih _ (h4.1 trivial)
    refine ⟨by simp only [tableLoop, List.length_cons]; exact congrArg (· + 1) h5, ?_⟩
    intro row hr
    simp only [tableLoop] at hr
    rcases List.mem_cons.1 hr with rfl | hr
    · exact ⟨h1, h2⟩
    · exact h6 row hr

theorem Deg.compute {q : ExtPt F} (h : Deg q) : DegT (tableCompute q) := tableLoop_deg 32 q h

theorem selectLoop_zp (n : ℕ) (hn : n ≤ 8) (rest : List (NielsPt F)) :
    ∀ (i : ℕ) (t : NielsPt F), i + rest.length ≤ 8 → (∀ e ∈ rest, DegN e) →
    ZpN (n ≠ 0 ∧ n < i + 1) t →
    ZpN (n ≠ 0 ∧ n < i + rest.length + 1) (selectLoop (Int32.ofNat n) (Int32.ofNat i) rest t) := by
  induction rest with
  | nil => intro i t _ _ ht; simpa [selectLoop] using ht
  | cons e rest ih =>
    intro i t hi hr ht
    simp only [List.length_cons] at hi
    have hstep := equal30_spec ⟨i + 1, by omega⟩ ⟨n, by omega⟩
    simp only at hstep
    rw [selectLoop, show (Int32.ofNat i + 1) = Int32.ofNat (i + 1) by rw [Int32.ofNat_add]; rfl, hstep,
      nielsCondSet_spec]
    have := ih (i + 1) (if n = i + 1 then e else t) (by omega)
      (fun e' h' => hr e' (List.mem_cons_of_mem _ h')) (by
      split
      · exact ⟨fun _ => hr e List.mem_cons_self, fun hn => absurd ⟨by omega, by omega⟩ hn⟩
      · rename_i hw
        exact ⟨fun h => ht.1 (by omega), fun h => ht.2 (by omega)⟩)
    exact ⟨fun h => this.1 (by rw [List.length_cons] at h; omega),
      fun h => this.2 (by rw [List.length_cons] at h; omega)⟩

theorem selectPoint_zp {row : List (NielsPt F)} (hl : row.length = 8) (hrow : ∀ e ∈ row, DegN e) (w : Int8)
    (h1 : -8 ≤ w.toInt) (h2 : w.toInt ≤ 8) : ZpN (w.toInt ≠ 0) (selectPoint row w.toInt32) := by
  unfold selectPoint
  simp only
  rw [bAbs_spec w h1 h2, negative_spec, nielsCondSet_spec]
  have h := selectLoop_zp w.toInt.natAbs (by omega) row 0 NielsPt.zero (by omega) hrow
    ⟨fun h => by omega, fun _ => nielsZero_spec⟩
  have h' : ZpN (w.toInt ≠ 0) (selectLoop (Int32.ofNat w.toInt.natAbs) 0 row NielsPt.zero) :=
    ⟨fun h0 => h.1 (by omega), fun h0 => h.2 (by omega)⟩
  split
  · exact h'.neg
  · exact h'

theorem tableAddLoop_zp : ∀ (t : List (List (NielsPt F))) (ws : List Int8) (c : Prop) (p : ExtPt F),
    (∀ row ∈ t, row.length = 8 ∧ ∀ e ∈ row, DegN e) → t.length = ws.length →
    (∀ w ∈ ws, -8 ≤ w.toInt ∧ w.toInt ≤ 8) → Zp c p →
    Zp (c ∨ ∃ w ∈ ws, w.toInt ≠ 0) (tableAddLoop t ws p) := by
  intro t
  induction t with
  | nil =>
    intro ws c p _ hl _ hp
    cases ws with
    | nil => exact hp.congr (by simp)
    | cons => simp at hl
  | cons row t ih =>
    intro ws c p ht hl hr hp
    cases ws with
    | nil => simp at hl
    | cons w ws =>
      have h1 := ht row List.mem_cons_self
      have h2 := hr w List.mem_cons_self
      have := ih ws _ _ (fun r hr' => ht r (List.mem_cons_of_mem _ hr')) (by simpa using hl)
        (fun w' hw' => hr w' (List.mem_cons_of_mem _ hw')) (hp.addNiels (selectPoint_zp h1.1 h1.2 w h2.1 h2.2))
      rw [tableAddLoop]
      refine this.congr ?_
      simp only [List.mem_cons, exists_eq_or_imp]
      exact or_assoc

theorem window4_zero : ∀ w ∈ computeScalarWindow4 (Vector.replicate 32 0), w.toInt = 0 := by decide +kernel

/-- A window digit is nonzero iff the scalar is. -/
theorem window4_nonzero {s : Bytes 32} (hs : leVal s < 2 ^ 255) :
    ((False ∨ ∃ w ∈ odds (computeScalarWindow4 s), w.toInt ≠ 0) ∨ ∃ w ∈ evens (computeScalarWindow4 s), w.toInt ≠ 0)
      ↔ leVal s ≠ 0 := by
  obtain ⟨hv, hr, hlen⟩ := computeScalarWindow4_spec s hs
  constructor
  · intro h hz
    rw [bytes_zero hz] at h
    rcases h with (h | ⟨w, hw, h0⟩) | ⟨w, hw, h0⟩
    · exact h
    · exact h0 (window4_zero w (odds_mem _ w hw))
    · exact h0 (window4_zero w (evens_mem _ w hw))
  · intro h0
    by_contra hn
    push Not at hn
    have h1 := digitsVal_zero 256 _ hn.1.2
    have h2 := digitsVal_zero 256 _ hn.2
    rw [evens_odds_val, h1, h2] at hv
    exact h0 (by exact_mod_cast hv.symm)

theorem tableScalarMult_deg {t : Table F} (ht : DegT t) (s : Bytes 32) (hs : leVal s < 2 ^ 255) :
    Zp (leVal s ≠ 0) (tableScalarMult t s) := by
  obtain ⟨hv, hr, hlen⟩ := computeScalarWindow4_spec s hs
  obtain ⟨l1, l2⟩ := evens_odds_length _ 32 hlen
  have h1 := tableAddLoop_zp t _ _ ExtPt.zero ht.2 (by rw [ht.1, l2])
    (fun w hw => hr w (odds_mem _ w hw)) zp_zero
  have h2 := tableAddLoop_zp t _ _ _ ht.2 (by rw [ht.1, l1])
    (fun w hw => hr w (evens_mem _ w hw)) (double4_zp h1)
  exact h2.congr (window4_nonzero hs)

theorem varTimeSelectPoint_deg {row : List (NielsPt F)} (hl : row.length = 8) (hrow : ∀ e ∈ row, DegN e) (w : Int8)
    (h1 : -8 ≤ w.toInt) (h2 : w.toInt ≤ 8) (h0 : w.toInt32 ≠ 0) :
    ∃ np, varTimeSelectPoint row w.toInt32 = some np ∧ DegN np := by
  have hneg : ∀ w : Int8, -8 ≤ w.toInt → w.toInt ≤ 8 → w.toInt32 ≠ 0 →
      (w.toInt32 < 0 → (-w.toInt32 - 1).toInt.toNat < 8) ∧
      (¬ w.toInt32 < 0 → (w.toInt32 - 1).toInt.toNat < 8) := int8_forall (by decide +kernel)
  obtain ⟨ha, hb⟩ := hneg w h1 h2 h0
  unfold varTimeSelectPoint
  split
  · rename_i h
    rw [List.getElem?_eq_getElem (by rw [hl]; exact ha h)]
    exact ⟨_, rfl, (hrow _ (List.getElem_mem _)).neg⟩
  · rename_i h
    rw [List.getElem?_eq_getElem (by rw [hl]; exact hb h)]
    exact ⟨_, rfl, hrow _ (List.getElem_mem _)⟩

theorem toInt32_ne_zero : ∀ w : Int8, w.toInt32 ≠ 0 → w.toInt ≠ 0 := int8_forall (by decide +kernel)

theorem tableVarTimeLoop_zp : ∀ (t : List (List (NielsPt F))) (ws : List Int8) (c : Prop) (p : ExtPt F),
    (∀ row ∈ t, row.length = 8 ∧ ∀ e ∈ row, DegN e) → t.length = ws.length →
    (∀ w ∈ ws, -8 ≤ w.toInt ∧ w.toInt ≤ 8) → Zp c p →
    ∃ r, tableVarTimeLoop t ws p = some r ∧ Zp (c ∨ ∃ w ∈ ws, w.toInt ≠ 0) r := by
  intro t
  induction t with
  | nil =>
    intro ws c p _ hl _ hp
    cases ws with
    | nil => exact ⟨p, rfl, hp.congr (by simp)⟩
    | cons => simp at hl
  | cons row t ih =>
    intro ws c p ht hl hr hp
    cases ws with
    | nil => simp at hl
    | cons w ws =>
      have h1 := ht row List.mem_cons_self
      have h2 := hr w List.mem_cons_self
      have ih' := fun c p => ih ws c p (fun r hr' => ht r (List.mem_cons_of_mem _ hr')) (by simpa using hl)
        (fun w' hw' => hr w' (List.mem_cons_of_mem _ hw'))
      rw [tableVarTimeLoop]
      by_cases hw : w.toInt32 = 0
      · rw [if_pos hw]
        obtain ⟨r, e, h⟩ := ih' c p hp
        refine ⟨r, e, h.congr ?_⟩
        simp [toInt32_eq_zero w hw]
      · rw [if_neg hw]
        obtain ⟨np, e1, h3⟩ := varTimeSelectPoint_deg h1.1 h1.2 w h2.1 h2.2 hw
        rw [e1]
        simp only [Option.bind_eq_bind, Option.bind_some]
        obtain ⟨r, e, h⟩ := ih' _ _ (hp.addNiels (c' := True) ⟨fun _ => h3, fun h => absurd trivial h⟩)
        refine ⟨r, e, h.congr ?_⟩
        simp [toInt32_ne_zero w hw]

theorem tableVarTimeScalarMult_deg {t : Table F} (ht : DegT t) (s : Bytes 32) (hs : leVal s < 2 ^ 255) :
    ∃ r, tableVarTimeScalarMult t s = some r ∧ Zp (leVal s ≠ 0) r := by
  obtain ⟨hv, hr, hlen⟩ := computeScalarWindow4_spec s hs
  obtain ⟨l1, l2⟩ := evens_odds_length _ 32 hlen
  obtain ⟨r1, e1, h1⟩ := tableVarTimeLoop_zp t _ _ ExtPt.zero ht.2 (by rw [ht.1, l2])
    (fun w hw => hr w (odds_mem _ w hw)) zp_zero
  obtain ⟨r2, e2, h2⟩ := tableVarTimeLoop_zp t _ _ _ ht.2 (by rw [ht.1, l1])
    (fun w hw => hr w (evens_mem _ w hw)) (double4_zp h1)
  refine ⟨r2, ?_, h2.congr (window4_nonzero hs)⟩
  unfold tableVarTimeScalarMult
  simp only [e1, Option.bind_eq_bind, Option.bind_some]
  exact e2

end Ristretto.Proofs
