import Verif.Proofs.CrefWindow
import Verif.Proofs.CrefSim25
import Verif.Proofs.BaseTable

/-!
# Multiplication of the base point in the C reference implementation

Every entry of the table is compared, in the kernel, with the multiple of the base point it has to be.
-/

namespace Ristretto.Proofs.Cref
open Model FieldOps Model.Cref
set_option autoImplicit false

section
variable {F : Type} [O : CrefOps F] [L : CSim F Fp]

/-- `q` represents the point `P` of the curve. -/
def IsP (q : ExtPt F) (P : EPoint) : Prop := ∃ r : ExtPt Fp, CP q r ∧ IsPt r P

/-- `e` are the coordinates of `P`. -/
structure IsAff (e : AffPt F) (P : EPoint) : Prop where
  x : R 1 e.x P.x
  y : R 1 e.y P.y

theorem affine_isPt (P : EPoint) : IsPt (⟨P.x, P.y, 1, P.x * P.y⟩ : ExtPt Fp) P where
  bX := trivial
  bY := trivial
  bZ := trivial
  bT := trivial
  proj := by
    refine ⟨?_, ?_, ?_, ?_⟩
    · show (1 : Fp) ≠ 0
      exact one_ne_zero
    · exact (mul_one P.x).symm
    · exact (mul_one P.y).symm
    · exact (mul_one (P.x * P.y)).symm

theorem aff_isP {e : AffPt F} {Q : EPoint} (h : IsAff e Q) :
    IsP ⟨e.x, e.y, CrefOps.one, CrefOps.mul e.x e.y⟩ Q :=
  ⟨_, ⟨h.x.mono, h.y, rOne, h.x.mul h.y⟩, affine_isPt Q⟩

theorem mix_eq (r : ExtPt Fp) (x y : Fp) :
    let a := FieldOps.mul (FieldOps.sub r.Y r.X) (FieldOps.sub y x)
    let b := FieldOps.mul (FieldOps.add r.Y r.X) (FieldOps.add y x)
    let c := FieldOps.mul (FieldOps.mul r.T (FieldOps.mul x y)) fe2D
    let d := FieldOps.add r.Z r.Z
    ExtPt.add r ⟨x, y, 1, x * y⟩ =
      ⟨FieldOps.mul (FieldOps.sub b a) (FieldOps.sub d c), FieldOps.mul (FieldOps.add b a) (FieldOps.add d c),
       FieldOps.mul (FieldOps.add d c) (FieldOps.sub d c), FieldOps.mul (FieldOps.sub b a) (FieldOps.add b a)⟩ := by
  have e : ∀ k : Fp, (⟨((r.X + r.Y) * (x + y) - (r.Y - r.X) * (y - x)) * ((r.Z * 1 + r.Z * 1) - r.T * (x * y) * k),
      ((r.X + r.Y) * (x + y) + (r.Y - r.X) * (y - x)) * ((r.Z * 1 + r.Z * 1) + r.T * (x * y) * k),
      ((r.Z * 1 + r.Z * 1) + r.T * (x * y) * k) * ((r.Z * 1 + r.Z * 1) - r.T * (x * y) * k),
      ((r.X + r.Y) * (x + y) - (r.Y - r.X) * (y - x)) * ((r.X + r.Y) * (x + y) + (r.Y - r.X) * (y - x))⟩ : ExtPt Fp) =
    ⟨((r.Y + r.X) * (y + x) - (r.Y - r.X) * (y - x)) * ((r.Z + r.Z) - r.T * (x * y) * k),
      ((r.Y + r.X) * (y + x) + (r.Y - r.X) * (y - x)) * ((r.Z + r.Z) + r.T * (x * y) * k),
      ((r.Z + r.Z) + r.T * (x * y) * k) * ((r.Z + r.Z) - r.T * (x * y) * k),
      ((r.Y + r.X) * (y + x) - (r.Y - r.X) * (y - x)) * ((r.Y + r.X) * (y + x) + (r.Y - r.X) * (y - x))⟩ := by
    intro k
    rw [mul_one, add_comm r.X, add_comm x]
  exact e (fe2D : Fp)

theorem mixadd2_spec {q : ExtPt F} {e : AffPt F} {P Q : EPoint} (hq : IsP q P) (he : IsAff e Q) :
    IsP (mixadd2 q e) (P + Q) := by
  obtain ⟨r, h, hr⟩ := hq
  refine ⟨_, ?_, add_spec hr (affine_isPt Q)⟩
  have qt := he.x.mul he.y
  have a := (h.Y.sub h.X).mul (he.y.sub he.x)
  have b := (h.Y.add h.X).mul (he.y.add he.x)
  have E := b.sub a
  have H := b.add a
  have c := (h.T.mul qt).mul r2D
  have d := h.Z.add h.Z
  have f := d.sub c
  have g := d.add c
  rw [mix_eq]
  exact ⟨(E.mul f).mono, H.mul g, g.mul f, E.mul H⟩

end

/-! ## The table -/

/-- Compare an entry with a point. -/
def checkAff (e : AffPt Fe25) (n : NP) : Bool :=
  decide (Limbs25 (1 * 2 ^ 25) (1 * (2 ^ 24 + 2 ^ 16)) e.x) && decide (Limbs25 (1 * 2 ^ 25) (1 * (2 ^ 24 + 2 ^ 16)) e.y) &&
  feInt25 e.x * n.Z % p == (n.X : ℤ) % p && feInt25 e.y * n.Z % p == (n.Y : ℤ) % p

theorem checkAff_spec {e : AffPt Fe25} {n : NP} {P : EPoint} (hn : n.Rep P) (h : checkAff e n = true) : IsAff e P := by
  simp only [checkAff, Bool.and_eq_true, beq_iff_eq, decide_eq_true_eq] at h
  obtain ⟨⟨⟨b1, b2⟩, h1⟩, h2⟩ := h
  obtain ⟨hp, -⟩ := hn
  have key : ∀ {a : Fe25} {v : ℕ} {w : Fp}, (v : Fp) = w * n.Z → feInt25 a * n.Z % p = (v : ℤ) % p → feVal25 a = w := by
    intro a v w hv h
    have h := (ZMod.intCast_eq_intCast_iff _ _ _).2 h
    push_cast at h
    rw [hv] at h
    exact mul_right_cancel₀ hp.z h
  exact ⟨⟨b1, key hp.x h1⟩, ⟨b2, key hp.y h2⟩⟩

/-- Compare entries with `n, n + a, n + 2a, ...`. -/
def checkAffs (a : NP) : NP → List (AffPt Fe25) → Bool
  | _, [] => true
  | n, e :: es => checkAff e n && checkAffs a (n.add a) es

theorem checkAffs_spec {a : NP} {P : EPoint} (ha : a.Rep P) : ∀ (row : List (AffPt Fe25)) (n : NP)
    (m : ℕ), n.Rep (m • P) → checkAffs a n row = true →
    ∀ (k : ℕ) (e : AffPt Fe25), row[k]? = some e → IsAff e ((m + k) • P) := by
  intro row
  induction row with
  | nil => intro n m _ _ k e h; simp at h
  | cons x xs ih =>
    intro n m hn h k e hk
    simp only [checkAffs, Bool.and_eq_true] at h
    cases k with
    | zero =>
      simp only [List.getElem?_cons_zero, Option.some.injEq] at hk
      subst hk
      exact checkAff_spec hn h.1
    | succ k =>
      rw [List.getElem?_cons_succ] at hk
      have := ih (n.add a) (m + 1) (by rw [succ_nsmul]; exact NP.add_rep hn ha) h.2 k e hk
      rwa [show m + 1 + k = m + (k + 1) by ring] at this

/-- Double three times. -/
def dbl3 (a : NP) : NP :=
  let a := a.add a; let a := a.add a; a.add a

theorem dbl3_rep {a : NP} {P : EPoint} (h : a.Rep P) : (dbl3 a).Rep (8 • P) := by
  have h0 : a.Rep (1 • P) := by rw [one_nsmul]; exact h
  exact dbl_rep (dbl_rep (dbl_rep h0))

/-- Compare `k` rows of five entries. -/
def checkRows : ℕ → List (AffPt Fe25) → NP → Bool
  | 0, _, _ => true
  | k + 1, e0 :: e1 :: e2 :: e3 :: e4 :: t, a => checkAffs a NP.zero [e0, e1, e2, e3, e4] && checkRows k t (dbl3 a)
  | _, _, _ => false

/-- Entry `5 pos + j` is `j 8^pos P`. -/
def IsMultiples {F : Type} [CrefOps F] [CSim F Fp] (k : ℕ) (t : List (AffPt F)) (P : EPoint) : Prop :=
  ∀ pos < k, ∀ j < 5, ∃ e, t[5 * pos + j]? = some e ∧ IsAff e ((j * 8 ^ pos) • P)

theorem npZero_rep : NP.zero.Rep 0 := by
  have := NP.rep_affine (0 : EPoint) 0 1 (by rfl) (by rfl) (by decide +kernel) (by decide +kernel)
  exact this

theorem checkRows_spec : ∀ (k : ℕ) (t : List (AffPt Fe25)) (a : NP) (P : EPoint), a.Rep P → checkRows k t a = true →
    IsMultiples k t P := by
  intro k
  induction k with
  | zero => intro t a P _ _ pos h; exact absurd h (by omega)
  | succ k ih =>
    intro t a P ha h pos hpos j hj
    obtain ⟨e0, e1, e2, e3, e4, t', rfl⟩ : ∃ e0 e1 e2 e3 e4 t', t = e0 :: e1 :: e2 :: e3 :: e4 :: t' := by
      match t, h with
      | e0 :: e1 :: e2 :: e3 :: e4 :: t', _ => exact ⟨_, _, _, _, _, _, rfl⟩
    simp only [checkRows, Bool.and_eq_true] at h
    cases pos with
    | zero =>
      obtain ⟨e, he⟩ : ∃ e, [e0, e1, e2, e3, e4][j]? = some e := by
        exact ⟨_, List.getElem?_eq_getElem (by simpa using hj)⟩
      have := checkAffs_spec ha _ NP.zero 0 (by simpa using npZero_rep) h.1 j e he
      refine ⟨e, ?_, by rwa [zero_add, ← mul_one j, ← pow_zero 8] at this⟩
      rw [show e0 :: e1 :: e2 :: e3 :: e4 :: t' = [e0, e1, e2, e3, e4] ++ t' from rfl, mul_zero, zero_add,
        List.getElem?_append_left (by simpa using hj)]
      exact he
    | succ pos =>
      obtain ⟨e, h1, h2⟩ := ih _ _ _ (dbl3_rep ha) h.2 pos (by omega) j hj
      refine ⟨e, ?_, ?_⟩
      · rw [show 5 * (pos + 1) + j = 5 * pos + j + 1 + 1 + 1 + 1 + 1 by ring]
        simpa only [List.getElem?_cons_succ] using h1
      · rw [← mul_nsmul'] at h2
        rwa [show j * 8 ^ (pos + 1) = j * 8 ^ pos * 8 by ring]

theorem checkRows_base : checkRows 85 baseMultiples stdBaseN = true := by decide +kernel

/-- The 425 entries are the right multiples of the base point of Ed25519. -/
theorem baseMultiples_spec : IsMultiples 85 baseMultiples stdBase := checkRows_spec _ _ _ _ stdBase_rep checkRows_base

/-! ## Selection -/

theorem sel_1 : ∀ w : Int8, (groupStaticEqual w 1 ||| groupStaticEqual w (-1)) = if w.toInt.natAbs = 1 then 1 else 0 :=
  int8_forall (by decide +kernel)
theorem sel_2 : ∀ w : Int8, (groupStaticEqual w 2 ||| groupStaticEqual w (-2)) = if w.toInt.natAbs = 2 then 1 else 0 :=
  int8_forall (by decide +kernel)
theorem sel_3 : ∀ w : Int8, (groupStaticEqual w 3 ||| groupStaticEqual w (-3)) = if w.toInt.natAbs = 3 then 1 else 0 :=
  int8_forall (by decide +kernel)
theorem sel_m4 : ∀ w : Int8, groupStaticEqual w (-4) = if w.toInt = -4 then 1 else 0 := int8_forall (by decide +kernel)

section
variable {F : Type} [O : CrefOps F] [L : CSim F Fp]

theorem IsAff.cmov {a b : AffPt F} {P Q : EPoint} (ha : IsAff a P) (hb : IsAff b Q) (c : Prop) [Decidable c] :
    IsAff (cmovAff a b (if c then 1 else 0)) (if c then Q else P) := by
  unfold cmovAff
  split
  · rw [L.cmov1 ha.x hb.x, L.cmov1 ha.y hb.y]; exact hb
  · rw [L.cmov0 ha.x hb.x, L.cmov0 ha.y hb.y]; exact ha

theorem chooseTAff_spec {t : List (AffPt F)} {k : ℕ} {P : EPoint} (ht : IsMultiples k t P) {pos : ℕ} (hpos : pos < k)
    (w : Int8) (h1 : -4 ≤ w.toInt) (h2 : w.toInt ≤ 3) : IsAff (chooseTAff t pos w) ((w.toInt * 8 ^ pos) • P) := by
  have ent : ∀ j < 5, IsAff (t.getD (5 * pos + j) ⟨CrefOps.zero, CrefOps.zero⟩) ((j * 8 ^ pos) • P) := by
    intro j hj
    obtain ⟨e, he, ha⟩ := ht pos hpos j hj
    rw [List.getD_eq_getElem?_getD, he]
    exact ha
  unfold chooseTAff
  simp only
  rw [sel_1, sel_2, sel_3, sel_m4]
  have hA := ((((ent 0 (by norm_num)).cmov (ent 1 (by norm_num)) (w.toInt.natAbs = 1)).cmov (ent 2 (by norm_num))
    (w.toInt.natAbs = 2)).cmov (ent 3 (by norm_num)) (w.toInt.natAbs = 3)).cmov (ent 4 (by norm_num)) (w.toInt = -4)
  generalize cmovAff (F := F) _ _ (if w.toInt = -4 then 1 else 0) = T at *
  have e : (if w.toInt = -4 then ((4 : ℕ) * 8 ^ pos) • P else if w.toInt.natAbs = 3 then ((3 : ℕ) * 8 ^ pos) • P
      else if w.toInt.natAbs = 2 then ((2 : ℕ) * 8 ^ pos) • P else if w.toInt.natAbs = 1 then ((1 : ℕ) * 8 ^ pos) • P
      else ((0 : ℕ) * 8 ^ pos) • P) = (w.toInt.natAbs * 8 ^ pos) • P := by
    split
    · rename_i h; rw [h]; rfl
    · split
      · rename_i h; rw [h]
      · split
        · rename_i h; rw [h]
        · split
          · rename_i h; rw [h]
          · have : w.toInt.natAbs = 0 := by omega
            rw [this]
  rw [e] at hA
  rw [negative_eq]
  by_cases hn : w.toInt < 0
  · have e : (w.toInt * 8 ^ pos) • P = -((w.toInt.natAbs * 8 ^ pos) • P) := by
      rw [← natCast_zsmul, ← neg_zsmul]
      congr 1
      push_cast
      rw [abs_of_neg hn]; ring
    rw [if_pos hn, L.cmov1 hA.x hA.x.neg, e]
    exact ⟨hA.x.neg, hA.y⟩
  · have e : (w.toInt * 8 ^ pos) • P = ((w.toInt.natAbs * 8 ^ pos) • P) := by
      rw [← natCast_zsmul]
      congr 1
      push_cast
      rw [abs_of_nonneg (by omega)]
    rw [if_neg hn, L.cmov0 hA.x hA.x.neg, e]
    exact ⟨hA.x, hA.y⟩

omit L in
theorem baseLoop_cons (t : List (AffPt F)) (i : ℕ) (w : Int8) (ws : List Int8) (r : ExtPt F) :
    baseLoop t i (w :: ws) r = baseLoop t (i + 1) ws (mixadd2 r (chooseTAff t i w)) := by
  rw [baseLoop]

theorem baseLoop_spec {t : List (AffPt F)} {k : ℕ} {P : EPoint} (ht : IsMultiples k t P) (ws : List Int8) :
    ∀ (i : ℕ) (r : ExtPt F) (Q : EPoint), i + ws.length ≤ k → (∀ w ∈ ws, -4 ≤ w.toInt ∧ w.toInt ≤ 3) → IsP r Q →
    IsP (baseLoop t i ws r) (Q + (8 ^ i * digitsVal 8 ws) • P) := by
  induction ws with
  | nil => intro i r Q _ _ h; simpa [baseLoop, digitsVal] using h
  | cons w ws ih =>
    intro i r Q hi hw h
    simp only [List.length_cons] at hi
    obtain ⟨h1, h2⟩ := hw w (by simp)
    have := ih (i + 1) _ _ (by omega) (fun w' h' => hw w' (by simp [h']))
      (mixadd2_spec h (chooseTAff_spec ht (pos := i) (by omega) w h1 h2))
    have e : (8 : ℤ) ^ i * digitsVal 8 (w :: ws) = w.toInt * 8 ^ i + 8 ^ (i + 1) * digitsVal 8 ws := by
      simp only [digitsVal]; ring
    rw [e, add_zsmul, ← add_assoc, baseLoop_cons]
    exact this

theorem scalarMultBaseWith_spec {t : List (AffPt F)} {P : EPoint} (ht : IsMultiples 85 t P) (s : Bytes 32)
    (h : leVal s < 3 * 2 ^ 252) : IsP (scalarMultBaseWith t (ofBytes s)) (leVal s • P) := by
  obtain ⟨hv, hl, hr⟩ := window3_spec s h
  unfold scalarMultBaseWith
  simp only
  generalize window3 (ofBytes s) = W at *
  cases W with
  | nil => simp at hl
  | cons w ws =>
    simp only [List.headD_cons, List.tail_cons]
    obtain ⟨h1, h2⟩ := hr w (by simp)
    have h0 := chooseTAff_spec ht (pos := 0) (by norm_num) w h1 h2
    rw [pow_zero, mul_one] at h0
    have hq := aff_isP h0
    have := baseLoop_spec ht ws 1 _ _ (by simp at hl; omega) (fun w' h' => hr w' (by simp [h'])) hq
    have e : digitsVal 8 (w :: ws) = w.toInt + 8 ^ 1 * digitsVal 8 ws := by rw [pow_one]; rfl
    rw [← natCast_zsmul, ← hv, e, add_zsmul]
    exact this

end

theorem scalarMultBase_spec (s : Bytes 32) (h : leVal s < 3 * 2 ^ 252) :
    IsP (geScalarMultBase (ofBytes s)) (leVal s • stdBase) := scalarMultBaseWith_spec baseMultiples_spec s h

end Ristretto.Proofs.Cref
