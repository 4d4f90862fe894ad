import Verif.Spec.Edwards

/-!
# Extended coordinates

`Proj P X Y Z T`: `(X:Y:Z:T)` are extended coordinates of the curve point `P`.
-/

namespace Ristretto
set_option autoImplicit false

/-- Extended coordinates: `x = X/Z`, `y = Y/Z`, `XY = ZT`. -/
structure Proj (P : EPoint) (X Y Z T : Fp) : Prop where
  z : Z ≠ 0
  x : X = P.x * Z
  y : Y = P.y * Z
  t : T = P.x * P.y * Z

/-- Completed coordinates: `x = X/Z`, `y = Y/T`. -/
structure Compl (P : EPoint) (X Y Z T : Fp) : Prop where
  z : Z ≠ 0
  t : T ≠ 0
  x : X = P.x * Z
  y : Y = P.y * T

theorem Proj.inj {P Q : EPoint} {X Y Z T : Fp} (h : Proj P X Y Z T) (h' : Proj Q X Y Z T) : P = Q := by
  apply EPoint.ext
  · exact mul_right_cancel₀ h.z (h.x.symm.trans h'.x)
  · exact mul_right_cancel₀ h.z (h.y.symm.trans h'.y)

theorem Compl.proj {P : EPoint} {X Y Z T : Fp} (h : Compl P X Y Z T) :
    Proj P (X * T) (Y * Z) (Z * T) (X * Y) where
  z := mul_ne_zero h.z h.t
  x := by rw [h.x]; ring
  y := by rw [h.y]; ring
  t := by rw [h.x, h.y]; ring

/-- Unified addition. -/
theorem Proj.add {P Q : EPoint} {X1 Y1 Z1 T1 X2 Y2 Z2 T2 : Fp} (h1 : Proj P X1 Y1 Z1 T1)
    (h2 : Proj Q X2 Y2 Z2 T2) :
    Compl (P + Q) ((X1 + Y1) * (X2 + Y2) - (Y1 - X1) * (Y2 - X2))
      ((X1 + Y1) * (X2 + Y2) + (Y1 - X1) * (Y2 - X2))
      (Z1 * Z2 + Z1 * Z2 + T1 * T2 * (2 * d)) (Z1 * Z2 + Z1 * Z2 - T1 * T2 * (2 * d)) := by
  have hp := EPoint.one_add_k_ne P.on Q.on
  have hm := EPoint.one_sub_k_ne P.on Q.on
  have hX := EPoint.addX_mul P.on Q.on
  have hY := EPoint.addY_mul P.on Q.on
  have hz := mul_ne_zero (mul_ne_zero two_ne_zero' h1.z) h2.z
  have eZ : Z1 * Z2 + Z1 * Z2 + T1 * T2 * (2 * d) =
      2 * Z1 * Z2 * (1 + d * P.x * Q.x * P.y * Q.y) := by rw [h1.t, h2.t]; ring
  have eT : Z1 * Z2 + Z1 * Z2 - T1 * T2 * (2 * d) =
      2 * Z1 * Z2 * (1 - d * P.x * Q.x * P.y * Q.y) := by rw [h1.t, h2.t]; ring
  refine ⟨by rw [eZ]; exact mul_ne_zero hz hp, by rw [eT]; exact mul_ne_zero hz hm, ?_, ?_⟩
  · rw [eZ, EPoint.add_x, h1.x, h2.x, h1.y, h2.y]
    linear_combination (-2 * Z1 * Z2) * hX
  · rw [eT, EPoint.add_y, h1.x, h2.x, h1.y, h2.y]
    linear_combination (-2 * Z1 * Z2) * hY

theorem Proj.neg {P : EPoint} {X Y Z T : Fp} (h : Proj P X Y Z T) : Proj (-P) (-X) Y Z (-T) where
  z := h.z
  x := by rw [h.x, EPoint.neg_x]; ring
  y := h.y
  t := by rw [h.t, EPoint.neg_x, EPoint.neg_y]; ring

/-- Doubling, without `T`. -/
theorem Proj.double {P : EPoint} {X Y Z : Fp} (hz : Z ≠ 0) (hx : X = P.x * Z) (hy : Y = P.y * Z) :
    Compl (P + P) ((X + Y) * (X + Y) - (Y * Y + X * X)) (Y * Y + X * X) (Y * Y - X * X)
      (2 * (Z * Z) - (Y * Y - X * X)) := by
  have hp := EPoint.one_add_k_ne P.on P.on
  have hm := EPoint.one_sub_k_ne P.on P.on
  have hX := EPoint.addX_mul P.on P.on
  have hY := EPoint.addY_mul P.on P.on
  have hz2 := mul_ne_zero hz hz
  have on := P.on
  unfold OnCurve at on
  have eZ : Y * Y - X * X = Z * Z * (1 + d * P.x * P.x * P.y * P.y) := by
    rw [hx, hy]; linear_combination (Z * Z) * on
  have eT : 2 * (Z * Z) - (Y * Y - X * X) = Z * Z * (1 - d * P.x * P.x * P.y * P.y) := by
    rw [eZ]; ring
  refine ⟨by rw [eZ]; exact mul_ne_zero hz2 hp, by rw [eT]; exact mul_ne_zero hz2 hm, ?_, ?_⟩
  · rw [eZ, EPoint.add_x, hx, hy]
    linear_combination (-Z * Z) * hX
  · rw [eT, EPoint.add_y, hx, hy]
    linear_combination (-Z * Z) * hY

/-- Negating both factors of a completed point's coordinates does not change the point. -/
theorem Compl.scale {P : EPoint} {X Y Z T c e : Fp} (h : Compl P X Y Z T) (hc : c ≠ 0) (he : e ≠ 0) :
    Compl P (c * X) (e * Y) (c * Z) (e * T) where
  z := mul_ne_zero hc h.z
  t := mul_ne_zero he h.t
  x := by rw [h.x]; ring
  y := by rw [h.y]; ring

/-! Computing with points on natural numbers, for use in the kernel. -/

/-- Extended coordinates as natural numbers. -/
structure NP where
  X : ℕ
  Y : ℕ
  Z : ℕ
  T : ℕ
deriving DecidableEq

namespace NP

/-- `n` represents `P`. -/
def Rep (n : NP) (P : EPoint) : Prop := Proj P n.X n.Y n.Z n.T ∧ n.X < p ∧ n.Y < p ∧ n.Z < p ∧ n.T < p

def add (a b : NP) : NP :=
  let A := (a.Y + (p - a.X)) * (b.Y + (p - b.X)) % p
  let B := (a.X + a.Y) * (b.X + b.Y) % p
  let C := a.T * b.T % p * (2 * dNat) % p
  let D := 2 * (a.Z * b.Z) % p
  let E := B + (p - A)
  let F := D + (p - C)
  let G := D + C
  let H := B + A
  ⟨E * F % p, H * G % p, G * F % p, E * H % p⟩

theorem p_pos : 0 < p := by norm_num [p]

theorem cmod (a : ℕ) : ((a % p : ℕ) : Fp) = a := ZMod.natCast_mod a p

theorem csub {a : ℕ} (h : a ≤ p) : ((p - a : ℕ) : Fp) = -a := by
  rw [Nat.cast_sub h]; simp

theorem add_rep {a b : NP} {P Q : EPoint} (ha : a.Rep P) (hb : b.Rep Q) : (add a b).Rep (P + Q) := by
  obtain ⟨pa, ax, ay, az, at'⟩ := ha
  obtain ⟨pb, bx, bY, bz, bt⟩ := hb
  have h := (pa.add pb).proj
  refine ⟨?_, Nat.mod_lt _ p_pos, Nat.mod_lt _ p_pos, Nat.mod_lt _ p_pos, Nat.mod_lt _ p_pos⟩
  have hl : ∀ x : ℕ, x % p ≤ p := fun x => (Nat.mod_lt _ p_pos).le
  convert h using 1 <;>
  · simp only [add, cmod, Nat.cast_mul, Nat.cast_add, csub (hl _), csub ax.le, csub bx.le, ← d_eq,
      Nat.cast_ofNat]
    ring

/-- Double-and-add from the least significant bit. -/
def mulAux : ℕ → NP → ℕ → NP → NP
  | 0, _, _, acc => acc
  | f + 1, a, e, acc =>
    if e = 0 then acc
    else mulAux f (add a a) (e / 2) (if e % 2 = 1 then add acc a else acc)

def zero : NP := ⟨0, 1, 1, 0⟩

theorem zero_rep : zero.Rep 0 := by
  refine ⟨⟨?_, ?_, ?_, ?_⟩, by norm_num [zero, p], by norm_num [zero, p], by norm_num [zero, p],
    by norm_num [zero, p]⟩ <;> simp [zero]

def mul (e : ℕ) (a : NP) : NP := mulAux 260 a e zero

theorem mulAux_rep : ∀ (f : ℕ) (a : NP) (e : ℕ) (acc : NP) (P Q : EPoint), e < 2 ^ f → a.Rep P →
    acc.Rep Q → (mulAux f a e acc).Rep (Q + e • P) := by
  intro f
  induction f with
  | zero =>
    intro a e acc P Q he ha hq
    have : e = 0 := by simpa using he
    subst this
    simpa [mulAux] using hq
  | succ f ih =>
    intro a e acc P Q he ha hq
    unfold mulAux
    split
    · rename_i h0; subst h0; simpa using hq
    · have e2 : e = 2 * (e / 2) + e % 2 := by omega
      have hd : (add a a).Rep (2 • P) := by rw [two_nsmul]; exact add_rep ha ha
      have hlt : e / 2 < 2 ^ f := by omega
      rcases Nat.mod_two_eq_zero_or_one e with h1 | h1
      · have := ih (add a a) (e / 2) acc (2 • P) Q hlt hd hq
        rw [← mul_nsmul', show e / 2 * 2 = e by omega] at this
        simpa [h1] using this
      · have := ih (add a a) (e / 2) (add acc a) (2 • P) (Q + P) hlt hd (add_rep hq ha)
        rw [← mul_nsmul', add_assoc, ← succ_nsmul', show e / 2 * 2 + 1 = e by omega] at this
        simpa [h1] using this

theorem mul_rep {a : NP} {P : EPoint} (ha : a.Rep P) (e : ℕ) (he : e < 2 ^ 260) :
    (mul e a).Rep (e • P) := by
  have := mulAux_rep 260 a e zero P 0 he ha zero_rep
  simpa [mul] using this

/-- Check that two representations denote the same point. -/
def eqv (a b : NP) : Bool := a.X * b.Z % p == b.X * a.Z % p && a.Y * b.Z % p == b.Y * a.Z % p

theorem eqv_iff {a b : NP} {P Q : EPoint} (ha : a.Rep P) (hb : b.Rep Q) :
    eqv a b = true ↔ P = Q := by
  obtain ⟨pa, -⟩ := ha
  obtain ⟨pb, -⟩ := hb
  have hz := mul_ne_zero pa.z pb.z
  simp only [eqv, Bool.and_eq_true, beq_iff_eq]
  have e1 : ∀ m n : ℕ, m % p = n % p ↔ (m : Fp) = (n : Fp) := fun m n =>
    (ZMod.natCast_eq_natCast_iff' m n p).symm
  rw [e1, e1]
  simp only [Nat.cast_mul]
  rw [pa.x, pb.x, pa.y, pb.y]
  constructor
  · rintro ⟨h1, h2⟩
    apply EPoint.ext
    · apply mul_right_cancel₀ hz; linear_combination h1
    · apply mul_right_cancel₀ hz; linear_combination h2
  · rintro rfl
    constructor <;> ring

/-- An affine point from natural number coordinates. -/
theorem rep_affine (P : EPoint) (x y : ℕ) (hx : P.x = x) (hy : P.y = y) (hx' : x < p) (hy' : y < p) :
    Rep ⟨x, y, 1, x * y % p⟩ P := by
  refine ⟨⟨?_, ?_, ?_, ?_⟩, hx', hy', by norm_num [p], Nat.mod_lt _ p_pos⟩
  · simp
  · simp [hx]
  · simp [hy]
  · simp only [cmod, hx, hy]; push_cast; ring

/-- Curve equation on natural numbers. -/
theorem onCurve_of_mod {x y : ℕ} (h : (y * y) % p = (1 + x * x + dNat * (x * x) * (y * y)) % p) :
    OnCurve (x : Fp) (y : Fp) := by
  have := natCast_eq_of_mod h
  unfold OnCurve
  rw [d_eq]
  push_cast at this
  linear_combination this

end NP
end Ristretto
