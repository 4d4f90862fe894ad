import Verif.Model.Field51
import Verif.Spec.Prime
import Verif.Proofs.Word
import Mathlib.Tactic.LinearCombination

/-! Correctness of the radix-2^51 field arithmetic. -/

namespace Ristretto.Proofs
open Model Model.Fe51
set_option autoImplicit false

theorem p_cast : ((2 : ZMod p) ^ 255) = 19 := by
  have h : ((2 ^ 255 : ℕ) : ZMod p) = ((p + 19 : ℕ) : ZMod p) := by norm_num [p]
  rw [Nat.cast_add, ZMod.natCast_self, zero_add] at h
  exact_mod_cast h

namespace Fe51

/-- The number the five limbs stand for. -/
def nat (a : Fe51) : ℕ :=
  a.l0.toNat + 2 ^ 51 * a.l1.toNat + 2 ^ 102 * a.l2.toNat + 2 ^ 153 * a.l3.toNat +
    2 ^ 204 * a.l4.toNat

/-- The field element the five limbs stand for. -/
def eval (a : Fe51) : ZMod p := (nat a : ZMod p)

/-- Every limb is at most `B`. -/
def Bd (B : ℕ) (a : Fe51) : Prop :=
  a.l0.toNat ≤ B ∧ a.l1.toNat ≤ B ∧ a.l2.toNat ≤ B ∧ a.l3.toNat ≤ B ∧ a.l4.toNat ≤ B

theorem Bd.mono {B C : ℕ} {a : Fe51} (h : Bd B a) (hBC : B ≤ C) : Bd C a :=
  ⟨h.1.trans hBC, h.2.1.trans hBC, h.2.2.1.trans hBC, h.2.2.2.1.trans hBC, h.2.2.2.2.trans hBC⟩

instance (B : ℕ) (a : Fe51) : Decidable (Bd B a) := by unfold Bd; infer_instance

/-- One "unit" of limb size: every multiplication returns limbs of at most this size. -/
def U : ℕ := 2 ^ 51 + 2 ^ 18

/-- The common tail of `mul`, `square`, `doubledSquare`. -/
def finish (c0 c1 c2 c3 c4 : UInt64 × UInt64) : Fe51 :=
  let c1 := carryAcc c0 c1
  let c0l := c0.2 &&& 0x7ffffffffffff
  let c2 := carryAcc c1 c2
  let c1l := c1.2 &&& 0x7ffffffffffff
  let c3 := carryAcc c2 c3
  let c2l := c2.2 &&& 0x7ffffffffffff
  let c4 := carryAcc c3 c4
  let c3l := c3.2 &&& 0x7ffffffffffff
  let carry := (c4.2 >>> 51) ||| (c4.1 <<< 13)
  let c4l := c4.2 &&& 0x7ffffffffffff
  let c0l := c0l + carry * 19
  let c1l := c1l + (c0l >>> 51)
  let c0l := c0l &&& 0x7ffffffffffff
  ⟨c0l, c1l, c2l, c3l, c4l⟩

theorem finish_spec (c0 c1 c2 c3 c4 : UInt64 × UInt64)
    (h0 : v128 c0 < 2 ^ 115 - 2 ^ 64) (h1 : v128 c1 < 2 ^ 115 - 2 ^ 64)
    (h2 : v128 c2 < 2 ^ 115 - 2 ^ 64) (h3 : v128 c3 < 2 ^ 115 - 2 ^ 64)
    (h4 : v128 c4 < 6 * 2 ^ 108) :
    Bd U (finish c0 c1 c2 c3 c4) ∧
    ∃ q, nat (finish c0 c1 c2 c3 c4) + q * 2 ^ 255 = v128 c0 + 2 ^ 51 * v128 c1 +
      2 ^ 102 * v128 c2 + 2 ^ 153 * v128 c3 + 2 ^ 204 * v128 c4 + 19 * q := by
  have e1 := carryAcc_val c0 c1 (by omega) (by omega)
  have e2 := carryAcc_val (carryAcc c0 c1) c2 (by omega) (by omega)
  have e3 := carryAcc_val (carryAcc (carryAcc c0 c1) c2) c3 (by omega) (by omega)
  have e4 := carryAcc_val (carryAcc (carryAcc (carryAcc c0 c1) c2) c3) c4 (by omega) (by omega)
  simp only [finish, Bd, nat]
  generalize carryAcc c0 c1 = d1 at *
  generalize carryAcc d1 c2 = d2 at *
  generalize carryAcc d2 c3 = d3 at *
  generalize carryAcc d3 c4 = d4 at *
  have hd4 : v128 d4 < 6 * 2 ^ 108 + 2 ^ 64 := by omega
  have hcar : v128 d4 / 2 ^ 51 < 6 * 2 ^ 57 + 2 ^ 13 := by omega
  have es := shift51 d4 (by omega)
  have em : (((d4.2 >>> 51) ||| (d4.1 <<< 13)) * 19).toNat = v128 d4 / 2 ^ 51 * 19 := by
    rw [toNat_mul_of_lt, es]
    · rfl
    · rw [es]
      have : (19 : UInt64).toNat = 19 := rfl
      rw [this]; omega
  have l0 := low51 c0
  have l1 := low51 d1
  have l2 := low51 d2
  have l3 := low51 d3
  have l4 := low51 d4
  have ea : ((c0.2 &&& (0x7ffffffffffff : UInt64)) + ((d4.2 >>> 51) ||| (d4.1 <<< 13)) * 19).toNat =
      v128 c0 % 2 ^ 51 + v128 d4 / 2 ^ 51 * 19 := by
    rw [toNat_add_of_lt, l0, em]
    rw [l0, em]; omega
  have eb : ((d1.2 &&& (0x7ffffffffffff : UInt64)) + (((c0.2 &&& (0x7ffffffffffff : UInt64)) +
      ((d4.2 >>> 51) ||| (d4.1 <<< 13)) * 19) >>> 51)).toNat =
      v128 d1 % 2 ^ 51 + (v128 c0 % 2 ^ 51 + v128 d4 / 2 ^ 51 * 19) / 2 ^ 51 := by
    rw [toNat_add_of_lt, l1, shr51, ea]
    rw [l1, shr51, ea]; omega
  rw [eb, and51, ea, l2, l3, l4]
  generalize v128 c0 = n0 at *
  generalize v128 c1 = n1 at *
  generalize v128 c2 = n2 at *
  generalize v128 c3 = n3 at *
  generalize v128 c4 = n4 at *
  generalize v128 d1 = m1 at *
  generalize v128 d2 = m2 at *
  generalize v128 d3 = m3 at *
  generalize v128 d4 = m4 at *
  clear es em l0 l1 l2 l3 l4 ea eb
  refine ⟨?_, m4 / 2 ^ 51, ?_⟩
  · simp only [U]
    refine ⟨?_, ?_, ?_, ?_, ?_⟩ <;> omega
  · omega

theorem mulAcc5 (x0 y0 x1 y1 x2 y2 x3 y3 x4 y4 : UInt64)
    (h0 : x0.toNat * y0.toNat < 2 ^ 120) (h1 : x1.toNat * y1.toNat < 2 ^ 120)
    (h2 : x2.toNat * y2.toNat < 2 ^ 120) (h3 : x3.toNat * y3.toNat < 2 ^ 120)
    (h4 : x4.toNat * y4.toNat < 2 ^ 120) :
    v128 (mulAcc (mulAcc (mulAcc (mulAcc (bitsMul64 x0 y0) x1 y1) x2 y2) x3 y3) x4 y4) =
      x0.toNat * y0.toNat + x1.toNat * y1.toNat + x2.toNat * y2.toNat + x3.toNat * y3.toNat +
        x4.toNat * y4.toNat := by
  have e0 := bitsMul64_val x0 y0
  have e1 := mulAcc_val _ x1 y1 (by rw [e0]; omega)
  have e2 := mulAcc_val _ x2 y2 (by rw [e1, e0]; omega)
  have e3 := mulAcc_val _ x3 y3 (by rw [e2, e1, e0]; omega)
  have e4 := mulAcc_val _ x4 y4 (by rw [e3, e2, e1, e0]; omega)
  rw [e4, e3, e2, e1, e0]

theorem mulAcc3 (x0 y0 x1 y1 x2 y2 : UInt64)
    (h0 : x0.toNat * y0.toNat < 2 ^ 120) (h1 : x1.toNat * y1.toNat < 2 ^ 120)
    (h2 : x2.toNat * y2.toNat < 2 ^ 120) :
    v128 (mulAcc (mulAcc (bitsMul64 x0 y0) x1 y1) x2 y2) =
      x0.toNat * y0.toNat + x1.toNat * y1.toNat + x2.toNat * y2.toNat := by
  have e0 := bitsMul64_val x0 y0
  have e1 := mulAcc_val _ x1 y1 (by rw [e0]; omega)
  have e2 := mulAcc_val _ x2 y2 (by rw [e1, e0]; omega)
  rw [e2, e1, e0]

theorem scale (x c : UInt64) (h : x.toNat * c.toNat < 2 ^ 64) :
    (x * c).toNat = c.toNat * x.toNat := by
  rw [toNat_mul_of_lt _ _ h, mul_comm]

theorem mul_spec (a b : Fe51) (ha : Bd (2 ^ 54) a) (hb : Bd (2 ^ 54) b) :
    Bd U (mul a b) ∧ eval (mul a b) = eval a * eval b := by
  obtain ⟨a0, a1, a2, a3, a4⟩ := a
  obtain ⟨b0, b1, b2, b3, b4⟩ := b
  obtain ⟨ha0, ha1, ha2, ha3, ha4⟩ := ha
  obtain ⟨hb0, hb1, hb2, hb3, hb4⟩ := hb
  simp only at ha0 ha1 ha2 ha3 ha4 hb0 hb1 hb2 hb3 hb4
  have k19 : (19 : UInt64).toNat = 19 := rfl
  have s1 := scale b1 19 (by rw [k19]; omega)
  have s2 := scale b2 19 (by rw [k19]; omega)
  have s3 := scale b3 19 (by rw [k19]; omega)
  have s4 := scale b4 19 (by rw [k19]; omega)
  rw [k19] at s1 s2 s3 s4
  have hmul : mul ⟨a0, a1, a2, a3, a4⟩ ⟨b0, b1, b2, b3, b4⟩ = finish
    (mulAcc (mulAcc (mulAcc (mulAcc (bitsMul64 b0 a0) (b1 * 19) a4) (b2 * 19) a3) (b3 * 19) a2) (b4 * 19) a1)
    (mulAcc (mulAcc (mulAcc (mulAcc (bitsMul64 b0 a1) b1 a0) (b2 * 19) a4) (b3 * 19) a3) (b4 * 19) a2)
    (mulAcc (mulAcc (mulAcc (mulAcc (bitsMul64 b0 a2) b1 a1) b2 a0) (b3 * 19) a4) (b4 * 19) a3)
    (mulAcc (mulAcc (mulAcc (mulAcc (bitsMul64 b0 a3) b1 a2) b2 a1) b3 a0) (b4 * 19) a4)
    (mulAcc (mulAcc (mulAcc (mulAcc (bitsMul64 b0 a4) b1 a3) b2 a2) b3 a1) b4 a0) := rfl
  rw [hmul]
  clear hmul
  simp only [eval, nat]
  have B : ∀ {x y : UInt64}, x.toNat ≤ 2 ^ 54 → y.toNat ≤ 2 ^ 54 → x.toNat * y.toNat ≤ 2 ^ 108 :=
    fun hx hy => (Nat.mul_le_mul hx hy).trans (by norm_num)
  have b00 := B hb0 ha0
  have b01 := B hb0 ha1
  have b02 := B hb0 ha2
  have b03 := B hb0 ha3
  have b04 := B hb0 ha4
  have b10 := B hb1 ha0
  have b11 := B hb1 ha1
  have b12 := B hb1 ha2
  have b13 := B hb1 ha3
  have b14 := B hb1 ha4
  have b20 := B hb2 ha0
  have b21 := B hb2 ha1
  have b22 := B hb2 ha2
  have b23 := B hb2 ha3
  have b24 := B hb2 ha4
  have b30 := B hb3 ha0
  have b31 := B hb3 ha1
  have b32 := B hb3 ha2
  have b33 := B hb3 ha3
  have b34 := B hb3 ha4
  have b40 := B hb4 ha0
  have b41 := B hb4 ha1
  have b42 := B hb4 ha2
  have b43 := B hb4 ha3
  have b44 := B hb4 ha4
  have e0 := mulAcc5 b0 a0 (b1 * 19) a4 (b2 * 19) a3 (b3 * 19) a2 (b4 * 19) a1
    (by omega) (by rw [s1, Nat.mul_assoc]; omega) (by rw [s2, Nat.mul_assoc]; omega)
    (by rw [s3, Nat.mul_assoc]; omega) (by rw [s4, Nat.mul_assoc]; omega)
  have e1 := mulAcc5 b0 a1 b1 a0 (b2 * 19) a4 (b3 * 19) a3 (b4 * 19) a2
    (by omega) (by omega) (by rw [s2, Nat.mul_assoc]; omega)
    (by rw [s3, Nat.mul_assoc]; omega) (by rw [s4, Nat.mul_assoc]; omega)
  have e2 := mulAcc5 b0 a2 b1 a1 b2 a0 (b3 * 19) a4 (b4 * 19) a3
    (by omega) (by omega) (by omega)
    (by rw [s3, Nat.mul_assoc]; omega) (by rw [s4, Nat.mul_assoc]; omega)
  have e3 := mulAcc5 b0 a3 b1 a2 b2 a1 b3 a0 (b4 * 19) a4
    (by omega) (by omega) (by omega) (by omega) (by rw [s4, Nat.mul_assoc]; omega)
  have e4 := mulAcc5 b0 a4 b1 a3 b2 a2 b3 a1 b4 a0
    (by omega) (by omega) (by omega) (by omega) (by omega)
  simp only [s1, s2, s3, s4, Nat.mul_assoc] at e0 e1 e2 e3
  obtain ⟨hB, q, hq⟩ := finish_spec _ _ _ _ _ (by rw [e0]; omega) (by rw [e1]; omega)
    (by rw [e2]; omega) (by rw [e3]; omega) (by rw [e4]; omega)
  refine ⟨hB, ?_⟩
  rw [e0, e1, e2, e3, e4] at hq
  simp only [nat] at hq
  have hq' := congrArg (fun n : ℕ => (n : ZMod p)) hq
  push_cast at hq' ⊢
  have hp := p_cast
  generalize (a0.toNat : ZMod p) = A0 at *
  generalize (a1.toNat : ZMod p) = A1 at *
  generalize (a2.toNat : ZMod p) = A2 at *
  generalize (a3.toNat : ZMod p) = A3 at *
  generalize (a4.toNat : ZMod p) = A4 at *
  generalize (b0.toNat : ZMod p) = B0 at *
  generalize (b1.toNat : ZMod p) = B1 at *
  generalize (b2.toNat : ZMod p) = B2 at *
  generalize (b3.toNat : ZMod p) = B3 at *
  generalize (b4.toNat : ZMod p) = B4 at *
  linear_combination hq' - ((q : ZMod p) +
    (A1 * B4 + A2 * B3 + A3 * B2 + A4 * B1) + 2 ^ 51 * (A2 * B4 + A3 * B3 + A4 * B2) +
    2 ^ 102 * (A3 * B4 + A4 * B3) + 2 ^ 153 * (A4 * B4)) * hp

theorem square_spec (a : Fe51) (ha : Bd (2 ^ 54) a) :
    Bd U (square a) ∧ eval (square a) = eval a * eval a := by
  obtain ⟨a0, a1, a2, a3, a4⟩ := a
  obtain ⟨ha0, ha1, ha2, ha3, ha4⟩ := ha
  simp only at ha0 ha1 ha2 ha3 ha4
  have k19 : (19 : UInt64).toNat = 19 := rfl
  have k38 : (38 : UInt64).toNat = 38 := rfl
  have k2 : (2 : UInt64).toNat = 2 := rfl
  have s3 := scale a3 19 (by rw [k19]; omega)
  have s4 := scale a4 19 (by rw [k19]; omega)
  have r2 := scale a2 38 (by rw [k38]; omega)
  have r4 := scale a4 38 (by rw [k38]; omega)
  have d0 := toNat_mul_of_lt 2 a0 (by rw [k2]; omega)
  have d1 := toNat_mul_of_lt 2 a1 (by rw [k2]; omega)
  have d2 := toNat_mul_of_lt 2 a2 (by rw [k2]; omega)
  have d3 := toNat_mul_of_lt 2 a3 (by rw [k2]; omega)
  have d4 := toNat_mul_of_lt 2 a4 (by rw [k2]; omega)
  rw [k19] at s3 s4
  rw [k38] at r2 r4
  rw [k2] at d0 d1 d2 d3 d4
  have hmul : square ⟨a0, a1, a2, a3, a4⟩ = finish
    (mulAcc (mulAcc (bitsMul64 a0 a0) (a4 * 38) a1) (a2 * 38) a3)
    (mulAcc (mulAcc (bitsMul64 (2 * a0) a1) a2 (a4 * 38)) (a3 * 19) a3)
    (mulAcc (mulAcc (bitsMul64 a0 (2 * a2)) a1 a1) (a4 * 38) a3)
    (mulAcc (mulAcc (bitsMul64 a0 (2 * a3)) (2 * a1) a2) (a4 * 19) a4)
    (mulAcc (mulAcc (bitsMul64 a0 (2 * a4)) a2 a2) a3 (2 * a1)) := rfl
  rw [hmul]
  clear hmul
  simp only [eval, nat]
  have B : ∀ {x y : UInt64}, x.toNat ≤ 2 ^ 54 → y.toNat ≤ 2 ^ 54 → x.toNat * y.toNat ≤ 2 ^ 108 :=
    fun hx hy => (Nat.mul_le_mul hx hy).trans (by norm_num)
  have b00 := B ha0 ha0
  have b01 := B ha0 ha1
  have b02 := B ha0 ha2
  have b03 := B ha0 ha3
  have b04 := B ha0 ha4
  have b11 := B ha1 ha1
  have b12 := B ha1 ha2
  have b31 := B ha3 ha1
  have b41 := B ha4 ha1
  have b22 := B ha2 ha2
  have b23 := B ha2 ha3
  have b24 := B ha2 ha4
  have b33 := B ha3 ha3
  have b43 := B ha4 ha3
  have b44 := B ha4 ha4
  have e0 := mulAcc3 a0 a0 (a4 * 38) a1 (a2 * 38) a3
    (by omega) (by rw [r4, Nat.mul_assoc]; omega) (by rw [r2, Nat.mul_assoc]; omega)
  have e1 := mulAcc3 (2 * a0) a1 a2 (a4 * 38) (a3 * 19) a3
    (by rw [d0, Nat.mul_assoc]; omega) (by rw [r4, Nat.mul_left_comm]; omega)
    (by rw [s3, Nat.mul_assoc]; omega)
  have e2 := mulAcc3 a0 (2 * a2) a1 a1 (a4 * 38) a3
    (by rw [d2, Nat.mul_left_comm]; omega) (by omega) (by rw [r4, Nat.mul_assoc]; omega)
  have e3 := mulAcc3 a0 (2 * a3) (2 * a1) a2 (a4 * 19) a4
    (by rw [d3, Nat.mul_left_comm]; omega) (by rw [d1, Nat.mul_assoc]; omega)
    (by rw [s4, Nat.mul_assoc]; omega)
  have e4 := mulAcc3 a0 (2 * a4) a2 a2 a3 (2 * a1)
    (by rw [d4, Nat.mul_left_comm]; omega) (by omega) (by rw [d1, Nat.mul_left_comm]; omega)
  rw [r4, r2, Nat.mul_assoc, Nat.mul_assoc] at e0
  rw [r4, s3, d0, Nat.mul_assoc, Nat.mul_assoc, Nat.mul_left_comm a2.toNat] at e1
  rw [r4, d2, Nat.mul_assoc, Nat.mul_left_comm a0.toNat] at e2
  rw [d3, d1, s4, Nat.mul_assoc, Nat.mul_assoc, Nat.mul_left_comm a0.toNat] at e3
  rw [d4, d1, Nat.mul_left_comm a3.toNat, Nat.mul_left_comm a0.toNat] at e4
  obtain ⟨hB, q, hq⟩ := finish_spec _ _ _ _ _ (by rw [e0]; omega) (by rw [e1]; omega)
    (by rw [e2]; omega) (by rw [e3]; omega) (by rw [e4]; omega)
  refine ⟨hB, ?_⟩
  rw [e0, e1, e2, e3, e4] at hq
  simp only [nat] at hq
  have hq' := congrArg (fun n : ℕ => (n : ZMod p)) hq
  push_cast at hq' ⊢
  have hp := p_cast
  generalize (a0.toNat : ZMod p) = A0 at *
  generalize (a1.toNat : ZMod p) = A1 at *
  generalize (a2.toNat : ZMod p) = A2 at *
  generalize (a3.toNat : ZMod p) = A3 at *
  generalize (a4.toNat : ZMod p) = A4 at *
  linear_combination hq' - ((q : ZMod p) +
    (A1 * A4 + A2 * A3 + A3 * A2 + A4 * A1) + 2 ^ 51 * (A2 * A4 + A3 * A3 + A4 * A2) +
    2 ^ 102 * (A3 * A4 + A4 * A3) + 2 ^ 153 * (A4 * A4)) * hp

theorem doubledSquare_spec (a : Fe51) (ha : Bd (6 * U) a) :
    Bd U (doubledSquare a) ∧ eval (doubledSquare a) = 2 * (eval a * eval a) := by
  obtain ⟨a0, a1, a2, a3, a4⟩ := a
  obtain ⟨ha0, ha1, ha2, ha3, ha4⟩ := ha
  simp only at ha0 ha1 ha2 ha3 ha4
  have k38 : (38 : UInt64).toNat = 38 := rfl
  have k2 : (2 : UInt64).toNat = 2 := rfl
  have hU : U = 2 ^ 51 + 2 ^ 18 := rfl
  have r3 := scale a3 38 (by rw [k38]; omega)
  have r4 := scale a4 38 (by rw [k38]; omega)
  have c0 := scale a0 2 (by rw [k2]; omega)
  have c1 := scale a1 2 (by rw [k2]; omega)
  have c2 := scale a2 2 (by rw [k2]; omega)
  have c3 := scale a3 2 (by rw [k2]; omega)
  have d3 := toNat_mul_of_lt 2 a3 (by rw [k2]; omega)
  have d4 := toNat_mul_of_lt 2 a4 (by rw [k2]; omega)
  rw [k38] at r3 r4
  rw [k2] at d3 d4 c0 c1 c2 c3
  have hmul : doubledSquare ⟨a0, a1, a2, a3, a4⟩ = finish
    (mulAcc (mulAcc (bitsMul64 a0 (a0 * 2)) (a4 * 38) (a1 * 2)) (a2 * 2) (a3 * 38))
    (mulAcc (mulAcc (bitsMul64 (a0 * 2) (a1 * 2)) (a2 * 2) (a4 * 38)) (a3 * 38) a3)
    (mulAcc (mulAcc (bitsMul64 (a0 * 2) (a2 * 2)) (a1 * 2) a1) (a4 * 38) (a3 * 2))
    (mulAcc (mulAcc (bitsMul64 (a0 * 2) (2 * a3)) (a1 * 2) (a2 * 2)) (a4 * 38) a4)
    (mulAcc (mulAcc (bitsMul64 (a0 * 2) (2 * a4)) (a2 * 2) a2) (2 * a3) (a1 * 2)) := rfl
  rw [hmul]
  clear hmul
  simp only [eval, nat]
  have B : ∀ {x y : UInt64}, x.toNat ≤ 6 * U → y.toNat ≤ 6 * U → x.toNat * y.toNat ≤ 37 * 2 ^ 102 :=
    fun hx hy => (Nat.mul_le_mul hx hy).trans (by norm_num [U])
  have b00 := B ha0 ha0
  have b01 := B ha0 ha1
  have b02 := B ha0 ha2
  have b03 := B ha0 ha3
  have b04 := B ha0 ha4
  have b11 := B ha1 ha1
  have b12 := B ha1 ha2
  have b31 := B ha3 ha1
  have b41 := B ha4 ha1
  have b22 := B ha2 ha2
  have b23 := B ha2 ha3
  have b24 := B ha2 ha4
  have b33 := B ha3 ha3
  have b43 := B ha4 ha3
  have b44 := B ha4 ha4
  have M : ∀ (c x d y : ℕ), c * x * (d * y) = c * d * (x * y) := by intros; ring
  have M1 : ∀ (c x y : ℕ), c * x * y = c * (x * y) := by intros; ring
  have M2 : ∀ (c x y : ℕ), x * (c * y) = c * (x * y) := by intros; ring
  have e0 := mulAcc3 a0 (a0 * 2) (a4 * 38) (a1 * 2) (a2 * 2) (a3 * 38)
    (by rw [c0, M2]; omega) (by rw [r4, c1, M]; omega) (by rw [c2, r3, M]; omega)
  have e1 := mulAcc3 (a0 * 2) (a1 * 2) (a2 * 2) (a4 * 38) (a3 * 38) a3
    (by rw [c0, c1, M]; omega) (by rw [r4, c2, M]; omega) (by rw [r3, M1]; omega)
  have e2 := mulAcc3 (a0 * 2) (a2 * 2) (a1 * 2) a1 (a4 * 38) (a3 * 2)
    (by rw [c0, c2, M]; omega) (by rw [c1, M1]; omega) (by rw [r4, c3, M]; omega)
  have e3 := mulAcc3 (a0 * 2) (2 * a3) (a1 * 2) (a2 * 2) (a4 * 38) a4
    (by rw [c0, d3, M]; omega) (by rw [c1, c2, M]; omega) (by rw [r4, M1]; omega)
  have e4 := mulAcc3 (a0 * 2) (2 * a4) (a2 * 2) a2 (2 * a3) (a1 * 2)
    (by rw [c0, d4, M]; omega) (by rw [c2, M1]; omega) (by rw [d3, c1, M]; omega)
  replace e0 := e0.trans (show _ = 2 * (a0.toNat * a0.toNat) + 76 * (a4.toNat * a1.toNat) +
    76 * (a2.toNat * a3.toNat) by rw [c0, r4, c1, c2, r3]; ring)
  replace e1 := e1.trans (show _ = 4 * (a0.toNat * a1.toNat) + 76 * (a2.toNat * a4.toNat) +
    38 * (a3.toNat * a3.toNat) by rw [c0, r4, c1, c2, r3]; ring)
  replace e2 := e2.trans (show _ = 4 * (a0.toNat * a2.toNat) + 2 * (a1.toNat * a1.toNat) +
    76 * (a4.toNat * a3.toNat) by rw [c0, r4, c1, c2, c3]; ring)
  replace e3 := e3.trans (show _ = 4 * (a0.toNat * a3.toNat) + 4 * (a1.toNat * a2.toNat) +
    38 * (a4.toNat * a4.toNat) by rw [c0, r4, c1, c2, d3]; ring)
  replace e4 := e4.trans (show _ = 4 * (a0.toNat * a4.toNat) + 2 * (a2.toNat * a2.toNat) +
    4 * (a3.toNat * a1.toNat) by rw [c0, c1, c2, d3, d4]; ring)
  obtain ⟨hB, q, hq⟩ := finish_spec _ _ _ _ _ (by rw [e0]; omega) (by rw [e1]; omega)
    (by rw [e2]; omega) (by rw [e3]; omega) (by rw [e4]; omega)
  refine ⟨hB, ?_⟩
  rw [e0, e1, e2, e3, e4] at hq
  simp only [nat] at hq
  have hq' := congrArg (fun n : ℕ => (n : ZMod p)) hq
  push_cast at hq' ⊢
  have hp := p_cast
  generalize (a0.toNat : ZMod p) = A0 at *
  generalize (a1.toNat : ZMod p) = A1 at *
  generalize (a2.toNat : ZMod p) = A2 at *
  generalize (a3.toNat : ZMod p) = A3 at *
  generalize (a4.toNat : ZMod p) = A4 at *
  linear_combination hq' - ((q : ZMod p) + 2 * (
    (A1 * A4 + A2 * A3 + A3 * A2 + A4 * A1) + 2 ^ 51 * (A2 * A4 + A3 * A3 + A4 * A2) +
    2 ^ 102 * (A3 * A4 + A4 * A3) + 2 ^ 153 * (A4 * A4))) * hp

/-- The carry chain keeps the value (mod p) and bounds the limbs. -/
theorem carryChain_spec (t : Fe51) (h : Bd (2 ^ 63) t) :
    (∃ q, nat (carryChain t) + q * 2 ^ 255 = nat t + 19 * q) ∧
    (carryChain t).l0.toNat < 2 ^ 51 + 19 * 2 ^ 13 ∧ (carryChain t).l1.toNat < 2 ^ 51 ∧
    (carryChain t).l2.toNat < 2 ^ 51 ∧ (carryChain t).l3.toNat < 2 ^ 51 ∧
    (carryChain t).l4.toNat < 2 ^ 51 := by
  obtain ⟨t0, t1, t2, t3, t4⟩ := t
  obtain ⟨h0, h1, h2, h3, h4⟩ := h
  simp only at h0 h1 h2 h3 h4
  simp only [carryChain, nat]
  have k19 : (19 : UInt64).toNat = 19 := rfl
  have x1 := toNat_add_of_lt t1 (t0 >>> 51) (by rw [shr51]; omega)
  rw [shr51] at x1
  generalize t1 + (t0 >>> 51) = u1 at *
  have x2 := toNat_add_of_lt t2 (u1 >>> 51) (by rw [shr51]; omega)
  rw [shr51] at x2
  generalize t2 + (u1 >>> 51) = u2 at *
  have x3 := toNat_add_of_lt t3 (u2 >>> 51) (by rw [shr51]; omega)
  rw [shr51] at x3
  generalize t3 + (u2 >>> 51) = u3 at *
  have x4 := toNat_add_of_lt t4 (u3 >>> 51) (by rw [shr51]; omega)
  rw [shr51] at x4
  generalize t4 + (u3 >>> 51) = u4 at *
  have x5 := toNat_mul_of_lt (u4 >>> 51) 19 (by rw [shr51, k19]; have := u4.toNat_lt; omega)
  rw [shr51, k19] at x5
  have x6 := toNat_add_of_lt (t0 &&& 0x7ffffffffffff) ((u4 >>> 51) * 19)
    (by rw [x5, and51]; have := u4.toNat_lt; omega)
  rw [x5, and51] at x6
  rw [x6]
  simp only [and51]
  have := u4.toNat_lt
  refine ⟨⟨u4.toNat / 2 ^ 51, ?_⟩, ?_, ?_, ?_, ?_, ?_⟩ <;> omega

theorem nat_eq_eval {a b : Fe51} (h : ∃ q, nat a + q * 2 ^ 255 = nat b + 19 * q) :
    eval a = eval b := by
  obtain ⟨q, hq⟩ := h
  have hq' := congrArg (fun n : ℕ => (n : ZMod p)) hq
  push_cast at hq'
  simp only [eval]
  linear_combination hq' - (q : ZMod p) * p_cast

theorem add_spec (a b : Fe51) (B C : ℕ) (ha : Bd B a) (hb : Bd C b) (hBC : B + C < 2 ^ 64) :
    Bd (B + C) (add a b) ∧ eval (add a b) = eval a + eval b := by
  obtain ⟨a0, a1, a2, a3, a4⟩ := a
  obtain ⟨b0, b1, b2, b3, b4⟩ := b
  obtain ⟨ha0, ha1, ha2, ha3, ha4⟩ := ha
  obtain ⟨hb0, hb1, hb2, hb3, hb4⟩ := hb
  simp only at ha0 ha1 ha2 ha3 ha4 hb0 hb1 hb2 hb3 hb4
  simp only [add, Bd, eval, nat]
  rw [toNat_add_of_lt _ _ (by omega), toNat_add_of_lt _ _ (by omega),
    toNat_add_of_lt _ _ (by omega), toNat_add_of_lt _ _ (by omega), toNat_add_of_lt _ _ (by omega)]
  refine ⟨⟨?_, ?_, ?_, ?_, ?_⟩, ?_⟩
  · omega
  · omega
  · omega
  · omega
  · omega
  · push_cast; ring

theorem sub_of_lt (x y : UInt64) (h : y.toNat ≤ x.toNat) : (x - y).toNat = x.toNat - y.toNat :=
  UInt64.toNat_sub_of_le _ _ (by rwa [UInt64.le_iff_toNat_le])

theorem sub_spec (a b : Fe51) (B : ℕ) (ha : Bd B a) (hB : B ≤ 2 ^ 63) (hb : Bd (2 ^ 63) b) :
    Bd (B + 2 ^ 52) (sub a b) ∧ eval (sub a b) = eval a - eval b := by
  have hc := carryChain_spec b hb
  obtain ⟨hq, h0, h1, h2, h3, h4⟩ := hc
  have he := nat_eq_eval hq
  rw [← he]
  clear he hq
  simp only [sub]
  generalize carryChain b = t at *
  obtain ⟨a0, a1, a2, a3, a4⟩ := a
  obtain ⟨t0, t1, t2, t3, t4⟩ := t
  obtain ⟨ha0, ha1, ha2, ha3, ha4⟩ := ha
  simp only at ha0 ha1 ha2 ha3 ha4 h0 h1 h2 h3 h4
  simp only [Bd, eval, nat]
  have k0 : (0xfffffffffffda : UInt64).toNat = 0xfffffffffffda := rfl
  have k1 : (0xffffffffffffe : UInt64).toNat = 0xffffffffffffe := rfl
  have y0 := toNat_add_of_lt a0 0xfffffffffffda (by rw [k0]; omega)
  have y1 := toNat_add_of_lt a1 0xffffffffffffe (by rw [k1]; omega)
  have y2 := toNat_add_of_lt a2 0xffffffffffffe (by rw [k1]; omega)
  have y3 := toNat_add_of_lt a3 0xffffffffffffe (by rw [k1]; omega)
  have y4 := toNat_add_of_lt a4 0xffffffffffffe (by rw [k1]; omega)
  rw [k0] at y0
  rw [k1] at y1 y2 y3 y4
  have z0 := sub_of_lt (a0 + 0xfffffffffffda) t0 (by rw [y0]; omega)
  have z1 := sub_of_lt (a1 + 0xffffffffffffe) t1 (by rw [y1]; omega)
  have z2 := sub_of_lt (a2 + 0xffffffffffffe) t2 (by rw [y2]; omega)
  have z3 := sub_of_lt (a3 + 0xffffffffffffe) t3 (by rw [y3]; omega)
  have z4 := sub_of_lt (a4 + 0xffffffffffffe) t4 (by rw [y4]; omega)
  rw [y0] at z0
  rw [y1] at z1
  rw [y2] at z2
  rw [y3] at z3
  rw [y4] at z4
  rw [z0, z1, z2, z3, z4]
  refine ⟨⟨?_, ?_, ?_, ?_, ?_⟩, ?_⟩
  · omega
  · omega
  · omega
  · omega
  · omega
  · rw [Nat.cast_add, Nat.cast_add, Nat.cast_add, Nat.cast_add, Nat.cast_mul, Nat.cast_mul,
      Nat.cast_mul, Nat.cast_mul, Nat.cast_sub (by omega), Nat.cast_sub (by omega),
      Nat.cast_sub (by omega), Nat.cast_sub (by omega), Nat.cast_sub (by omega)]
    push_cast
    linear_combination 2 * p_cast

theorem neg_eq_sub (a : Fe51) : neg a = sub ⟨0, 0, 0, 0, 0⟩ a := by
  simp [neg, sub]

theorem neg_spec (b : Fe51) (hb : Bd (2 ^ 63) b) :
    Bd (2 ^ 52) (neg b) ∧ eval (neg b) = - eval b := by
  rw [neg_eq_sub]
  have h := sub_spec ⟨0, 0, 0, 0, 0⟩ b 0 (by decide) (by omega) hb
  rw [zero_add] at h
  refine ⟨h.1, ?_⟩
  rw [h.2]
  simp [eval, nat]

end Fe51
end Ristretto.Proofs
