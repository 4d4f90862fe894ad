import Verif.Model.Field51Checked
import Verif.Proofs.Lawful

/-! The checked radix-2^51 field arithmetic loses nothing on small limbs. -/

namespace Ristretto.Proofs
open Model
set_option autoImplicit false

namespace W51

/-- Nothing was lost, and the word is at most `B`. -/
def In (B : ℕ) (w : W) : Prop := w.ok = true ∧ w.val.toNat ≤ B
/-- The same for a pair `(hi, lo)`. -/
def InP (B : ℕ) (c : W × W) : Prop := c.1.ok = true ∧ c.2.ok = true ∧ v128 (c.1.val, c.2.val) ≤ B

theorem In.mono {B C : ℕ} {w : W} (h : In B w) (hBC : B ≤ C) : In C w := ⟨h.1, h.2.trans hBC⟩
theorem InP.mono {B C : ℕ} {c : W × W} (h : InP B c) (hBC : B ≤ C) : InP C c := ⟨h.1, h.2.1, h.2.2.trans hBC⟩

theorem of_in {B : ℕ} {x : UInt64} (h : x.toNat ≤ B) : In B (.of x) := ⟨rfl, h⟩
theorem const_in (n : ℕ) (h : n < 2 ^ 64) : In n (OfNat.ofNat n : W) :=
  ⟨rfl, by show (UInt64.ofNat n).toNat ≤ n; rw [UInt64.toNat_ofNat', Nat.mod_eq_of_lt h]⟩

theorem add_in {B C : ℕ} {x y : W} (hx : In B x) (hy : In C y) (h : B + C < 2 ^ 64) : In (B + C) (x + y) := by
  have hl : x.val.toNat + y.val.toNat < 2 ^ 64 := lt_of_le_of_lt (Nat.add_le_add hx.2 hy.2) h
  refine ⟨?_, ?_⟩
  · show (x.ok && y.ok && decide (x.val.toNat + y.val.toNat < 2 ^ 64)) = true
    rw [hx.1, hy.1, decide_eq_true hl]; rfl
  · show (x.val + y.val).toNat ≤ _
    rw [toNat_add_of_lt _ _ hl]; exact Nat.add_le_add hx.2 hy.2

theorem mul_in {B C : ℕ} {x y : W} (hx : In B x) (hy : In C y) (h : B * C < 2 ^ 64) : In (B * C) (x * y) := by
  have hl : x.val.toNat * y.val.toNat < 2 ^ 64 := lt_of_le_of_lt (Nat.mul_le_mul hx.2 hy.2) h
  refine ⟨?_, ?_⟩
  · show (x.ok && y.ok && decide (x.val.toNat * y.val.toNat < 2 ^ 64)) = true
    rw [hx.1, hy.1, decide_eq_true hl]; rfl
  · show (x.val * y.val).toNat ≤ _
    rw [toNat_mul_of_lt _ _ hl]; exact Nat.mul_le_mul hx.2 hy.2

theorem sub_in {B C : ℕ} {x y : W} (hx : In B x) (hy : In C y) (h : C ≤ x.val.toNat) : In B (x - y) := by
  have hl : y.val.toNat ≤ x.val.toNat := hy.2.trans h
  refine ⟨?_, ?_⟩
  · show (x.ok && y.ok && decide (y.val.toNat ≤ x.val.toNat)) = true
    rw [hx.1, hy.1, decide_eq_true hl]; rfl
  · show (x.val - y.val).toNat ≤ _
    rw [Fe51.sub_of_lt _ _ hl]; exact (Nat.sub_le _ _).trans hx.2

theorem shr_in {B : ℕ} {x : W} (hx : In B x) : In (B / 2 ^ 51) (x >>> (51 : W)) := by
  refine ⟨?_, ?_⟩
  · show (x.ok && true) = true
    rw [hx.1]; rfl
  · show (x.val >>> 51).toNat ≤ _
    rw [shr51]; exact Nat.div_le_div_right hx.2

theorem mask_in {x : W} (hx : x.ok = true) : In (2 ^ 51 - 1) (x &&& (0x7ffffffffffff : W)) := by
  refine ⟨?_, ?_⟩
  · show (x.ok && true) = true
    rw [hx]; rfl
  · show (x.val &&& 0x7ffffffffffff).toNat ≤ _
    rw [and51]; exact Nat.le_sub_one_of_lt (Nat.mod_lt _ (by norm_num))

theorem mul64_in {B C : ℕ} {x y : W} (hx : In B x) (hy : In C y) : InP (B * C) (W.mul64 x y) := by
  refine ⟨?_, ?_, ?_⟩
  · show (x.ok && y.ok) = true
    rw [hx.1, hy.1]; rfl
  · show (x.ok && y.ok) = true
    rw [hx.1, hy.1]; rfl
  · show v128 (bitsMul64 x.val y.val) ≤ _
    rw [bitsMul64_val]; exact Nat.mul_le_mul hx.2 hy.2

theorem drop_zero (a1 a2 b1 b2 : UInt64) (h : v128 (a1, a2) + v128 (b1, b2) < 2 ^ 128) :
    (bitsAdd64 a1 b1 (bitsAdd64 a2 b2 0).2).2 = 0 := by
  have := a1.toNat_lt
  have := a2.toNat_lt
  have := b1.toNat_lt
  have := b2.toNat_lt
  have e : (a1.toNat + b1.toNat + (a2.toNat + b2.toNat + (0 : UInt64).toNat) / 2 ^ 64 % 2 ^ 64) / 2 ^ 64 = 0 := by
    simp only [v128, UInt64.toNat_zero] at *
    omega
  show UInt64.ofNat ((a1.toNat + b1.toNat + (UInt64.ofNat ((a2.toNat + b2.toNat + (0 : UInt64).toNat) / 2 ^ 64)).toNat) /
    2 ^ 64) = 0
  rw [UInt64.toNat_ofNat', e]; rfl

theorem mulAcc_in {A B C : ℕ} {c : W × W} {x y : W} (hc : InP A c) (hx : In B x) (hy : In C y)
    (h : A + B * C < 2 ^ 128) : InP (A + B * C) (W.mulAcc c x y) := by
  obtain ⟨h1, h2, h3⟩ := hc
  have hm := bitsMul64_val x.val y.val
  have hle := Nat.mul_le_mul hx.2 hy.2
  have hv : v128 (c.1.val, c.2.val) + x.val.toNat * y.val.toNat < 2 ^ 128 := by omega
  refine ⟨?_, ?_, ?_⟩
  · show (c.1.ok && (x.ok && y.ok) && (c.2.ok && (x.ok && y.ok) && true) && decide ((bitsAdd64 c.1.val
      (bitsMul64 x.val y.val).1 (bitsAdd64 c.2.val (bitsMul64 x.val y.val).2 0).2).2 = 0)) = true
    rw [h1, h2, hx.1, hy.1, decide_eq_true]; · rfl
    exact drop_zero _ _ _ _ (by
      show v128 (c.1.val, c.2.val) + v128 (bitsMul64 x.val y.val) < 2 ^ 128
      rw [hm]; exact hv)
  · show (c.2.ok && (x.ok && y.ok) && true) = true
    rw [h2, hx.1, hy.1]; rfl
  · show v128 (mulAcc (c.1.val, c.2.val) x.val y.val) ≤ _
    rw [mulAcc_val _ _ _ hv]; omega

theorem carry_in {P : ℕ} {prev : W × W} (hp : InP P prev) (h : P < 2 ^ 115) :
    In (P / 2 ^ 51) ((prev.2 >>> (51 : W)) ||| (prev.1 <<< (13 : W))) := by
  obtain ⟨h1, h2, h3⟩ := hp
  have hv : v128 (prev.1.val, prev.2.val) < 2 ^ 115 := by omega
  have hs : prev.1.val.toNat * 2 ^ (13 : UInt64).toNat < 2 ^ 64 := by
    have e13 : (13 : UInt64).toNat = 13 := rfl
    rw [e13]
    have h51 : prev.1.val.toNat < 2251799813685248 := by
      have := hv
      simp only [v128, Nat.reducePow] at this
      omega
    clear hv h3 h
    simp only [Nat.reducePow]
    omega
  refine ⟨?_, ?_⟩
  · show ((prev.2.ok && true) && (prev.1.ok && true && decide (prev.1.val.toNat * 2 ^ (13 : UInt64).toNat < 2 ^ 64))) = true
    rw [h1, h2, decide_eq_true hs]; rfl
  · show ((prev.2.val >>> 51) ||| (prev.1.val <<< 13)).toNat ≤ _
    have := shift51 (prev.1.val, prev.2.val) hv
    simp only at this
    rw [this]; exact Nat.div_le_div_right h3

theorem carryAcc_in {P A : ℕ} {prev acc : W × W} (hp : InP P prev) (ha : InP A acc) (h : P < 2 ^ 115)
    (h2 : A + P / 2 ^ 51 < 2 ^ 128) : InP (A + P / 2 ^ 51) (W.carryAcc prev acc) := by
  have hc := carry_in hp h
  obtain ⟨-, -, hp3⟩ := hp
  obtain ⟨a1, a2, a3⟩ := ha
  have hv : v128 (prev.1.val, prev.2.val) < 2 ^ 115 := by omega
  have hd : v128 (prev.1.val, prev.2.val) / 2 ^ 51 ≤ P / 2 ^ 51 := Nat.div_le_div_right hp3
  have ho : (((prev.2 >>> (51 : W)) ||| (prev.1 <<< (13 : W))).ok && acc.2.ok && true) = true := by
    rw [hc.1, a2]; rfl
  refine ⟨?_, ?_, ?_⟩
  · show (acc.1.ok && true && (((prev.2 >>> (51 : W)) ||| (prev.1 <<< (13 : W))).ok && acc.2.ok && true) &&
      decide ((bitsAdd64 acc.1.val 0 (bitsAdd64 ((prev.2.val >>> 51) ||| (prev.1.val <<< 13)) acc.2.val 0).2).2 = 0)) = true
    rw [ho, a1, decide_eq_true]; · rfl
    have hs := shift51 (prev.1.val, prev.2.val) hv
    simp only at hs
    have e : bitsAdd64 ((prev.2.val >>> 51) ||| (prev.1.val <<< 13)) acc.2.val 0 =
        bitsAdd64 acc.2.val ((prev.2.val >>> 51) ||| (prev.1.val <<< 13)) 0 := by
      unfold bitsAdd64; rw [UInt64.add_comm (_ ||| _), Nat.add_comm (UInt64.toNat (_ ||| _))]
    rw [e]
    refine drop_zero _ _ _ _ ?_
    show v128 (acc.1.val, acc.2.val) + (((0 : UInt64).toNat) * 2 ^ 64 + ((prev.2.val >>> 51) ||| (prev.1.val <<< 13)).toNat) < _
    rw [hs, UInt64.toNat_zero]; omega
  · exact ho
  · show v128 (carryAcc (prev.1.val, prev.2.val) (acc.1.val, acc.2.val)) ≤ _
    rw [carryAcc_val _ _ hv (by omega)]; omega

/-- The limbs of an operand. -/
def In5 (B : ℕ) (a : WFe) : Prop := In B a.l0 ∧ In B a.l1 ∧ In B a.l2 ∧ In B a.l3 ∧ In B a.l4

theorem In5.ok {B : ℕ} {a : WFe} (h : In5 B a) : a.ok = true := by
  obtain ⟨h0, h1, h2, h3, h4⟩ := h
  unfold WFe.ok; rw [h0.1, h1.1, h2.1, h3.1, h4.1]; rfl

theorem in5_of {B : ℕ} {a : Fe51} (h : Fe51.Bd B a) : In5 B (.of a) :=
  ⟨of_in h.1, of_in h.2.1, of_in h.2.2.1, of_in h.2.2.2.1, of_in h.2.2.2.2⟩

theorem carryChain_in {a : WFe} (h : In5 (2 ^ 63) a) : In5 (2 ^ 51 + 2 ^ 18) (WFe.carryChain a) := by
  obtain ⟨h0, h1, h2, h3, h4⟩ := h
  have t1 := add_in h1 (shr_in h0) (by norm_num)
  have t2 := add_in h2 (shr_in t1) (by norm_num)
  have t3 := add_in h3 (shr_in t2) (by norm_num)
  have t4 := add_in h4 (shr_in t3) (by norm_num)
  have c := mul_in (shr_in t4) (const_in 19 (by norm_num)) (by norm_num)
  have t0 := add_in (mask_in h0.1) c (by norm_num)
  exact ⟨t0.mono (by norm_num), (mask_in t1.1).mono (by norm_num), (mask_in t2.1).mono (by norm_num),
    (mask_in t3.1).mono (by norm_num), (mask_in t4.1).mono (by norm_num)⟩

theorem add_in5 {B C : ℕ} {a b : WFe} (ha : In5 B a) (hb : In5 C b) (h : B + C < 2 ^ 64) :
    In5 (B + C) (WFe.add a b) :=
  ⟨add_in ha.1 hb.1 h, add_in ha.2.1 hb.2.1 h, add_in ha.2.2.1 hb.2.2.1 h, add_in ha.2.2.2.1 hb.2.2.2.1 h,
    add_in ha.2.2.2.2 hb.2.2.2.2 h⟩

theorem neg_in5 {a : WFe} (ha : In5 (2 ^ 63) a) : In5 (2 ^ 52) (WFe.neg a) := by
  obtain ⟨h0, h1, h2, h3, h4⟩ := carryChain_in ha
  have k0 : In (2 ^ 52) (0xfffffffffffda : W) := (const_in 0xfffffffffffda (by norm_num)).mono (by norm_num)
  have k1 : In (2 ^ 52) (0xffffffffffffe : W) := (const_in 0xffffffffffffe (by norm_num)).mono (by norm_num)
  exact ⟨sub_in k0 h0 (by decide), sub_in k1 h1 (by decide), sub_in k1 h2 (by decide), sub_in k1 h3 (by decide),
    sub_in k1 h4 (by decide)⟩

theorem sub_step {B C : ℕ} {x y : W} (k : ℕ) (hx : In B x) (hB : B ≤ 2 ^ 63) (hy : In C y) (hk : k ≤ 2 ^ 52) (h : C ≤ k) :
    In (B + 2 ^ 52) ((x + (OfNat.ofNat k : W)) - y) := by
  have ha := add_in hx (const_in k (by omega)) (by omega)
  have hv : (x + (OfNat.ofNat k : W)).val.toNat = x.val.toNat + k := by
    show (x.val + UInt64.ofNat k).toNat = _
    have e : (UInt64.ofNat k).toNat = k := by rw [UInt64.toNat_ofNat', Nat.mod_eq_of_lt (by omega)]
    have := hx.2
    rw [toNat_add_of_lt _ _ (by rw [e]; omega), e]
  exact (sub_in ha hy (by omega)).mono (by omega)

theorem sub_in5 {B : ℕ} {a b : WFe} (ha : In5 B a) (hB : B ≤ 2 ^ 63) (hb : In5 (2 ^ 63) b) :
    In5 (B + 2 ^ 52) (WFe.sub a b) := by
  obtain ⟨h0, h1, h2, h3, h4⟩ := carryChain_in hb
  exact ⟨sub_step _ ha.1 hB h0 (by norm_num) (by norm_num), sub_step _ ha.2.1 hB h1 (by norm_num) (by norm_num),
    sub_step _ ha.2.2.1 hB h2 (by norm_num) (by norm_num), sub_step _ ha.2.2.2.1 hB h3 (by norm_num) (by norm_num),
    sub_step _ ha.2.2.2.2 hB h4 (by norm_num) (by norm_num)⟩

theorem setReduced_in5 {a : WFe} (ha : In5 (2 ^ 63) a) : In5 (2 ^ 51 - 1) (WFe.setReduced a) := by
  obtain ⟨h0, h1, h2, h3, h4⟩ := carryChain_in ha
  have c := shr_in (add_in h0 (const_in 19 (by norm_num)) (by norm_num))
  have c := shr_in (add_in h1 c (by norm_num))
  have c := shr_in (add_in h2 c (by norm_num))
  have c := shr_in (add_in h3 c (by norm_num))
  have c := shr_in (add_in h4 c (by norm_num))
  have f0 := add_in h0 (mul_in (const_in 19 (by norm_num)) c (by norm_num)) (by norm_num)
  have f1 := add_in h1 (shr_in f0) (by norm_num)
  have f2 := add_in h2 (shr_in f1) (by norm_num)
  have f3 := add_in h3 (shr_in f2) (by norm_num)
  have f4 := add_in h4 (shr_in f3) (by norm_num)
  exact ⟨mask_in f0.1, mask_in f1.1, mask_in f2.1, mask_in f3.1, mask_in f4.1⟩

theorem finish_in {c0 c1 c2 c3 c4 : W × W} {C0 C1 C2 C3 C4 : ℕ} (h0 : InP C0 c0) (h1 : InP C1 c1) (h2 : InP C2 c2)
    (h3 : InP C3 c3) (h4 : InP C4 c4) (b0 : C0 < 2 ^ 115 - 2 ^ 64) (b1 : C1 < 2 ^ 115 - 2 ^ 64)
    (b2 : C2 < 2 ^ 115 - 2 ^ 64) (b3 : C3 < 2 ^ 115 - 2 ^ 64)
    (b4 : C4 < 6 * 2 ^ 108) :
    let d1 := W.carryAcc c0 c1
    let d2 := W.carryAcc d1 c2
    let d3 := W.carryAcc d2 c3
    let d4 := W.carryAcc d3 c4
    let s := (c0.2 &&& (0x7ffffffffffff : W)) + ((d4.2 >>> (51 : W)) ||| (d4.1 <<< (13 : W))) * (19 : W)
    WFe.ok ⟨s &&& (0x7ffffffffffff : W), (d1.2 &&& (0x7ffffffffffff : W)) + (s >>> (51 : W)),
      d2.2 &&& (0x7ffffffffffff : W), d3.2 &&& (0x7ffffffffffff : W), d4.2 &&& (0x7ffffffffffff : W)⟩ = true := by
  intro d1 d2 d3 d4 s
  have h1 : InP (2 ^ 115 - 1) d1 := (carryAcc_in h0 h1 (by omega) (by omega)).mono (by omega)
  have h2 : InP (2 ^ 115 - 1) d2 := (carryAcc_in h1 h2 (by omega) (by omega)).mono (by omega)
  have h3 : InP (2 ^ 115 - 1) d3 := (carryAcc_in h2 h3 (by omega) (by omega)).mono (by omega)
  have h4 : InP (6 * 2 ^ 108 + 2 ^ 64) d4 := (carryAcc_in h3 h4 (by omega) (by omega)).mono (by omega)
  have hs := add_in (mask_in h0.2.1) (mul_in (carry_in h4 (by norm_num)) (const_in 19 (by norm_num)) (by norm_num))
    (by norm_num)
  have e1 := add_in (mask_in h1.2.1) (shr_in hs) (by norm_num)
  unfold WFe.ok
  have m2 := (mask_in h2.2.1).1
  have m3 := (mask_in h3.2.1).1
  have m4 := (mask_in h4.2.1).1
  have m0 := (mask_in hs.1).1
  show ((s &&& (0x7ffffffffffff : W)).ok && ((d1.2 &&& (0x7ffffffffffff : W)) + (s >>> (51 : W))).ok &&
    (d2.2 &&& (0x7ffffffffffff : W)).ok && (d3.2 &&& (0x7ffffffffffff : W)).ok && (d4.2 &&& (0x7ffffffffffff : W)).ok) = true
  rw [m0, e1.1, m2, m3, m4]; rfl

theorem mul_ok {a b : WFe} (ha : In5 (2 ^ 54) a) (hb : In5 (2 ^ 54) b) : (WFe.mul a b).ok = true := by
  obtain ⟨a0, a1, a2, a3, a4⟩ := ha
  obtain ⟨b0, b1, b2, b3, b4⟩ := hb
  have k := const_in 19 (by norm_num)
  have b1' := mul_in b1 k (by norm_num)
  have b2' := mul_in b2 k (by norm_num)
  have b3' := mul_in b3 k (by norm_num)
  have b4' := mul_in b4 k (by norm_num)
  have m {A B C : ℕ} {c : W × W} {x y : W} (hc : InP A c) (hx : In B x) (hy : In C y) (h : A + B * C < 2 ^ 128) :=
    mulAcc_in hc hx hy h
  have c0 := m (m (m (m (mul64_in b0 a0) b1' a4 (by norm_num)) b2' a3 (by norm_num)) b3' a2 (by norm_num)) b4' a1 (by norm_num)
  have c1 := m (m (m (m (mul64_in b0 a1) b1 a0 (by norm_num)) b2' a4 (by norm_num)) b3' a3 (by norm_num)) b4' a2 (by norm_num)
  have c2 := m (m (m (m (mul64_in b0 a2) b1 a1 (by norm_num)) b2 a0 (by norm_num)) b3' a4 (by norm_num)) b4' a3 (by norm_num)
  have c3 := m (m (m (m (mul64_in b0 a3) b1 a2 (by norm_num)) b2 a1 (by norm_num)) b3 a0 (by norm_num)) b4' a4 (by norm_num)
  have c4 := m (m (m (m (mul64_in b0 a4) b1 a3 (by norm_num)) b2 a2 (by norm_num)) b3 a1 (by norm_num)) b4 a0 (by norm_num)
  exact finish_in c0 c1 c2 c3 c4 (by norm_num) (by norm_num) (by norm_num) (by norm_num) (by norm_num)

theorem square_ok {a : WFe} (ha : In5 (2 ^ 54) a) : (WFe.square a).ok = true := by
  obtain ⟨a0, a1, a2, a3, a4⟩ := ha
  have k := const_in 19 (by norm_num)
  have k38 := const_in 38 (by norm_num)
  have k2 := const_in 2 (by norm_num)
  have a4' := mul_in a4 k38 (by norm_num)
  have a2' := mul_in a2 k38 (by norm_num)
  have m {A B C : ℕ} {c : W × W} {x y : W} (hc : InP A c) (hx : In B x) (hy : In C y) (h : A + B * C < 2 ^ 128) :=
    mulAcc_in hc hx hy h
  have c0 := m (m (mul64_in a0 a0) a4' a1 (by norm_num)) a2' a3 (by norm_num)
  have c1 := m (m (mul64_in (mul_in k2 a0 (by norm_num)) a1) a2 a4' (by norm_num)) (mul_in a3 k (by norm_num)) a3 (by norm_num)
  have c2 := m (m (mul64_in a0 (mul_in k2 a2 (by norm_num))) a1 a1 (by norm_num)) a4' a3 (by norm_num)
  have c3 := m (m (mul64_in a0 (mul_in k2 a3 (by norm_num))) (mul_in k2 a1 (by norm_num)) a2 (by norm_num))
    (mul_in a4 k (by norm_num)) a4 (by norm_num)
  have c4 := m (m (mul64_in a0 (mul_in k2 a4 (by norm_num))) a2 a2 (by norm_num)) a3 (mul_in k2 a1 (by norm_num)) (by norm_num)
  exact finish_in c0 c1 c2 c3 c4 (by norm_num) (by norm_num) (by norm_num) (by norm_num) (by norm_num)

theorem doubledSquare_ok {a : WFe} (ha : In5 (6 * (2 ^ 51 + 2 ^ 18)) a) : (WFe.doubledSquare a).ok = true := by
  obtain ⟨a0, a1, a2, a3, a4⟩ := ha
  have k38 := const_in 38 (by norm_num)
  have k2 := const_in 2 (by norm_num)
  have d0 := mul_in a0 k2 (by norm_num)
  have d1 := mul_in a1 k2 (by norm_num)
  have d2 := mul_in a2 k2 (by norm_num)
  have a3' := mul_in a3 k38 (by norm_num)
  have a4' := mul_in a4 k38 (by norm_num)
  have m {A B C : ℕ} {c : W × W} {x y : W} (hc : InP A c) (hx : In B x) (hy : In C y) (h : A + B * C < 2 ^ 128) :=
    mulAcc_in hc hx hy h
  have c0 := m (m (mul64_in a0 d0) a4' d1 (by norm_num)) d2 a3' (by norm_num)
  have c1 := m (m (mul64_in d0 d1) d2 a4' (by norm_num)) a3' a3 (by norm_num)
  have c2 := m (m (mul64_in d0 d2) d1 a1 (by norm_num)) a4' (mul_in a3 k2 (by norm_num)) (by norm_num)
  have c3 := m (m (mul64_in d0 (mul_in k2 a3 (by norm_num))) d1 d2 (by norm_num)) a4' a4 (by norm_num)
  have c4 := m (m (mul64_in d0 (mul_in k2 a4 (by norm_num))) d2 a2 (by norm_num)) (mul_in k2 a3 (by norm_num)) d1 (by norm_num)
  exact finish_in c0 c1 c2 c3 c4 (by norm_num) (by norm_num) (by norm_num) (by norm_num) (by norm_num)

theorem add_val (a b : Fe51) : (WFe.add (.of a) (.of b)).val = Model.Fe51.add a b := rfl
theorem sub_val (a b : Fe51) : (WFe.sub (.of a) (.of b)).val = Model.Fe51.sub a b := rfl
theorem neg_val (a : Fe51) : (WFe.neg (.of a)).val = Model.Fe51.neg a := rfl
theorem setReduced_val (a : Fe51) : (WFe.setReduced (.of a)).val = Model.Fe51.setReduced a := rfl
theorem mul_val (a b : Fe51) : (WFe.mul (.of a) (.of b)).val = Model.Fe51.mul a b := rfl
theorem square_val (a : Fe51) : (WFe.square (.of a)).val = Model.Fe51.square a := rfl
theorem doubledSquare_val (a : Fe51) : (WFe.doubledSquare (.of a)).val = Model.Fe51.doubledSquare a := rfl

end W51
end Ristretto.Proofs
