import Verif.Model.Field25Checked
import Verif.Proofs.Field25Bytes

/-!
# No overflow in the generic field on bounded limbs

The proofs follow the functions line by line and carry a bound on the absolute value of every variable.
-/

namespace Ristretto.Proofs.J25
open Model Model.Fe25 Proofs Proofs.Fe25
set_option autoImplicit false

theorem neg_val (a : Fe25) : (JFe.neg (.of a)).val = Fe25.neg a := rfl
theorem add_val (a b : Fe25) : (JFe.add (.of a) (.of b)).val = Fe25.add a b := rfl
theorem sub_val (a b : Fe25) : (JFe.sub (.of a) (.of b)).val = Fe25.sub a b := rfl
theorem normalize_val (a : Fe25) : (JFe.normalize (.of a)).val = Fe25.normalize a := rfl
theorem reduce_val (a : Fe25) : (JFe.reduce (.of a)).val = Fe25.reduce a := rfl
theorem setBytes_val (b : Bytes 32) : (JFe.setBytes b).val = Fe25.setBytes b := rfl
theorem mul_val (a b : Fe25) : (JFe.mul (.of a) (.of b)).val = Fe25.mul a b := rfl
theorem square_val (a : Fe25) : (JFe.square (.of a)).val = Fe25.square a := rfl
theorem doubledSquare_val (a : Fe25) : (JFe.doubledSquare (.of a)).val = Fe25.doubledSquare a := rfl

theorem ex32 {x : Int32} {z : ℤ} {b : Bool} (hb : b = true) (h : x.toInt = z) : (J32.exact x z b).ok = true := by
  show (b && decide (x.toInt = z)) = true
  rw [hb, decide_eq_true h]; rfl
theorem ex64 {x : Int64} {z : ℤ} {b : Bool} (hb : b = true) (h : x.toInt = z) : (J64.exact x z b).ok = true := by
  show (b && decide (x.toInt = z)) = true
  rw [hb, decide_eq_true h]; rfl
theorem sub32 {a b : J32} (ha : a.ok = true) (hb : b.ok = true) (h : (a.val - b.val).toInt = a.val.toInt - b.val.toInt) :
    (a - b).ok = true := ex32 (by rw [ha, hb]; rfl) h
theorem sub64 {a b : J64} (ha : a.ok = true) (hb : b.ok = true) (h : (a.val - b.val).toInt = a.val.toInt - b.val.toInt) :
    (a - b).ok = true := ex64 (by rw [ha, hb]; rfl) h
theorem shl32 {a b : J32} (ha : a.ok = true) (hb : b.ok = true)
    (h : (a.val <<< b.val).toInt = a.val.toInt * 2 ^ b.val.toInt.toNat) : (a <<< b).ok = true := ex32 (by rw [ha, hb]; rfl) h
theorem shl64 {a b : J64} (ha : a.ok = true) (hb : b.ok = true)
    (h : (a.val <<< b.val).toInt = a.val.toInt * 2 ^ b.val.toInt.toNat) : (a <<< b).ok = true := ex64 (by rw [ha, hb]; rfl) h
theorem shr32 {a b : J32} (ha : a.ok = true) (hb : b.ok = true) : (a >>> b).ok = true := by
  show (a.ok && b.ok) = true
  rw [ha, hb]; rfl
theorem n25 : (25 : J64).val.toInt.toNat = 25 := rfl
theorem n26 : (26 : J64).val.toInt.toNat = 26 := rfl
theorem m25 : (25 : J32).val.toInt.toNat = 25 := rfl
theorem m26 : (26 : J32).val.toInt.toNat = 26 := rfl

/-! ## Bounds -/

/-- No overflow so far, and the absolute value is at most `B`. -/
def In32 (c : J32) (B : ℕ) : Prop := c.ok = true ∧ I32 c.val c.val.toInt B
/-- See `In32`. -/
def In64 (c : J64) (B : ℕ) : Prop := c.ok = true ∧ I64 c.val c.val.toInt B

theorem i32_self {x : Int32} {v : ℤ} {B : ℕ} (h : I32 x v B) : I32 x x.toInt B := by rw [h.1]; exact h
theorem i64_self {x : Int64} {v : ℤ} {B : ℕ} (h : I64 x v B) : I64 x x.toInt B := by rw [h.1]; exact h

namespace In32
variable {a b : J32} {A B : ℕ}

theorem of {x : Int32} (h : -(B : ℤ) ≤ x.toInt ∧ x.toInt ≤ B) : In32 (.of x) B := ⟨rfl, rfl, h⟩

theorem lit (n : ℕ) [OfNat Int32 n] (B : ℕ) (h : (OfNat.ofNat n : Int32).toInt = B) : In32 (.of (OfNat.ofNat n)) B :=
  ⟨rfl, rfl, by show _ ≤ (OfNat.ofNat n : Int32).toInt; omega, by show (OfNat.ofNat n : Int32).toInt ≤ _; omega⟩

theorem add (ha : In32 a A) (hb : In32 b B) (h : A + B < 2 ^ 31) : In32 (a + b) (A + B) := by
  have := ha.2.add hb.2 h
  exact ⟨by show (_ && _ && decide _) = true; rw [ha.1, hb.1, decide_eq_true this.1]; rfl, i32_self this⟩

theorem sub (ha : In32 a A) (hb : In32 b B) (h : A + B < 2 ^ 31) : In32 (a - b) (A + B) := by
  have := ha.2.sub hb.2 h
  exact ⟨by show (_ && _ && decide _) = true; rw [ha.1, hb.1, decide_eq_true this.1]; rfl, i32_self this⟩

theorem neg (ha : In32 a A) (h : A < 2 ^ 31) : In32 (-a) A := by
  have := ha.2.neg h
  exact ⟨by show (_ && decide _) = true; rw [ha.1, decide_eq_true this.1]; rfl, i32_self this⟩

theorem mul (ha : In32 a A) (hb : In32 b B) (h : A * B < 2 ^ 31) : In32 (a * b) (A * B) := by
  obtain ⟨ka, -, a1, a2⟩ := ha
  obtain ⟨kb, -, b1, b2⟩ := hb
  have hz : ((A * B : ℕ) : ℤ) < 2 ^ 31 := by exact_mod_cast h
  push_cast at hz
  have h1 : a.val.toInt * b.val.toInt ≤ A * B := by
    have : |a.val.toInt * b.val.toInt| ≤ A * B := by
      rw [abs_mul]; exact mul_le_mul (abs_le.2 ⟨a1, a2⟩) (abs_le.2 ⟨b1, b2⟩) (abs_nonneg _) (by positivity)
    exact (abs_le.1 this).2
  have h2 : -(A * B : ℤ) ≤ a.val.toInt * b.val.toInt := by
    have : |a.val.toInt * b.val.toInt| ≤ A * B := by
      rw [abs_mul]; exact mul_le_mul (abs_le.2 ⟨a1, a2⟩) (abs_le.2 ⟨b1, b2⟩) (abs_nonneg _) (by positivity)
    exact (abs_le.1 this).1
  have e : (a.val * b.val).toInt = a.val.toInt * b.val.toInt := by
    rw [Int32.toInt_mul, i32_bmod (by omega) (by omega)]
  refine ⟨by show (_ && _ && decide _) = true; rw [ka, kb, decide_eq_true e]; rfl, rfl, ?_⟩
  show _ ≤ (a.val * b.val).toInt ∧ (a.val * b.val).toInt ≤ _
  rw [e]; push_cast; exact ⟨h2, h1⟩

theorem mono (ha : In32 a A) (h : A ≤ B) : In32 a B := ⟨ha.1, ha.2.mono h⟩

theorem to64 (ha : In32 a A) : In64 a.to64 A := ⟨ha.1, i64_self ha.2.to64⟩

theorem shr (ha : In32 a A) (k : ℕ) [OfNat Int32 k] (n : ℕ)
    (hk : ((OfNat.ofNat k : Int32).toBitVec.smod 32).toNat = n) : In32 (a >>> (.of (OfNat.ofNat k) : J32)) (A / 2 ^ n + 1) := by
  obtain ⟨ka, -, a1, a2⟩ := ha
  have e := i32_shr a.val (OfNat.ofNat k) n hk
  refine ⟨by show (_ && true) = true; rw [ka]; rfl, rfl, ?_⟩
  show _ ≤ (a.val >>> (OfNat.ofNat k : Int32)).toInt ∧ (a.val >>> (OfNat.ofNat k : Int32)).toInt ≤ _
  rw [e]
  have hp : (0 : ℤ) < 2 ^ n := by positivity
  have hA : (A : ℤ) < (A / 2 ^ n + 1) * 2 ^ n := by
    have := Int.lt_ediv_add_one_mul_self (A : ℤ) hp
    exact this
  push_cast
  constructor
  · rw [Int.le_ediv_iff_mul_le hp]; nlinarith
  · have := Int.ediv_le_ediv hp a2
    omega

theorem shl (ha : In32 a A) (k : ℕ) [OfNat Int32 k] (n : ℕ)
    (hk : ((OfNat.ofNat k : Int32).toBitVec.smod 32).toNat = n) (hk2 : (OfNat.ofNat k : Int32).toInt.toNat = n)
    (h : A * 2 ^ n < 2 ^ 31) :
    In32 (a <<< (.of (OfNat.ofNat k) : J32)) (A * 2 ^ n) := by
  obtain ⟨ka, -, a1, a2⟩ := ha
  have hp : (0 : ℤ) < 2 ^ n := by positivity
  have hz : (A : ℤ) * 2 ^ n < 2 ^ 31 := by exact_mod_cast h
  have b1 : a.val.toInt * 2 ^ n ≤ A * 2 ^ n := by nlinarith
  have b2 : -(A * 2 ^ n) ≤ a.val.toInt * 2 ^ n := by nlinarith
  have e := i32_shl' a.val (OfNat.ofNat k) n hk (by omega) (by omega)
  refine ⟨by show (_ && true && decide _) = true; rw [ka, decide_eq_true]; · rfl
             · show (a.val <<< (OfNat.ofNat k : Int32)).toInt = a.val.toInt * 2 ^ ((OfNat.ofNat k : Int32).toInt.toNat)
               rw [e, hk2], rfl, ?_⟩
  show _ ≤ (a.val <<< (OfNat.ofNat k : Int32)).toInt ∧ (a.val <<< (OfNat.ofNat k : Int32)).toInt ≤ _
  rw [e]; push_cast; exact ⟨b2, b1⟩

end In32

namespace In64
variable {a b : J64} {A B : ℕ}

theorem ofI {x : Int64} {v : ℤ} (h : I64 x v B) : In64 (.of x) B := ⟨rfl, i64_self h⟩

theorem lit (n : ℕ) [OfNat Int64 n] (B : ℕ) (h : (OfNat.ofNat n : Int64).toInt = B) : In64 (.of (OfNat.ofNat n)) B :=
  ofI (I64.ofLit _ B h)

theorem add (ha : In64 a A) (hb : In64 b B) (h : A + B < 2 ^ 63) : In64 (a + b) (A + B) := by
  have := ha.2.add hb.2 h
  exact ⟨by show (_ && _ && decide _) = true; rw [ha.1, hb.1, decide_eq_true this.1]; rfl, i64_self this⟩

theorem sub (ha : In64 a A) (hb : In64 b B) (h : A + B < 2 ^ 63) : In64 (a - b) (A + B) := by
  have := ha.2.sub hb.2 h
  exact ⟨by show (_ && _ && decide _) = true; rw [ha.1, hb.1, decide_eq_true this.1]; rfl, i64_self this⟩

theorem mul (ha : In64 a A) (hb : In64 b B) (h : A * B < 2 ^ 63) : In64 (a * b) (A * B) := by
  have := ha.2.mul hb.2 h
  exact ⟨by show (_ && _ && decide _) = true; rw [ha.1, hb.1, decide_eq_true this.1]; rfl, i64_self this⟩

theorem mono (ha : In64 a A) (h : A ≤ B) : In64 a B := ⟨ha.1, ha.2.mono h⟩

theorem to32 (ha : In64 a A) (h : A < 2 ^ 31) : In32 a.to32 A := by
  have := ha.2.to32 h
  exact ⟨by show (_ && decide _) = true; rw [ha.1, decide_eq_true this.1]; rfl, i32_self this⟩

theorem carry25 (ha : In64 a A) (h : A ≤ 7 * 2 ^ 60) : In64 ((a + 16777216) >>> 25) (A / 2 ^ 25 + 1) := by
  obtain ⟨c, h1, -⟩ := Proofs.carry25 ha.2 h
  have : In64 (a + 16777216) (A + 16777216) := ha.add (lit 16777216 16777216 rfl) (by omega)
  exact ⟨by show (_ && true) = true; rw [this.1]; rfl, i64_self h1⟩

theorem carry26 (ha : In64 a A) (h : A ≤ 7 * 2 ^ 60) : In64 ((a + 33554432) >>> 26) (A / 2 ^ 26 + 1) := by
  obtain ⟨c, h1, -⟩ := Proofs.carry26 ha.2 h
  have : In64 (a + 33554432) (A + 33554432) := ha.add (lit 33554432 33554432 rfl) (by omega)
  exact ⟨by show (_ && true) = true; rw [this.1]; rfl, i64_self h1⟩

theorem carry25s (ha : In64 a A) (h : A ≤ 7 * 2 ^ 60) : In64 (a - (((a + 16777216) >>> 25) <<< 25)) (2 ^ 24) := by
  obtain ⟨c, h1, h2⟩ := Proofs.carry25 ha.2 h
  have hc := ha.carry25 h
  have e := i64_shl' ((a.val + 16777216) >>> 25) 25 25 rfl (by rw [h1.1]; have := h1.2; omega) (by rw [h1.1]; have := h1.2; omega)
  refine ⟨sub64 ha.1 (shl64 hc.1 rfl (by rw [n25]; exact e)) ?_, i64_self h2⟩
  show (a.val - (((a.val + 16777216) >>> 25) <<< 25)).toInt = a.val.toInt - (((a.val + 16777216) >>> 25) <<< 25).toInt
  rw [h2.1, e, h1.1]

theorem carry26s (ha : In64 a A) (h : A ≤ 7 * 2 ^ 60) : In64 (a - (((a + 33554432) >>> 26) <<< 26)) (2 ^ 25) := by
  obtain ⟨c, h1, h2⟩ := Proofs.carry26 ha.2 h
  have hc := ha.carry26 h
  have e := i64_shl' ((a.val + 33554432) >>> 26) 26 26 rfl (by rw [h1.1]; have := h1.2; omega) (by rw [h1.1]; have := h1.2; omega)
  refine ⟨sub64 ha.1 (shl64 hc.1 rfl (by rw [n26]; exact e)) ?_, i64_self h2⟩
  show (a.val - (((a.val + 33554432) >>> 26) <<< 26)).toInt = a.val.toInt - (((a.val + 33554432) >>> 26) <<< 26).toInt
  rw [h2.1, e, h1.1]

end In64

theorem okFe {l0 l1 l2 l3 l4 l5 l6 l7 l8 l9 : J32} {B0 B1 B2 B3 B4 B5 B6 B7 B8 B9 : ℕ} (h0 : In32 l0 B0)
    (h1 : In32 l1 B1) (h2 : In32 l2 B2) (h3 : In32 l3 B3) (h4 : In32 l4 B4) (h5 : In32 l5 B5) (h6 : In32 l6 B6)
    (h7 : In32 l7 B7) (h8 : In32 l8 B8) (h9 : In32 l9 B9) :
    (⟨l0, l1, l2, l3, l4, l5, l6, l7, l8, l9⟩ : JFe).ok = true := by
  simp only [JFe.ok, h0.1, h1.1, h2.1, h3.1, h4.1, h5.1, h6.1, h7.1, h8.1, h9.1, Bool.and_self]

theorem In32.low26 {a : J32} {A : ℕ} (ha : In32 a A) (h : A ≤ 2 ^ 28) :
    In32 (a - ((a >>> (26 : J32)) <<< (26 : J32))) 67108863 := by
  obtain ⟨ka, -, a1, a2⟩ := ha
  have e1 := i32_shr a.val 26 26 (by decide)
  have hd := Int.emod_add_mul_ediv a.val.toInt (2 ^ 26)
  have h0 := Int.emod_nonneg a.val.toInt (show (2 : ℤ) ^ 26 ≠ 0 by norm_num)
  have h1 := Int.emod_lt_of_pos a.val.toInt (show (0 : ℤ) < 2 ^ 26 by norm_num)
  have e2 : ((a.val >>> 26) <<< 26).toInt = (a.val >>> 26).toInt * 2 ^ 26 :=
    i32_shl' _ 26 26 (by decide) (by rw [e1]; omega) (by rw [e1]; omega)
  have e3 : (a.val - ((a.val >>> 26) <<< 26)).toInt = a.val.toInt - ((a.val >>> 26) <<< 26).toInt := by
    rw [Int32.toInt_sub, i32_bmod (by rw [e2, e1]; omega) (by rw [e2, e1]; omega)]
  refine ⟨sub32 ka (shl32 (shr32 ka rfl) rfl (by rw [m26]; exact e2)) e3, rfl, ?_⟩
  show _ ≤ (a.val - ((a.val >>> 26) <<< 26)).toInt ∧ (a.val - ((a.val >>> 26) <<< 26)).toInt ≤ _
  rw [e3, e2, e1]; omega

theorem In32.low25 {a : J32} {A : ℕ} (ha : In32 a A) (h : A ≤ 2 ^ 28) :
    In32 (a - ((a >>> (25 : J32)) <<< (25 : J32))) 33554431 := by
  obtain ⟨ka, -, a1, a2⟩ := ha
  have e1 := i32_shr a.val 25 25 (by decide)
  have hd := Int.emod_add_mul_ediv a.val.toInt (2 ^ 25)
  have h0 := Int.emod_nonneg a.val.toInt (show (2 : ℤ) ^ 25 ≠ 0 by norm_num)
  have h1 := Int.emod_lt_of_pos a.val.toInt (show (0 : ℤ) < 2 ^ 25 by norm_num)
  have e2 : ((a.val >>> 25) <<< 25).toInt = (a.val >>> 25).toInt * 2 ^ 25 :=
    i32_shl' _ 25 25 (by decide) (by rw [e1]; omega) (by rw [e1]; omega)
  have e3 : (a.val - ((a.val >>> 25) <<< 25)).toInt = a.val.toInt - ((a.val >>> 25) <<< 25).toInt := by
    rw [Int32.toInt_sub, i32_bmod (by rw [e2, e1]; omega) (by rw [e2, e1]; omega)]
  refine ⟨sub32 ka (shl32 (shr32 ka rfl) rfl (by rw [m25]; exact e2)) e3, rfl, ?_⟩
  show _ ≤ (a.val - ((a.val >>> 25) <<< 25)).toInt ∧ (a.val - ((a.val >>> 25) <<< 25)).toInt ≤ _
  rw [e3, e2, e1]; omega

theorem In64.shl {x : Int64} {v : ℤ} {B : ℕ} (h : I64 x v B) (k : ℕ) [OfNat Int64 k] (n : ℕ)
    (hk : ((OfNat.ofNat k : Int64).toBitVec.smod 64).toNat = n) (hk2 : (OfNat.ofNat k : Int64).toInt.toNat = n)
    (hn : n ≤ 7) (hB : B ≤ 2 ^ 32) : In64 (J64.of x <<< (.of (OfNat.ofNat k) : J64)) 6917529027641081856 := by
  have e := h.shl (OfNat.ofNat k) n hk hn hB
  have e2 := h.1
  refine ⟨shl64 rfl rfl ?_, i64_self (e.mono (by norm_num [wideB]))⟩
  show (x <<< (OfNat.ofNat k : Int64)).toInt = x.toInt * 2 ^ ((OfNat.ofNat k : Int64).toInt.toNat)
  rw [e.1, hk2, e2]

set_option maxHeartbeats 4000000

theorem setReduced_ok {h0 h1 h2 h3 h4 h5 h6 h7 h8 h9 : J64} (H0 : In64 h0 6917529027641081856) (H1 : In64 h1 6917529027641081856) (H2 : In64 h2 6917529027641081856) (H3 : In64 h3 6917529027641081856) (H4 : In64 h4 6917529027641081856) (H5 : In64 h5 6917529027641081856) (H6 : In64 h6 6917529027641081856) (H7 : In64 h7 6917529027641081856) (H8 : In64 h8 6917529027641081856) (H9 : In64 h9 6917529027641081856) :
    (JFe.setReduced h0 h1 h2 h3 h4 h5 h6 h7 h8 h9).ok = true := by
  unfold JFe.setReduced
  extract_lets c0 h1_v0 h0_v0 c4 h5_v0 h4_v0 c1 h2_v0 h1_v1 c5 h6_v0 h5_v1 c2 h3_v0 h2_v1 c6 h7_v0 h6_v1 c3 h4_v1 h3_v1 c7 h8_v0 h7_v1 c4_v1 h5_v2 h4_v2 c8 h9_v0 h8_v1 c9 h0_v1 h9_v1 c0_v1 h1_v2 h0_v2
  have K_c0 : In64 c0 103079215105 := .mono (In64.carry26 H0 (by norm_num)) (by norm_num)
  have K_h1_v0 : In64 h1_v0 6917529130720296961 := .mono (H1.add K_c0 (by norm_num)) (by norm_num)
  have K_h0_v0 : In64 h0_v0 33554432 := .mono (In64.carry26s H0 (by norm_num)) (by norm_num)
  have K_c4 : In64 c4 103079215105 := .mono (In64.carry26 H4 (by norm_num)) (by norm_num)
  have K_h5_v0 : In64 h5_v0 6917529130720296961 := .mono (H5.add K_c4 (by norm_num)) (by norm_num)
  have K_h4_v0 : In64 h4_v0 33554432 := .mono (In64.carry26s H4 (by norm_num)) (by norm_num)
  have K_c1 : In64 c1 206158433281 := .mono (In64.carry25 K_h1_v0 (by norm_num)) (by norm_num)
  have K_h2_v0 : In64 h2_v0 6917529233799515137 := .mono (H2.add K_c1 (by norm_num)) (by norm_num)
  have K_h1_v1 : In64 h1_v1 16777216 := .mono (In64.carry25s K_h1_v0 (by norm_num)) (by norm_num)
  have K_c5 : In64 c5 206158433281 := .mono (In64.carry25 K_h5_v0 (by norm_num)) (by norm_num)
  have K_h6_v0 : In64 h6_v0 6917529233799515137 := .mono (H6.add K_c5 (by norm_num)) (by norm_num)
  have K_h5_v1 : In64 h5_v1 16777216 := .mono (In64.carry25s K_h5_v0 (by norm_num)) (by norm_num)
  have K_c2 : In64 c2 103079218177 := .mono (In64.carry26 K_h2_v0 (by norm_num)) (by norm_num)
  have K_h3_v0 : In64 h3_v0 6917529130720300033 := .mono (H3.add K_c2 (by norm_num)) (by norm_num)
  have K_h2_v1 : In64 h2_v1 33554432 := .mono (In64.carry26s K_h2_v0 (by norm_num)) (by norm_num)
  have K_c6 : In64 c6 103079218177 := .mono (In64.carry26 K_h6_v0 (by norm_num)) (by norm_num)
  have K_h7_v0 : In64 h7_v0 6917529130720300033 := .mono (H7.add K_c6 (by norm_num)) (by norm_num)
  have K_h6_v1 : In64 h6_v1 33554432 := .mono (In64.carry26s K_h6_v0 (by norm_num)) (by norm_num)
  have K_c3 : In64 c3 206158433281 := .mono (In64.carry25 K_h3_v0 (by norm_num)) (by norm_num)
  have K_h4_v1 : In64 h4_v1 206191987713 := .mono (K_h4_v0.add K_c3 (by norm_num)) (by norm_num)
  have K_h3_v1 : In64 h3_v1 16777216 := .mono (In64.carry25s K_h3_v0 (by norm_num)) (by norm_num)
  have K_c7 : In64 c7 206158433281 := .mono (In64.carry25 K_h7_v0 (by norm_num)) (by norm_num)
  have K_h8_v0 : In64 h8_v0 6917529233799515137 := .mono (H8.add K_c7 (by norm_num)) (by norm_num)
  have K_h7_v1 : In64 h7_v1 16777216 := .mono (In64.carry25s K_h7_v0 (by norm_num)) (by norm_num)
  have K_c4_v1 : In64 c4_v1 3073 := .mono (In64.carry26 K_h4_v1 (by norm_num)) (by norm_num)
  have K_h5_v2 : In64 h5_v2 16780289 := .mono (K_h5_v1.add K_c4_v1 (by norm_num)) (by norm_num)
  have K_h4_v2 : In64 h4_v2 33554432 := .mono (In64.carry26s K_h4_v1 (by norm_num)) (by norm_num)
  have K_c8 : In64 c8 103079218177 := .mono (In64.carry26 K_h8_v0 (by norm_num)) (by norm_num)
  have K_h9_v0 : In64 h9_v0 6917529130720300033 := .mono (H9.add K_c8 (by norm_num)) (by norm_num)
  have K_h8_v1 : In64 h8_v1 33554432 := .mono (In64.carry26s K_h8_v0 (by norm_num)) (by norm_num)
  have K_c9 : In64 c9 206158433281 := .mono (In64.carry25 K_h9_v0 (by norm_num)) (by norm_num)
  have K_h0_v1 : In64 h0_v1 3917043786771 := .mono (K_h0_v0.add (K_c9.mul (In64.lit 19 19 rfl) (by norm_num)) (by norm_num)) (by norm_num)
  have K_h9_v1 : In64 h9_v1 16777216 := .mono (In64.carry25s K_h9_v0 (by norm_num)) (by norm_num)
  have K_c0_v1 : In64 c0_v1 58369 := .mono (In64.carry26 K_h0_v1 (by norm_num)) (by norm_num)
  have K_h1_v2 : In64 h1_v2 16835585 := .mono (K_h1_v1.add K_c0_v1 (by norm_num)) (by norm_num)
  have K_h0_v2 : In64 h0_v2 33554432 := .mono (In64.carry26s K_h0_v1 (by norm_num)) (by norm_num)
  exact okFe (K_h0_v2.to32 (by norm_num)) (K_h1_v2.to32 (by norm_num)) (K_h2_v1.to32 (by norm_num)) (K_h3_v1.to32 (by norm_num)) (K_h4_v2.to32 (by norm_num)) (K_h5_v2.to32 (by norm_num)) (K_h6_v1.to32 (by norm_num)) (K_h7_v1.to32 (by norm_num)) (K_h8_v1.to32 (by norm_num)) (K_h9_v1.to32 (by norm_num))

theorem mul_ok {a b : Fe25} (ha : Limbs25 134217728 134217728 a) (hb : Limbs25 113025455 113025455 b) : (JFe.mul (.of a) (.of b)).ok = true := by
  obtain ⟨A0, A1, A2, A3, A4, A5, A6, A7, A8, A9⟩ := ha
  obtain ⟨B0, B1, B2, B3, B4, B5, B6, B7, B8, B9⟩ := hb
  unfold JFe.mul
  extract_lets a0 a1 a2 a3 a4 a5 a6 a7 a8 a9 a1_2 a3_2 a5_2 a7_2 a9_2 b0 b1 b2 b3 b4 b5 b6 b7 b8 b9 b1_19 b2_19 b3_19 b4_19 b5_19 b6_19 b7_19 b8_19 b9_19 h0 h1 h2 h3 h4 h5 h6 h7 h8 h9
  have K_a0 : In64 a0 134217728 := .mono ((In32.of A0)).to64 (by norm_num)
  have K_a1 : In64 a1 134217728 := .mono ((In32.of A1)).to64 (by norm_num)
  have K_a2 : In64 a2 134217728 := .mono ((In32.of A2)).to64 (by norm_num)
  have K_a3 : In64 a3 134217728 := .mono ((In32.of A3)).to64 (by norm_num)
  have K_a4 : In64 a4 134217728 := .mono ((In32.of A4)).to64 (by norm_num)
  have K_a5 : In64 a5 134217728 := .mono ((In32.of A5)).to64 (by norm_num)
  have K_a6 : In64 a6 134217728 := .mono ((In32.of A6)).to64 (by norm_num)
  have K_a7 : In64 a7 134217728 := .mono ((In32.of A7)).to64 (by norm_num)
  have K_a8 : In64 a8 134217728 := .mono ((In32.of A8)).to64 (by norm_num)
  have K_a9 : In64 a9 134217728 := .mono ((In32.of A9)).to64 (by norm_num)
  have K_a1_2 : In64 a1_2 268435456 := .mono (((In32.lit 2 2 rfl).mul (In32.of A1) (by norm_num))).to64 (by norm_num)
  have K_a3_2 : In64 a3_2 268435456 := .mono (((In32.lit 2 2 rfl).mul (In32.of A3) (by norm_num))).to64 (by norm_num)
  have K_a5_2 : In64 a5_2 268435456 := .mono (((In32.lit 2 2 rfl).mul (In32.of A5) (by norm_num))).to64 (by norm_num)
  have K_a7_2 : In64 a7_2 268435456 := .mono (((In32.lit 2 2 rfl).mul (In32.of A7) (by norm_num))).to64 (by norm_num)
  have K_a9_2 : In64 a9_2 268435456 := .mono (((In32.lit 2 2 rfl).mul (In32.of A9) (by norm_num))).to64 (by norm_num)
  have K_b0 : In64 b0 113025455 := .mono ((In32.of B0)).to64 (by norm_num)
  have K_b1 : In64 b1 113025455 := .mono ((In32.of B1)).to64 (by norm_num)
  have K_b2 : In64 b2 113025455 := .mono ((In32.of B2)).to64 (by norm_num)
  have K_b3 : In64 b3 113025455 := .mono ((In32.of B3)).to64 (by norm_num)
  have K_b4 : In64 b4 113025455 := .mono ((In32.of B4)).to64 (by norm_num)
  have K_b5 : In64 b5 113025455 := .mono ((In32.of B5)).to64 (by norm_num)
  have K_b6 : In64 b6 113025455 := .mono ((In32.of B6)).to64 (by norm_num)
  have K_b7 : In64 b7 113025455 := .mono ((In32.of B7)).to64 (by norm_num)
  have K_b8 : In64 b8 113025455 := .mono ((In32.of B8)).to64 (by norm_num)
  have K_b9 : In64 b9 113025455 := .mono ((In32.of B9)).to64 (by norm_num)
  have K_b1_19 : In64 b1_19 2147483645 := .mono (((In32.lit 19 19 rfl).mul (In32.of B1) (by norm_num))).to64 (by norm_num)
  have K_b2_19 : In64 b2_19 2147483645 := .mono (((In32.lit 19 19 rfl).mul (In32.of B2) (by norm_num))).to64 (by norm_num)
  have K_b3_19 : In64 b3_19 2147483645 := .mono (((In32.lit 19 19 rfl).mul (In32.of B3) (by norm_num))).to64 (by norm_num)
  have K_b4_19 : In64 b4_19 2147483645 := .mono (((In32.lit 19 19 rfl).mul (In32.of B4) (by norm_num))).to64 (by norm_num)
  have K_b5_19 : In64 b5_19 2147483645 := .mono (((In32.lit 19 19 rfl).mul (In32.of B5) (by norm_num))).to64 (by norm_num)
  have K_b6_19 : In64 b6_19 2147483645 := .mono (((In32.lit 19 19 rfl).mul (In32.of B6) (by norm_num))).to64 (by norm_num)
  have K_b7_19 : In64 b7_19 2147483645 := .mono (((In32.lit 19 19 rfl).mul (In32.of B7) (by norm_num))).to64 (by norm_num)
  have K_b8_19 : In64 b8_19 2147483645 := .mono (((In32.lit 19 19 rfl).mul (In32.of B8) (by norm_num))).to64 (by norm_num)
  have K_b9_19 : In64 b9_19 2147483645 := .mono (((In32.lit 19 19 rfl).mul (In32.of B9) (by norm_num))).to64 (by norm_num)
  have K_h0 : In64 h0 4050395280263086080 := .mono ((((((((((K_a0.mul K_b0 (by norm_num)).add (K_a1_2.mul K_b9_19 (by norm_num)) (by norm_num)).add (K_a2.mul K_b8_19 (by norm_num)) (by norm_num)).add (K_a3_2.mul K_b7_19 (by norm_num)) (by norm_num)).add (K_a4.mul K_b6_19 (by norm_num)) (by norm_num)).add (K_a5_2.mul K_b5_19 (by norm_num)) (by norm_num)).add (K_a6.mul K_b4_19 (by norm_num)) (by norm_num)).add (K_a7_2.mul K_b3_19 (by norm_num)) (by norm_num)).add (K_a8.mul K_b2_19 (by norm_num)) (by norm_num)).add (K_a9_2.mul K_b1_19 (by norm_num)) (by norm_num)) (by norm_num)
  have K_h1 : In64 h1 2336183045545000960 := .mono ((((((((((K_a0.mul K_b1 (by norm_num)).add (K_a1.mul K_b0 (by norm_num)) (by norm_num)).add (K_a2.mul K_b9_19 (by norm_num)) (by norm_num)).add (K_a3.mul K_b8_19 (by norm_num)) (by norm_num)).add (K_a4.mul K_b7_19 (by norm_num)) (by norm_num)).add (K_a5.mul K_b6_19 (by norm_num)) (by norm_num)).add (K_a6.mul K_b5_19 (by norm_num)) (by norm_num)).add (K_a7.mul K_b4_19 (by norm_num)) (by norm_num)).add (K_a8.mul K_b3_19 (by norm_num)) (by norm_num)).add (K_a9.mul K_b2_19 (by norm_num)) (by norm_num)) (by norm_num)
  have K_h2 : In64 h2 3231214212344709120 := .mono ((((((((((K_a0.mul K_b2 (by norm_num)).add (K_a1_2.mul K_b1 (by norm_num)) (by norm_num)).add (K_a2.mul K_b0 (by norm_num)) (by norm_num)).add (K_a3_2.mul K_b9_19 (by norm_num)) (by norm_num)).add (K_a4.mul K_b8_19 (by norm_num)) (by norm_num)).add (K_a5_2.mul K_b7_19 (by norm_num)) (by norm_num)).add (K_a6.mul K_b6_19 (by norm_num)) (by norm_num)).add (K_a7_2.mul K_b5_19 (by norm_num)) (by norm_num)).add (K_a8.mul K_b4_19 (by norm_num)) (by norm_num)).add (K_a9_2.mul K_b3_19 (by norm_num)) (by norm_num)) (by norm_num)
  have K_h3 : In64 h3 1790062333599416320 := .mono ((((((((((K_a0.mul K_b3 (by norm_num)).add (K_a1.mul K_b2 (by norm_num)) (by norm_num)).add (K_a2.mul K_b1 (by norm_num)) (by norm_num)).add (K_a3.mul K_b0 (by norm_num)) (by norm_num)).add (K_a4.mul K_b9_19 (by norm_num)) (by norm_num)).add (K_a5.mul K_b8_19 (by norm_num)) (by norm_num)).add (K_a6.mul K_b7_19 (by norm_num)) (by norm_num)).add (K_a7.mul K_b6_19 (by norm_num)) (by norm_num)).add (K_a8.mul K_b5_19 (by norm_num)) (by norm_num)).add (K_a9.mul K_b4_19 (by norm_num)) (by norm_num)) (by norm_num)
  have K_h4 : In64 h4 2412033144426332160 := .mono ((((((((((K_a0.mul K_b4 (by norm_num)).add (K_a1_2.mul K_b3 (by norm_num)) (by norm_num)).add (K_a2.mul K_b2 (by norm_num)) (by norm_num)).add (K_a3_2.mul K_b1 (by norm_num)) (by norm_num)).add (K_a4.mul K_b0 (by norm_num)) (by norm_num)).add (K_a5_2.mul K_b9_19 (by norm_num)) (by norm_num)).add (K_a6.mul K_b8_19 (by norm_num)) (by norm_num)).add (K_a7_2.mul K_b7_19 (by norm_num)) (by norm_num)).add (K_a8.mul K_b6_19 (by norm_num)) (by norm_num)).add (K_a9_2.mul K_b5_19 (by norm_num)) (by norm_num)) (by norm_num)
  have K_h5 : In64 h5 1243941621653831680 := .mono ((((((((((K_a0.mul K_b5 (by norm_num)).add (K_a1.mul K_b4 (by norm_num)) (by norm_num)).add (K_a2.mul K_b3 (by norm_num)) (by norm_num)).add (K_a3.mul K_b2 (by norm_num)) (by norm_num)).add (K_a4.mul K_b1 (by norm_num)) (by norm_num)).add (K_a5.mul K_b0 (by norm_num)) (by norm_num)).add (K_a6.mul K_b9_19 (by norm_num)) (by norm_num)).add (K_a7.mul K_b8_19 (by norm_num)) (by norm_num)).add (K_a8.mul K_b7_19 (by norm_num)) (by norm_num)).add (K_a9.mul K_b6_19 (by norm_num)) (by norm_num)) (by norm_num)
  have K_h6 : In64 h6 1592852076507955200 := .mono ((((((((((K_a0.mul K_b6 (by norm_num)).add (K_a1_2.mul K_b5 (by norm_num)) (by norm_num)).add (K_a2.mul K_b4 (by norm_num)) (by norm_num)).add (K_a3_2.mul K_b3 (by norm_num)) (by norm_num)).add (K_a4.mul K_b2 (by norm_num)) (by norm_num)).add (K_a5_2.mul K_b1 (by norm_num)) (by norm_num)).add (K_a6.mul K_b0 (by norm_num)) (by norm_num)).add (K_a7_2.mul K_b9_19 (by norm_num)) (by norm_num)).add (K_a8.mul K_b8_19 (by norm_num)) (by norm_num)).add (K_a9_2.mul K_b7_19 (by norm_num)) (by norm_num)) (by norm_num)
  have K_h7 : In64 h7 697820909708247040 := .mono ((((((((((K_a0.mul K_b7 (by norm_num)).add (K_a1.mul K_b6 (by norm_num)) (by norm_num)).add (K_a2.mul K_b5 (by norm_num)) (by norm_num)).add (K_a3.mul K_b4 (by norm_num)) (by norm_num)).add (K_a4.mul K_b3 (by norm_num)) (by norm_num)).add (K_a5.mul K_b2 (by norm_num)) (by norm_num)).add (K_a6.mul K_b1 (by norm_num)) (by norm_num)).add (K_a7.mul K_b0 (by norm_num)) (by norm_num)).add (K_a8.mul K_b9_19 (by norm_num)) (by norm_num)).add (K_a9.mul K_b8_19 (by norm_num)) (by norm_num)) (by norm_num)
  have K_h8 : In64 h8 773671008589578240 := .mono ((((((((((K_a0.mul K_b8 (by norm_num)).add (K_a1_2.mul K_b7 (by norm_num)) (by norm_num)).add (K_a2.mul K_b6 (by norm_num)) (by norm_num)).add (K_a3_2.mul K_b5 (by norm_num)) (by norm_num)).add (K_a4.mul K_b4 (by norm_num)) (by norm_num)).add (K_a5_2.mul K_b3 (by norm_num)) (by norm_num)).add (K_a6.mul K_b2 (by norm_num)) (by norm_num)).add (K_a7_2.mul K_b1 (by norm_num)) (by norm_num)).add (K_a8.mul K_b0 (by norm_num)) (by norm_num)).add (K_a9_2.mul K_b9_19 (by norm_num)) (by norm_num)) (by norm_num)
  have K_h9 : In64 h9 151700197762662400 := .mono ((((((((((K_a0.mul K_b9 (by norm_num)).add (K_a1.mul K_b8 (by norm_num)) (by norm_num)).add (K_a2.mul K_b7 (by norm_num)) (by norm_num)).add (K_a3.mul K_b6 (by norm_num)) (by norm_num)).add (K_a4.mul K_b5 (by norm_num)) (by norm_num)).add (K_a5.mul K_b4 (by norm_num)) (by norm_num)).add (K_a6.mul K_b3 (by norm_num)) (by norm_num)).add (K_a7.mul K_b2 (by norm_num)) (by norm_num)).add (K_a8.mul K_b1 (by norm_num)) (by norm_num)).add (K_a9.mul K_b0 (by norm_num)) (by norm_num)) (by norm_num)
  exact setReduced_ok (K_h0.mono (by norm_num)) (K_h1.mono (by norm_num)) (K_h2.mono (by norm_num)) (K_h3.mono (by norm_num)) (K_h4.mono (by norm_num)) (K_h5.mono (by norm_num)) (K_h6.mono (by norm_num)) (K_h7.mono (by norm_num)) (K_h8.mono (by norm_num)) (K_h9.mono (by norm_num))

theorem squareWide_in134217728 {fe : Fe25} (ha : Limbs25 134217728 134217728 fe) :
    In64 (JFe.squareWide (.of fe)).h0 4809844402031689728 ∧ In64 (JFe.squareWide (.of fe)).h1 2774217370460225536 ∧ In64 (JFe.squareWide (.of fe)).h2 3837066882519662592 ∧ In64 (JFe.squareWide (.of fe)).h3 2125699024118874112 ∧ In64 (JFe.squareWide (.of fe)).h4 2864289363007635456 ∧ In64 (JFe.squareWide (.of fe)).h5 1477180677777522688 ∧ In64 (JFe.squareWide (.of fe)).h6 1891511843495608320 ∧ In64 (JFe.squareWide (.of fe)).h7 828662331436171264 ∧ In64 (JFe.squareWide (.of fe)).h8 918734323983581184 ∧ In64 (JFe.squareWide (.of fe)).h9 180143985094819840 := by
  obtain ⟨A0, A1, A2, A3, A4, A5, A6, A7, A8, A9⟩ := ha
  unfold JFe.squareWide
  extract_lets f0 f1 f2 f3 f4 f5 f6 f7 f8 f9 f0_2 f1_2 f2_2 f3_2 f4_2 f5_2 f6_2 f7_2 f5_38 f6_19 f7_38 f8_19 f9_38 h0 h1 h2 h3 h4 h5 h6 h7 h8 h9
  have K_f0 : In64 f0 134217728 := .mono ((In32.of A0)).to64 (by norm_num)
  have K_f1 : In64 f1 134217728 := .mono ((In32.of A1)).to64 (by norm_num)
  have K_f2 : In64 f2 134217728 := .mono ((In32.of A2)).to64 (by norm_num)
  have K_f3 : In64 f3 134217728 := .mono ((In32.of A3)).to64 (by norm_num)
  have K_f4 : In64 f4 134217728 := .mono ((In32.of A4)).to64 (by norm_num)
  have K_f5 : In64 f5 134217728 := .mono ((In32.of A5)).to64 (by norm_num)
  have K_f6 : In64 f6 134217728 := .mono ((In32.of A6)).to64 (by norm_num)
  have K_f7 : In64 f7 134217728 := .mono ((In32.of A7)).to64 (by norm_num)
  have K_f8 : In64 f8 134217728 := .mono ((In32.of A8)).to64 (by norm_num)
  have K_f9 : In64 f9 134217728 := .mono ((In32.of A9)).to64 (by norm_num)
  have K_f0_2 : In64 f0_2 268435456 := .mono (((In32.lit 2 2 rfl).mul (In32.of A0) (by norm_num))).to64 (by norm_num)
  have K_f1_2 : In64 f1_2 268435456 := .mono (((In32.lit 2 2 rfl).mul (In32.of A1) (by norm_num))).to64 (by norm_num)
  have K_f2_2 : In64 f2_2 268435456 := .mono (((In32.lit 2 2 rfl).mul (In32.of A2) (by norm_num))).to64 (by norm_num)
  have K_f3_2 : In64 f3_2 268435456 := .mono (((In32.lit 2 2 rfl).mul (In32.of A3) (by norm_num))).to64 (by norm_num)
  have K_f4_2 : In64 f4_2 268435456 := .mono (((In32.lit 2 2 rfl).mul (In32.of A4) (by norm_num))).to64 (by norm_num)
  have K_f5_2 : In64 f5_2 268435456 := .mono (((In32.lit 2 2 rfl).mul (In32.of A5) (by norm_num))).to64 (by norm_num)
  have K_f6_2 : In64 f6_2 268435456 := .mono (((In32.lit 2 2 rfl).mul (In32.of A6) (by norm_num))).to64 (by norm_num)
  have K_f7_2 : In64 f7_2 268435456 := .mono (((In32.lit 2 2 rfl).mul (In32.of A7) (by norm_num))).to64 (by norm_num)
  have K_f5_38 : In64 f5_38 5100273664 := .mono ((In64.lit 38 38 rfl).mul K_f5 (by norm_num)) (by norm_num)
  have K_f6_19 : In64 f6_19 2550136832 := .mono ((In64.lit 19 19 rfl).mul K_f6 (by norm_num)) (by norm_num)
  have K_f7_38 : In64 f7_38 5100273664 := .mono ((In64.lit 38 38 rfl).mul K_f7 (by norm_num)) (by norm_num)
  have K_f8_19 : In64 f8_19 2550136832 := .mono ((In64.lit 19 19 rfl).mul K_f8 (by norm_num)) (by norm_num)
  have K_f9_38 : In64 f9_38 5100273664 := .mono ((In64.lit 38 38 rfl).mul K_f9 (by norm_num)) (by norm_num)
  have K_h0 : In64 h0 4809844402031689728 := .mono ((((((K_f0.mul K_f0 (by norm_num)).add (K_f1_2.mul K_f9_38 (by norm_num)) (by norm_num)).add (K_f2_2.mul K_f8_19 (by norm_num)) (by norm_num)).add (K_f3_2.mul K_f7_38 (by norm_num)) (by norm_num)).add (K_f4_2.mul K_f6_19 (by norm_num)) (by norm_num)).add (K_f5.mul K_f5_38 (by norm_num)) (by norm_num)) (by norm_num)
  have K_h1 : In64 h1 2774217370460225536 := .mono (((((K_f0_2.mul K_f1 (by norm_num)).add (K_f2.mul K_f9_38 (by norm_num)) (by norm_num)).add (K_f3_2.mul K_f8_19 (by norm_num)) (by norm_num)).add (K_f4.mul K_f7_38 (by norm_num)) (by norm_num)).add (K_f5_2.mul K_f6_19 (by norm_num)) (by norm_num)) (by norm_num)
  have K_h2 : In64 h2 3837066882519662592 := .mono ((((((K_f0_2.mul K_f2 (by norm_num)).add (K_f1_2.mul K_f1 (by norm_num)) (by norm_num)).add (K_f3_2.mul K_f9_38 (by norm_num)) (by norm_num)).add (K_f4_2.mul K_f8_19 (by norm_num)) (by norm_num)).add (K_f5_2.mul K_f7_38 (by norm_num)) (by norm_num)).add (K_f6.mul K_f6_19 (by norm_num)) (by norm_num)) (by norm_num)
  have K_h3 : In64 h3 2125699024118874112 := .mono (((((K_f0_2.mul K_f3 (by norm_num)).add (K_f1_2.mul K_f2 (by norm_num)) (by norm_num)).add (K_f4.mul K_f9_38 (by norm_num)) (by norm_num)).add (K_f5_2.mul K_f8_19 (by norm_num)) (by norm_num)).add (K_f6.mul K_f7_38 (by norm_num)) (by norm_num)) (by norm_num)
  have K_h4 : In64 h4 2864289363007635456 := .mono ((((((K_f0_2.mul K_f4 (by norm_num)).add (K_f1_2.mul K_f3_2 (by norm_num)) (by norm_num)).add (K_f2.mul K_f2 (by norm_num)) (by norm_num)).add (K_f5_2.mul K_f9_38 (by norm_num)) (by norm_num)).add (K_f6_2.mul K_f8_19 (by norm_num)) (by norm_num)).add (K_f7.mul K_f7_38 (by norm_num)) (by norm_num)) (by norm_num)
  have K_h5 : In64 h5 1477180677777522688 := .mono (((((K_f0_2.mul K_f5 (by norm_num)).add (K_f1_2.mul K_f4 (by norm_num)) (by norm_num)).add (K_f2_2.mul K_f3 (by norm_num)) (by norm_num)).add (K_f6.mul K_f9_38 (by norm_num)) (by norm_num)).add (K_f7_2.mul K_f8_19 (by norm_num)) (by norm_num)) (by norm_num)
  have K_h6 : In64 h6 1891511843495608320 := .mono ((((((K_f0_2.mul K_f6 (by norm_num)).add (K_f1_2.mul K_f5_2 (by norm_num)) (by norm_num)).add (K_f2_2.mul K_f4 (by norm_num)) (by norm_num)).add (K_f3_2.mul K_f3 (by norm_num)) (by norm_num)).add (K_f7_2.mul K_f9_38 (by norm_num)) (by norm_num)).add (K_f8.mul K_f8_19 (by norm_num)) (by norm_num)) (by norm_num)
  have K_h7 : In64 h7 828662331436171264 := .mono (((((K_f0_2.mul K_f7 (by norm_num)).add (K_f1_2.mul K_f6 (by norm_num)) (by norm_num)).add (K_f2_2.mul K_f5 (by norm_num)) (by norm_num)).add (K_f3_2.mul K_f4 (by norm_num)) (by norm_num)).add (K_f8.mul K_f9_38 (by norm_num)) (by norm_num)) (by norm_num)
  have K_h8 : In64 h8 918734323983581184 := .mono ((((((K_f0_2.mul K_f8 (by norm_num)).add (K_f1_2.mul K_f7_2 (by norm_num)) (by norm_num)).add (K_f2_2.mul K_f6 (by norm_num)) (by norm_num)).add (K_f3_2.mul K_f5_2 (by norm_num)) (by norm_num)).add (K_f4.mul K_f4 (by norm_num)) (by norm_num)).add (K_f9.mul K_f9_38 (by norm_num)) (by norm_num)) (by norm_num)
  have K_h9 : In64 h9 180143985094819840 := .mono (((((K_f0_2.mul K_f9 (by norm_num)).add (K_f1_2.mul K_f8 (by norm_num)) (by norm_num)).add (K_f2_2.mul K_f7 (by norm_num)) (by norm_num)).add (K_f3_2.mul K_f6 (by norm_num)) (by norm_num)).add (K_f4_2.mul K_f5 (by norm_num)) (by norm_num)) (by norm_num)
  exact ⟨K_h0, K_h1, K_h2, K_h3, K_h4, K_h5, K_h6, K_h7, K_h8, K_h9⟩

theorem square_ok {a : Fe25} (ha : Limbs25 134217728 134217728 a) : (JFe.square (.of a)).ok = true := by
  obtain ⟨W0, W1, W2, W3, W4, W5, W6, W7, W8, W9⟩ := squareWide_in134217728 ha
  unfold JFe.square
  extract_lets w
  exact setReduced_ok (W0.mono (by norm_num)) (W1.mono (by norm_num)) (W2.mono (by norm_num)) (W3.mono (by norm_num)) (W4.mono (by norm_num)) (W5.mono (by norm_num)) (W6.mono (by norm_num)) (W7.mono (by norm_num)) (W8.mono (by norm_num)) (W9.mono (by norm_num))

theorem squareWide_in113025455 {fe : Fe25} (ha : Limbs25 113025455 113025455 fe) :
    In64 (JFe.squareWide (.of fe)).h0 3410859178614525675 ∧ In64 (JFe.squareWide (.of fe)).h1 1967312035605381850 ∧ In64 (JFe.squareWide (.of fe)).h2 2721022490804846325 ∧ In64 (JFe.squareWide (.of fe)).h3 1507420910398928950 ∧ In64 (JFe.squareWide (.of fe)).h4 2031185802995166975 ∧ In64 (JFe.squareWide (.of fe)).h5 1047529785192476050 ∧ In64 (JFe.squareWide (.of fe)).h6 1341349115185487625 ∧ In64 (JFe.squareWide (.of fe)).h7 587638659986023150 ∧ In64 (JFe.squareWide (.of fe)).h8 651512427375808275 ∧ In64 (JFe.squareWide (.of fe)).h9 127747534779570250 := by
  obtain ⟨A0, A1, A2, A3, A4, A5, A6, A7, A8, A9⟩ := ha
  unfold JFe.squareWide
  extract_lets f0 f1 f2 f3 f4 f5 f6 f7 f8 f9 f0_2 f1_2 f2_2 f3_2 f4_2 f5_2 f6_2 f7_2 f5_38 f6_19 f7_38 f8_19 f9_38 h0 h1 h2 h3 h4 h5 h6 h7 h8 h9
  have K_f0 : In64 f0 113025455 := .mono ((In32.of A0)).to64 (by norm_num)
  have K_f1 : In64 f1 113025455 := .mono ((In32.of A1)).to64 (by norm_num)
  have K_f2 : In64 f2 113025455 := .mono ((In32.of A2)).to64 (by norm_num)
  have K_f3 : In64 f3 113025455 := .mono ((In32.of A3)).to64 (by norm_num)
  have K_f4 : In64 f4 113025455 := .mono ((In32.of A4)).to64 (by norm_num)
  have K_f5 : In64 f5 113025455 := .mono ((In32.of A5)).to64 (by norm_num)
  have K_f6 : In64 f6 113025455 := .mono ((In32.of A6)).to64 (by norm_num)
  have K_f7 : In64 f7 113025455 := .mono ((In32.of A7)).to64 (by norm_num)
  have K_f8 : In64 f8 113025455 := .mono ((In32.of A8)).to64 (by norm_num)
  have K_f9 : In64 f9 113025455 := .mono ((In32.of A9)).to64 (by norm_num)
  have K_f0_2 : In64 f0_2 226050910 := .mono (((In32.lit 2 2 rfl).mul (In32.of A0) (by norm_num))).to64 (by norm_num)
  have K_f1_2 : In64 f1_2 226050910 := .mono (((In32.lit 2 2 rfl).mul (In32.of A1) (by norm_num))).to64 (by norm_num)
  have K_f2_2 : In64 f2_2 226050910 := .mono (((In32.lit 2 2 rfl).mul (In32.of A2) (by norm_num))).to64 (by norm_num)
  have K_f3_2 : In64 f3_2 226050910 := .mono (((In32.lit 2 2 rfl).mul (In32.of A3) (by norm_num))).to64 (by norm_num)
  have K_f4_2 : In64 f4_2 226050910 := .mono (((In32.lit 2 2 rfl).mul (In32.of A4) (by norm_num))).to64 (by norm_num)
  have K_f5_2 : In64 f5_2 226050910 := .mono (((In32.lit 2 2 rfl).mul (In32.of A5) (by norm_num))).to64 (by norm_num)
  have K_f6_2 : In64 f6_2 226050910 := .mono (((In32.lit 2 2 rfl).mul (In32.of A6) (by norm_num))).to64 (by norm_num)
  have K_f7_2 : In64 f7_2 226050910 := .mono (((In32.lit 2 2 rfl).mul (In32.of A7) (by norm_num))).to64 (by norm_num)
  have K_f5_38 : In64 f5_38 4294967290 := .mono ((In64.lit 38 38 rfl).mul K_f5 (by norm_num)) (by norm_num)
  have K_f6_19 : In64 f6_19 2147483645 := .mono ((In64.lit 19 19 rfl).mul K_f6 (by norm_num)) (by norm_num)
  have K_f7_38 : In64 f7_38 4294967290 := .mono ((In64.lit 38 38 rfl).mul K_f7 (by norm_num)) (by norm_num)
  have K_f8_19 : In64 f8_19 2147483645 := .mono ((In64.lit 19 19 rfl).mul K_f8 (by norm_num)) (by norm_num)
  have K_f9_38 : In64 f9_38 4294967290 := .mono ((In64.lit 38 38 rfl).mul K_f9 (by norm_num)) (by norm_num)
  have K_h0 : In64 h0 3410859178614525675 := .mono ((((((K_f0.mul K_f0 (by norm_num)).add (K_f1_2.mul K_f9_38 (by norm_num)) (by norm_num)).add (K_f2_2.mul K_f8_19 (by norm_num)) (by norm_num)).add (K_f3_2.mul K_f7_38 (by norm_num)) (by norm_num)).add (K_f4_2.mul K_f6_19 (by norm_num)) (by norm_num)).add (K_f5.mul K_f5_38 (by norm_num)) (by norm_num)) (by norm_num)
  have K_h1 : In64 h1 1967312035605381850 := .mono (((((K_f0_2.mul K_f1 (by norm_num)).add (K_f2.mul K_f9_38 (by norm_num)) (by norm_num)).add (K_f3_2.mul K_f8_19 (by norm_num)) (by norm_num)).add (K_f4.mul K_f7_38 (by norm_num)) (by norm_num)).add (K_f5_2.mul K_f6_19 (by norm_num)) (by norm_num)) (by norm_num)
  have K_h2 : In64 h2 2721022490804846325 := .mono ((((((K_f0_2.mul K_f2 (by norm_num)).add (K_f1_2.mul K_f1 (by norm_num)) (by norm_num)).add (K_f3_2.mul K_f9_38 (by norm_num)) (by norm_num)).add (K_f4_2.mul K_f8_19 (by norm_num)) (by norm_num)).add (K_f5_2.mul K_f7_38 (by norm_num)) (by norm_num)).add (K_f6.mul K_f6_19 (by norm_num)) (by norm_num)) (by norm_num)
  have K_h3 : In64 h3 1507420910398928950 := .mono (((((K_f0_2.mul K_f3 (by norm_num)).add (K_f1_2.mul K_f2 (by norm_num)) (by norm_num)).add (K_f4.mul K_f9_38 (by norm_num)) (by norm_num)).add (K_f5_2.mul K_f8_19 (by norm_num)) (by norm_num)).add (K_f6.mul K_f7_38 (by norm_num)) (by norm_num)) (by norm_num)
  have K_h4 : In64 h4 2031185802995166975 := .mono ((((((K_f0_2.mul K_f4 (by norm_num)).add (K_f1_2.mul K_f3_2 (by norm_num)) (by norm_num)).add (K_f2.mul K_f2 (by norm_num)) (by norm_num)).add (K_f5_2.mul K_f9_38 (by norm_num)) (by norm_num)).add (K_f6_2.mul K_f8_19 (by norm_num)) (by norm_num)).add (K_f7.mul K_f7_38 (by norm_num)) (by norm_num)) (by norm_num)
  have K_h5 : In64 h5 1047529785192476050 := .mono (((((K_f0_2.mul K_f5 (by norm_num)).add (K_f1_2.mul K_f4 (by norm_num)) (by norm_num)).add (K_f2_2.mul K_f3 (by norm_num)) (by norm_num)).add (K_f6.mul K_f9_38 (by norm_num)) (by norm_num)).add (K_f7_2.mul K_f8_19 (by norm_num)) (by norm_num)) (by norm_num)
  have K_h6 : In64 h6 1341349115185487625 := .mono ((((((K_f0_2.mul K_f6 (by norm_num)).add (K_f1_2.mul K_f5_2 (by norm_num)) (by norm_num)).add (K_f2_2.mul K_f4 (by norm_num)) (by norm_num)).add (K_f3_2.mul K_f3 (by norm_num)) (by norm_num)).add (K_f7_2.mul K_f9_38 (by norm_num)) (by norm_num)).add (K_f8.mul K_f8_19 (by norm_num)) (by norm_num)) (by norm_num)
  have K_h7 : In64 h7 587638659986023150 := .mono (((((K_f0_2.mul K_f7 (by norm_num)).add (K_f1_2.mul K_f6 (by norm_num)) (by norm_num)).add (K_f2_2.mul K_f5 (by norm_num)) (by norm_num)).add (K_f3_2.mul K_f4 (by norm_num)) (by norm_num)).add (K_f8.mul K_f9_38 (by norm_num)) (by norm_num)) (by norm_num)
  have K_h8 : In64 h8 651512427375808275 := .mono ((((((K_f0_2.mul K_f8 (by norm_num)).add (K_f1_2.mul K_f7_2 (by norm_num)) (by norm_num)).add (K_f2_2.mul K_f6 (by norm_num)) (by norm_num)).add (K_f3_2.mul K_f5_2 (by norm_num)) (by norm_num)).add (K_f4.mul K_f4 (by norm_num)) (by norm_num)).add (K_f9.mul K_f9_38 (by norm_num)) (by norm_num)) (by norm_num)
  have K_h9 : In64 h9 127747534779570250 := .mono (((((K_f0_2.mul K_f9 (by norm_num)).add (K_f1_2.mul K_f8 (by norm_num)) (by norm_num)).add (K_f2_2.mul K_f7 (by norm_num)) (by norm_num)).add (K_f3_2.mul K_f6 (by norm_num)) (by norm_num)).add (K_f4_2.mul K_f5 (by norm_num)) (by norm_num)) (by norm_num)
  exact ⟨K_h0, K_h1, K_h2, K_h3, K_h4, K_h5, K_h6, K_h7, K_h8, K_h9⟩

theorem doubledSquare_ok {a : Fe25} (ha : Limbs25 113025455 113025455 a) : (JFe.doubledSquare (.of a)).ok = true := by
  obtain ⟨W0, W1, W2, W3, W4, W5, W6, W7, W8, W9⟩ := squareWide_in113025455 ha
  unfold JFe.doubledSquare
  extract_lets w
  exact setReduced_ok ((W0.add W0 (by norm_num)).mono (by norm_num)) ((W1.add W1 (by norm_num)).mono (by norm_num)) ((W2.add W2 (by norm_num)).mono (by norm_num)) ((W3.add W3 (by norm_num)).mono (by norm_num)) ((W4.add W4 (by norm_num)).mono (by norm_num)) ((W5.add W5 (by norm_num)).mono (by norm_num)) ((W6.add W6 (by norm_num)).mono (by norm_num)) ((W7.add W7 (by norm_num)).mono (by norm_num)) ((W8.add W8 (by norm_num)).mono (by norm_num)) ((W9.add W9 (by norm_num)).mono (by norm_num))

theorem reduce_ok {fe : Fe25} (ha : Limbs25 100663296 100663296 fe) : (JFe.reduce (.of fe)).ok = true := by
  obtain ⟨A0, A1, A2, A3, A4, A5, A6, A7, A8, A9⟩ := ha
  unfold JFe.reduce
  extract_lets f0 f1 f2 f3 f4 f5 f6 f7 f8 f9 q q_v1 q_v2 q_v3 q_v4 q_v5 q_v6 q_v7 q_v8 q_v9 q_v10 f0_v1 c0 f1_v1 f0_v2 c1 f2_v1 f1_v2 c2 f3_v1 f2_v2 c3 f4_v1 f3_v2 c4 f5_v1 f4_v2 c5 f6_v1 f5_v2 c6 f7_v1 f6_v2 c7 f8_v1 f7_v2 c8 f9_v1 f8_v2 c9 f9_v2
  have K_f0 : In32 f0 100663296 := .mono (In32.of A0) (by norm_num)
  have K_f1 : In32 f1 100663296 := .mono (In32.of A1) (by norm_num)
  have K_f2 : In32 f2 100663296 := .mono (In32.of A2) (by norm_num)
  have K_f3 : In32 f3 100663296 := .mono (In32.of A3) (by norm_num)
  have K_f4 : In32 f4 100663296 := .mono (In32.of A4) (by norm_num)
  have K_f5 : In32 f5 100663296 := .mono (In32.of A5) (by norm_num)
  have K_f6 : In32 f6 100663296 := .mono (In32.of A6) (by norm_num)
  have K_f7 : In32 f7 100663296 := .mono (In32.of A7) (by norm_num)
  have K_f8 : In32 f8 100663296 := .mono (In32.of A8) (by norm_num)
  have K_f9 : In32 f9 100663296 := .mono (In32.of A9) (by norm_num)
  have K_q : In32 q 58 := .mono ((((In32.lit 19 19 rfl).mul K_f9 (by norm_num)).add (In32.lit 16777216 16777216 rfl) (by norm_num)).shr 25 25 (by decide)) (by norm_num)
  have K_q_v1 : In32 q_v1 2 := .mono ((K_f0.add K_q (by norm_num)).shr 26 26 (by decide)) (by norm_num)
  have K_q_v2 : In32 q_v2 4 := .mono ((K_f1.add K_q_v1 (by norm_num)).shr 25 25 (by decide)) (by norm_num)
  have K_q_v3 : In32 q_v3 2 := .mono ((K_f2.add K_q_v2 (by norm_num)).shr 26 26 (by decide)) (by norm_num)
  have K_q_v4 : In32 q_v4 4 := .mono ((K_f3.add K_q_v3 (by norm_num)).shr 25 25 (by decide)) (by norm_num)
  have K_q_v5 : In32 q_v5 2 := .mono ((K_f4.add K_q_v4 (by norm_num)).shr 26 26 (by decide)) (by norm_num)
  have K_q_v6 : In32 q_v6 4 := .mono ((K_f5.add K_q_v5 (by norm_num)).shr 25 25 (by decide)) (by norm_num)
  have K_q_v7 : In32 q_v7 2 := .mono ((K_f6.add K_q_v6 (by norm_num)).shr 26 26 (by decide)) (by norm_num)
  have K_q_v8 : In32 q_v8 4 := .mono ((K_f7.add K_q_v7 (by norm_num)).shr 25 25 (by decide)) (by norm_num)
  have K_q_v9 : In32 q_v9 2 := .mono ((K_f8.add K_q_v8 (by norm_num)).shr 26 26 (by decide)) (by norm_num)
  have K_q_v10 : In32 q_v10 4 := .mono ((K_f9.add K_q_v9 (by norm_num)).shr 25 25 (by decide)) (by norm_num)
  have K_f0_v1 : In32 f0_v1 100663372 := .mono (K_f0.add ((In32.lit 19 19 rfl).mul K_q_v10 (by norm_num)) (by norm_num)) (by norm_num)
  have K_c0 : In32 c0 2 := .mono (K_f0_v1.shr 26 26 (by decide)) (by norm_num)
  have K_f1_v1 : In32 f1_v1 100663298 := .mono (K_f1.add K_c0 (by norm_num)) (by norm_num)
  have K_f0_v2 : In32 f0_v2 67108863 := .mono (In32.low26 K_f0_v1 (by norm_num)) (by norm_num)
  have K_c1 : In32 c1 4 := .mono (K_f1_v1.shr 25 25 (by decide)) (by norm_num)
  have K_f2_v1 : In32 f2_v1 100663300 := .mono (K_f2.add K_c1 (by norm_num)) (by norm_num)
  have K_f1_v2 : In32 f1_v2 33554431 := .mono (In32.low25 K_f1_v1 (by norm_num)) (by norm_num)
  have K_c2 : In32 c2 2 := .mono (K_f2_v1.shr 26 26 (by decide)) (by norm_num)
  have K_f3_v1 : In32 f3_v1 100663298 := .mono (K_f3.add K_c2 (by norm_num)) (by norm_num)
  have K_f2_v2 : In32 f2_v2 67108863 := .mono (In32.low26 K_f2_v1 (by norm_num)) (by norm_num)
  have K_c3 : In32 c3 4 := .mono (K_f3_v1.shr 25 25 (by decide)) (by norm_num)
  have K_f4_v1 : In32 f4_v1 100663300 := .mono (K_f4.add K_c3 (by norm_num)) (by norm_num)
  have K_f3_v2 : In32 f3_v2 33554431 := .mono (In32.low25 K_f3_v1 (by norm_num)) (by norm_num)
  have K_c4 : In32 c4 2 := .mono (K_f4_v1.shr 26 26 (by decide)) (by norm_num)
  have K_f5_v1 : In32 f5_v1 100663298 := .mono (K_f5.add K_c4 (by norm_num)) (by norm_num)
  have K_f4_v2 : In32 f4_v2 67108863 := .mono (In32.low26 K_f4_v1 (by norm_num)) (by norm_num)
  have K_c5 : In32 c5 4 := .mono (K_f5_v1.shr 25 25 (by decide)) (by norm_num)
  have K_f6_v1 : In32 f6_v1 100663300 := .mono (K_f6.add K_c5 (by norm_num)) (by norm_num)
  have K_f5_v2 : In32 f5_v2 33554431 := .mono (In32.low25 K_f5_v1 (by norm_num)) (by norm_num)
  have K_c6 : In32 c6 2 := .mono (K_f6_v1.shr 26 26 (by decide)) (by norm_num)
  have K_f7_v1 : In32 f7_v1 100663298 := .mono (K_f7.add K_c6 (by norm_num)) (by norm_num)
  have K_f6_v2 : In32 f6_v2 67108863 := .mono (In32.low26 K_f6_v1 (by norm_num)) (by norm_num)
  have K_c7 : In32 c7 4 := .mono (K_f7_v1.shr 25 25 (by decide)) (by norm_num)
  have K_f8_v1 : In32 f8_v1 100663300 := .mono (K_f8.add K_c7 (by norm_num)) (by norm_num)
  have K_f7_v2 : In32 f7_v2 33554431 := .mono (In32.low25 K_f7_v1 (by norm_num)) (by norm_num)
  have K_c8 : In32 c8 2 := .mono (K_f8_v1.shr 26 26 (by decide)) (by norm_num)
  have K_f9_v1 : In32 f9_v1 100663298 := .mono (K_f9.add K_c8 (by norm_num)) (by norm_num)
  have K_f8_v2 : In32 f8_v2 67108863 := .mono (In32.low26 K_f8_v1 (by norm_num)) (by norm_num)
  have K_c9 : In32 c9 4 := .mono (K_f9_v1.shr 25 25 (by decide)) (by norm_num)
  have K_f9_v2 : In32 f9_v2 33554431 := .mono (In32.low25 K_f9_v1 (by norm_num)) (by norm_num)
  exact okFe K_f0_v2 K_f1_v2 K_f2_v2 K_f3_v2 K_f4_v2 K_f5_v2 K_f6_v2 K_f7_v2 K_f8_v2 K_f9_v2

theorem normalize_ok (a : Fe25) : (JFe.normalize (.of a)).ok = true := by
  have h : ∀ x : Int32, In64 (J32.of x).to64 6917529027641081856 := by
    intro x
    have h1 := x.le_toInt; have h2 := x.toInt_lt
    have : In32 (J32.of x) (2 ^ 31) := .of ⟨by simpa using h1, by push_cast; omega⟩
    exact this.to64.mono (by norm_num)
  exact setReduced_ok (h _) (h _) (h _) (h _) (h _) (h _) (h _) (h _) (h _) (h _)

theorem add_ok {a b : Fe25} {A B C D : ℕ} (ha : Limbs25 A B a) (hb : Limbs25 C D b) (h1 : A + C < 2 ^ 31) (h2 : B + D < 2 ^ 31) :
    (JFe.add (.of a) (.of b)).ok = true := by
  obtain ⟨A0, A1, A2, A3, A4, A5, A6, A7, A8, A9⟩ := ha
  obtain ⟨B0, B1, B2, B3, B4, B5, B6, B7, B8, B9⟩ := hb
  exact okFe ((In32.of A0).add (In32.of B0) h1) ((In32.of A1).add (In32.of B1) h2) ((In32.of A2).add (In32.of B2) h1) ((In32.of A3).add (In32.of B3) h2) ((In32.of A4).add (In32.of B4) h1) ((In32.of A5).add (In32.of B5) h2) ((In32.of A6).add (In32.of B6) h1) ((In32.of A7).add (In32.of B7) h2) ((In32.of A8).add (In32.of B8) h1) ((In32.of A9).add (In32.of B9) h2)

theorem sub_ok {a b : Fe25} {A B C D : ℕ} (ha : Limbs25 A B a) (hb : Limbs25 C D b) (h1 : A + C < 2 ^ 31) (h2 : B + D < 2 ^ 31) :
    (JFe.sub (.of a) (.of b)).ok = true := by
  obtain ⟨A0, A1, A2, A3, A4, A5, A6, A7, A8, A9⟩ := ha
  obtain ⟨B0, B1, B2, B3, B4, B5, B6, B7, B8, B9⟩ := hb
  exact okFe ((In32.of A0).sub (In32.of B0) h1) ((In32.of A1).sub (In32.of B1) h2) ((In32.of A2).sub (In32.of B2) h1) ((In32.of A3).sub (In32.of B3) h2) ((In32.of A4).sub (In32.of B4) h1) ((In32.of A5).sub (In32.of B5) h2) ((In32.of A6).sub (In32.of B6) h1) ((In32.of A7).sub (In32.of B7) h2) ((In32.of A8).sub (In32.of B8) h1) ((In32.of A9).sub (In32.of B9) h2)

theorem neg_ok {a : Fe25} {A B : ℕ} (ha : Limbs25 A B a) (h1 : A < 2 ^ 31) (h2 : B < 2 ^ 31) :
    (JFe.neg (.of a)).ok = true := by
  obtain ⟨A0, A1, A2, A3, A4, A5, A6, A7, A8, A9⟩ := ha
  exact okFe ((In32.of A0).neg h1) ((In32.of A1).neg h2) ((In32.of A2).neg h1) ((In32.of A3).neg h2) ((In32.of A4).neg h1) ((In32.of A5).neg h2) ((In32.of A6).neg h1) ((In32.of A7).neg h2) ((In32.of A8).neg h1) ((In32.of A9).neg h2)

theorem setBytes_ok (b : Bytes 32) : (JFe.setBytes b).ok = true := by
  unfold JFe.setBytes
  exact setReduced_ok ((In64.ofI (load4_spec _ _ _ _)).mono (by norm_num))
    (In64.shl (load3_spec _ _ _) 6 6 (by decide) (by decide) (by norm_num) (by norm_num))
    (In64.shl (load3_spec _ _ _) 5 5 (by decide) (by decide) (by norm_num) (by norm_num))
    (In64.shl (load3_spec _ _ _) 3 3 (by decide) (by decide) (by norm_num) (by norm_num))
    (In64.shl (load3_spec _ _ _) 2 2 (by decide) (by decide) (by norm_num) (by norm_num))
    ((In64.ofI (load4_spec _ _ _ _)).mono (by norm_num))
    (In64.shl (load3_spec _ _ _) 7 7 (by decide) (by decide) (by norm_num) (by norm_num))
    (In64.shl (load3_spec _ _ _) 5 5 (by decide) (by decide) (by norm_num) (by norm_num))
    (In64.shl (load3_spec _ _ _) 4 4 (by decide) (by decide) (by norm_num) (by norm_num))
    (In64.shl (load3m_spec _ _ _) 2 2 (by decide) (by decide) (by norm_num) (by norm_num))

end Ristretto.Proofs.J25
