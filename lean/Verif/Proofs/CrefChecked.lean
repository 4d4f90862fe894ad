import Verif.Model.CrefChecked
import Verif.Proofs.CrefField

/-!
# The checked field functions of cref.c
-/

namespace Ristretto.Proofs.Cref
open Model Model.Cref
set_option autoImplicit false

theorem addC_val (f g : Fe25) : (addC f g).val = Cref.add f g := rfl
theorem subC_val (f g : Fe25) : (subC f g).val = Cref.sub f g := rfl
theorem negC_val (f : Fe25) : (negC f).val = Cref.neg f := rfl
theorem unpackC_val (s : Bytes 32) : (unpackC s).val = Cref.unpack s := rfl
theorem packC_val (f : Fe25) : (packC f).map Chk.val = (Cref.pack f).toList := rfl
theorem mulC_val (f g : Fe25) : (mulC f g).val = Cref.mul f g := rfl
theorem squareC_val (f : Fe25) : (squareC f).val = Cref.square f := rfl
theorem squareDoubleC_val (f : Fe25) : (squareDoubleC f).val = Cref.squareDouble f := rfl

/-! ## Bounds -/

/-- No overflow so far, and the absolute value is at most `B`. -/
def In32 (c : Chk Int32) (B : ℕ) : Prop := c.ok = true ∧ I32 c.val c.val.toInt B
/-- See `In32`. -/
def In64 (c : Chk Int64) (B : ℕ) : Prop := c.ok = true ∧ I64 c.val c.val.toInt B

theorem i32_self {x : Int32} {v : ℤ} {B : ℕ} (h : I32 x v B) : I32 x x.toInt B := by rw [h.1]; exact h
theorem i64_self {x : Int64} {v : ℤ} {B : ℕ} (h : I64 x v B) : I64 x x.toInt B := by rw [h.1]; exact h

namespace In32
variable {a b : Chk Int32} {A B : ℕ}

theorem of {x : Int32} (h : -(B : ℤ) ≤ x.toInt ∧ x.toInt ≤ B) : In32 (.of x) B := ⟨rfl, rfl, h⟩

theorem lit (n : ℕ) [OfNat Int32 n] (B : ℕ) (h : (OfNat.ofNat n : Int32).toInt = B) : In32 (.of (OfNat.ofNat n)) B :=
  ⟨rfl, rfl, by show _ ≤ (OfNat.ofNat n : Int32).toInt; omega, by show (OfNat.ofNat n : Int32).toInt ≤ _; omega⟩

theorem add (ha : In32 a A) (hb : In32 b B) (h : A + B < 2 ^ 31) : In32 (a + b) (A + B) := by
  have := ha.2.add hb.2 h
  exact ⟨by show (_ && _ && decide _) = true; rw [ha.1, hb.1, decide_eq_true this.1]; rfl, i32_self this⟩

theorem sub (ha : In32 a A) (hb : In32 b B) (h : A + B < 2 ^ 31) : In32 (a - b) (A + B) := by
  have := ha.2.sub hb.2 h
  exact ⟨by show (_ && _ && decide _) = true; rw [ha.1, hb.1, decide_eq_true this.1]; rfl, i32_self this⟩

theorem neg (ha : In32 a A) (h : A < 2 ^ 31) : In32 (-a) A := by
  have := ha.2.neg h
  exact ⟨by show (_ && decide _) = true; rw [ha.1, decide_eq_true this.1]; rfl, i32_self this⟩

theorem mul (ha : In32 a A) (hb : In32 b B) (h : A * B < 2 ^ 31) : In32 (a * b) (A * B) := by
  obtain ⟨ka, -, a1, a2⟩ := ha
  obtain ⟨kb, -, b1, b2⟩ := hb
  have hz : ((A * B : ℕ) : ℤ) < 2 ^ 31 := by exact_mod_cast h
  push_cast at hz
  have h1 : a.val.toInt * b.val.toInt ≤ A * B := by
    have : |a.val.toInt * b.val.toInt| ≤ A * B := by
      rw [abs_mul]; exact mul_le_mul (abs_le.2 ⟨a1, a2⟩) (abs_le.2 ⟨b1, b2⟩) (abs_nonneg _) (by positivity)
    exact (abs_le.1 this).2
  have h2 : -(A * B : ℤ) ≤ a.val.toInt * b.val.toInt := by
    have : |a.val.toInt * b.val.toInt| ≤ A * B := by
      rw [abs_mul]; exact mul_le_mul (abs_le.2 ⟨a1, a2⟩) (abs_le.2 ⟨b1, b2⟩) (abs_nonneg _) (by positivity)
    exact (abs_le.1 this).1
  have e : (a.val * b.val).toInt = a.val.toInt * b.val.toInt := by
    rw [Int32.toInt_mul, i32_bmod (by omega) (by omega)]
  refine ⟨by show (_ && _ && decide _) = true; rw [ka, kb, decide_eq_true e]; rfl, rfl, ?_⟩
  show _ ≤ (a.val * b.val).toInt ∧ (a.val * b.val).toInt ≤ _
  rw [e]; push_cast; exact ⟨h2, h1⟩

theorem mono (ha : In32 a A) (h : A ≤ B) : In32 a B := ⟨ha.1, ha.2.mono h⟩

theorem to64 (ha : In32 a A) : In64 a.toInt64 A := ⟨ha.1, i64_self ha.2.to64⟩

theorem shr (ha : In32 a A) (k : ℕ) [OfNat Int32 k] (n : ℕ)
    (hk : ((OfNat.ofNat k : Int32).toBitVec.smod 32).toNat = n) : In32 (a >>> (.of (OfNat.ofNat k) : Chk Int32)) (A / 2 ^ n + 1) := by
  obtain ⟨ka, -, a1, a2⟩ := ha
  have e := i32_shr a.val (OfNat.ofNat k) n hk
  refine ⟨by show (_ && true) = true; rw [ka]; rfl, rfl, ?_⟩
  show _ ≤ (a.val >>> (OfNat.ofNat k : Int32)).toInt ∧ (a.val >>> (OfNat.ofNat k : Int32)).toInt ≤ _
  rw [e]
  have hp : (0 : ℤ) < 2 ^ n := by positivity
  have hA : (A : ℤ) < (A / 2 ^ n + 1) * 2 ^ n := by
    have := Int.lt_ediv_add_one_mul_self (A : ℤ) hp
    exact this
  push_cast
  constructor
  · rw [Int.le_ediv_iff_mul_le hp]; nlinarith
  · have := Int.ediv_le_ediv hp a2
    omega

theorem shl (ha : In32 a A) (k : ℕ) [OfNat Int32 k] (n : ℕ)
    (hk : ((OfNat.ofNat k : Int32).toBitVec.smod 32).toNat = n) (h : A * 2 ^ n < 2 ^ 31) :
    In32 (a <<< (.of (OfNat.ofNat k) : Chk Int32)) (A * 2 ^ n) := by
  obtain ⟨ka, -, a1, a2⟩ := ha
  have hp : (0 : ℤ) < 2 ^ n := by positivity
  have hz : (A : ℤ) * 2 ^ n < 2 ^ 31 := by exact_mod_cast h
  have b1 : a.val.toInt * 2 ^ n ≤ A * 2 ^ n := by nlinarith
  have b2 : -(A * 2 ^ n) ≤ a.val.toInt * 2 ^ n := by nlinarith
  have e := i32_shl' a.val (OfNat.ofNat k) n hk (by omega) (by omega)
  refine ⟨by show (_ && true) = true; rw [ka]; rfl, rfl, ?_⟩
  show _ ≤ (a.val <<< (OfNat.ofNat k : Int32)).toInt ∧ (a.val <<< (OfNat.ofNat k : Int32)).toInt ≤ _
  rw [e]; push_cast; exact ⟨b2, b1⟩

end In32

namespace In64
variable {a b : Chk Int64} {A B : ℕ}

theorem ofI {x : Int64} {v : ℤ} (h : I64 x v B) : In64 (.of x) B := ⟨rfl, i64_self h⟩

theorem lit (n : ℕ) [OfNat Int64 n] (B : ℕ) (h : (OfNat.ofNat n : Int64).toInt = B) : In64 (.of (OfNat.ofNat n)) B :=
  ofI (I64.ofLit _ B h)

theorem add (ha : In64 a A) (hb : In64 b B) (h : A + B < 2 ^ 63) : In64 (a + b) (A + B) := by
  have := ha.2.add hb.2 h
  exact ⟨by show (_ && _ && decide _) = true; rw [ha.1, hb.1, decide_eq_true this.1]; rfl, i64_self this⟩

theorem sub (ha : In64 a A) (hb : In64 b B) (h : A + B < 2 ^ 63) : In64 (a - b) (A + B) := by
  have := ha.2.sub hb.2 h
  exact ⟨by show (_ && _ && decide _) = true; rw [ha.1, hb.1, decide_eq_true this.1]; rfl, i64_self this⟩

theorem mul (ha : In64 a A) (hb : In64 b B) (h : A * B < 2 ^ 63) : In64 (a * b) (A * B) := by
  have := ha.2.mul hb.2 h
  exact ⟨by show (_ && _ && decide _) = true; rw [ha.1, hb.1, decide_eq_true this.1]; rfl, i64_self this⟩

theorem mono (ha : In64 a A) (h : A ≤ B) : In64 a B := ⟨ha.1, ha.2.mono h⟩

theorem to32 (ha : In64 a A) (h : A < 2 ^ 31) : In32 a.toInt32 A := by
  have := ha.2.to32 h
  exact ⟨by show (_ && decide _) = true; rw [ha.1, decide_eq_true this.1]; rfl, i32_self this⟩

theorem carry25 (ha : In64 a A) (h : A ≤ 7 * 2 ^ 60) : In64 ((a + 16777216) >>> 25) (A / 2 ^ 25 + 1) := by
  obtain ⟨c, h1, -⟩ := Proofs.carry25 ha.2 h
  have : In64 (a + 16777216) (A + 16777216) := ha.add (lit 16777216 16777216 rfl) (by omega)
  exact ⟨by show (_ && true) = true; rw [this.1]; rfl, i64_self h1⟩

theorem carry26 (ha : In64 a A) (h : A ≤ 7 * 2 ^ 60) : In64 ((a + 33554432) >>> 26) (A / 2 ^ 26 + 1) := by
  obtain ⟨c, h1, -⟩ := Proofs.carry26 ha.2 h
  have : In64 (a + 33554432) (A + 33554432) := ha.add (lit 33554432 33554432 rfl) (by omega)
  exact ⟨by show (_ && true) = true; rw [this.1]; rfl, i64_self h1⟩

theorem carry25s (ha : In64 a A) (h : A ≤ 7 * 2 ^ 60) : In64 (a - (((a + 16777216) >>> 25) <<< 25)) (2 ^ 24) := by
  obtain ⟨c, h1, h2⟩ := Proofs.carry25 ha.2 h
  have hc := ha.carry25 h
  have e := i64_shl' ((a.val + 16777216) >>> 25) 25 25 rfl (by rw [h1.1]; have := h1.2; omega) (by rw [h1.1]; have := h1.2; omega)
  refine ⟨?_, i64_self h2⟩
  show (_ && (_ && true) && decide _) = true
  rw [ha.1, hc.1, decide_eq_true]
  · rfl
  · show (a.val - (((a.val + 16777216) >>> 25) <<< 25)).toInt = a.val.toInt - (((a.val + 16777216) >>> 25) <<< 25).toInt
    rw [h2.1, e, h1.1]

theorem carry26s (ha : In64 a A) (h : A ≤ 7 * 2 ^ 60) : In64 (a - (((a + 33554432) >>> 26) <<< 26)) (2 ^ 25) := by
  obtain ⟨c, h1, h2⟩ := Proofs.carry26 ha.2 h
  have hc := ha.carry26 h
  have e := i64_shl' ((a.val + 33554432) >>> 26) 26 26 rfl (by rw [h1.1]; have := h1.2; omega) (by rw [h1.1]; have := h1.2; omega)
  refine ⟨?_, i64_self h2⟩
  show (_ && (_ && true) && decide _) = true
  rw [ha.1, hc.1, decide_eq_true]
  · rfl
  · show (a.val - (((a.val + 33554432) >>> 26) <<< 26)).toInt = a.val.toInt - (((a.val + 33554432) >>> 26) <<< 26).toInt
    rw [h2.1, e, h1.1]

end In64

theorem okFe {l0 l1 l2 l3 l4 l5 l6 l7 l8 l9 : Chk Int32} {B0 B1 B2 B3 B4 B5 B6 B7 B8 B9 : ℕ} (h0 : In32 l0 B0)
    (h1 : In32 l1 B1) (h2 : In32 l2 B2) (h3 : In32 l3 B3) (h4 : In32 l4 B4) (h5 : In32 l5 B5) (h6 : In32 l6 B6)
    (h7 : In32 l7 B7) (h8 : In32 l8 B8) (h9 : In32 l9 B9) :
    (⟨l0, l1, l2, l3, l4, l5, l6, l7, l8, l9⟩ : ChkFe).ok = true := by
  simp only [ChkFe.ok, h0.1, h1.1, h2.1, h3.1, h4.1, h5.1, h6.1, h7.1, h8.1, h9.1, Bool.and_self]

theorem ok_byte (a : Chk Int32) : a.toByte.ok = a.ok := rfl
theorem ok_or (a b : Chk Int32) : (a ||| b).ok = (a.ok && b.ok) := rfl
theorem ok_shl (a b : Chk Int32) : (a <<< b).ok = (a.ok && b.ok) := rfl
theorem ok_shr (a b : Chk Int32) : (a >>> b).ok = (a.ok && b.ok) := rfl

end Ristretto.Proofs.Cref
