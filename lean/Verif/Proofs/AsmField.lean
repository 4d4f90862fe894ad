import Verif.Proofs.Asm
import Verif.Proofs.Lawful

set_option autoImplicit false

namespace Ristretto.Proofs.Asm
open Ristretto Ristretto.Model Ristretto.Model.Alias Ristretto.Model.Asm Ristretto.Proofs.Fe51

theorem hi51 (c : UInt64 × UInt64) (h : v128 c < 2 ^ 115) :
    ((c.1 <<< 13) ||| (c.2 >>> 51)).toNat = v128 c / 2 ^ 51 := by
  rw [UInt64.or_comm]; exact shift51 c h

theorem reduceAsm_spec (c0 c1 c2 c3 c4 : UInt64 × UInt64)
    (h0 : v128 c0 < 100 * 2 ^ 108) (h1 : v128 c1 < 100 * 2 ^ 108)
    (h2 : v128 c2 < 100 * 2 ^ 108) (h3 : v128 c3 < 100 * 2 ^ 108)
    (h4 : v128 c4 < 6 * 2 ^ 108) :
    Bd U (reduceAsm c0 c1 c2 c3 c4) ∧
    ∃ q, nat (reduceAsm c0 c1 c2 c3 c4) + q * 2 ^ 255 = v128 c0 + 2 ^ 51 * v128 c1 +
      2 ^ 102 * v128 c2 + 2 ^ 153 * v128 c3 + 2 ^ 204 * v128 c4 + 19 * q := by
  have e0 := hi51 c0 (by omega)
  have e1 := hi51 c1 (by omega)
  have e2 := hi51 c2 (by omega)
  have e3 := hi51 c3 (by omega)
  have e4 := hi51 c4 (by omega)
  have l0 := low51 c0
  have l1 := low51 c1
  have l2 := low51 c2
  have l3 := low51 c3
  have l4 := low51 c4
  simp only [reduceAsm, Bd, nat]
  have hm : (2251799813685247 : UInt64) = 0x7ffffffffffff := rfl
  rw [hm]
  generalize c0.2 &&& 0x7ffffffffffff = x0 at *
  generalize c1.2 &&& 0x7ffffffffffff = x1 at *
  generalize c2.2 &&& 0x7ffffffffffff = x2 at *
  generalize c3.2 &&& 0x7ffffffffffff = x3 at *
  generalize c4.2 &&& 0x7ffffffffffff = x4 at *
  generalize (c0.1 <<< 13) ||| (c0.2 >>> 51) = y0 at *
  generalize (c1.1 <<< 13) ||| (c1.2 >>> 51) = y1 at *
  generalize (c2.1 <<< 13) ||| (c2.2 >>> 51) = y2 at *
  generalize (c3.1 <<< 13) ||| (c3.2 >>> 51) = y3 at *
  generalize (c4.1 <<< 13) ||| (c4.2 >>> 51) = y4 at *
  generalize v128 c0 = n0 at *
  generalize v128 c1 = n1 at *
  generalize v128 c2 = n2 at *
  generalize v128 c3 = n3 at *
  generalize v128 c4 = n4 at *
  have k19 : (19 : UInt64).toNat = 19 := rfl
  have hy4 : (y4 * 19).toNat = n4 / 2 ^ 51 * 19 := by
    rw [toNat_mul_of_lt _ _ (by rw [e4, k19]; omega), e4, k19]
  have r0 : (x0 + y4 * 19).toNat = n0 % 2 ^ 51 + n4 / 2 ^ 51 * 19 := by
    rw [toNat_add_of_lt _ _ (by rw [l0, hy4]; omega), l0, hy4]
  generalize x0 + y4 * 19 = R0 at *
  have step : ∀ (x y r : UInt64) (n n' : ℕ), x.toNat = n % 2 ^ 51 → y.toNat = n' / 2 ^ 51 →
      n' < 100 * 2 ^ 108 → (x + y + r >>> 51).toNat = n % 2 ^ 51 + n' / 2 ^ 51 + r.toNat / 2 ^ 51 := by
    intro x y r n n' hx hy hn
    have hr := r.toNat_lt
    have a1 : (x + y).toNat = n % 2 ^ 51 + n' / 2 ^ 51 := by
      rw [toNat_add_of_lt _ _ (by rw [hx, hy]; omega), hx, hy]
    rw [toNat_add_of_lt _ _ (by rw [a1, shr51]; omega), a1, shr51]
  have r1 := step x1 y0 R0 n1 n0 l1 e0 h0
  generalize x1 + y0 + R0 >>> 51 = R1 at *
  have r2 := step x2 y1 R1 n2 n1 l2 e1 h1
  generalize x2 + y1 + R1 >>> 51 = R2 at *
  have r3 := step x3 y2 R2 n3 n2 l3 e2 h2
  generalize x3 + y2 + R2 >>> 51 = R3 at *
  have r4 := step x4 y3 R3 n4 n3 l4 e3 h3
  generalize x4 + y3 + R3 >>> 51 = R4 at *
  have q4 : ((R0 &&& (0x7ffffffffffff : UInt64)) + R4 >>> 51 * 19).toNat = R0.toNat % 2 ^ 51 + R4.toNat / 2 ^ 51 * 19 := by
    have hR4 := R4.toNat_lt
    have a : (R4 >>> 51 * 19).toNat = R4.toNat / 2 ^ 51 * 19 := by
      rw [toNat_mul_of_lt _ _ (by rw [shr51, k19]; omega), shr51, k19]
    rw [toNat_add_of_lt _ _ (by rw [a, and51]; omega), a, and51]
  have hR4 := R4.toNat_lt
  rw [q4, and51, and51, and51, and51]
  generalize R0.toNat = t0 at *
  generalize R1.toNat = t1 at *
  generalize R2.toNat = t2 at *
  generalize R3.toNat = t3 at *
  generalize R4.toNat = t4 at *
  clear step q4
  refine ⟨?_, n4 / 2 ^ 51 + t4 / 2 ^ 51, ?_⟩
  · simp only [U]
    refine ⟨?_, ?_, ?_, ?_, ?_⟩ <;> omega
  · omega

theorem asmMul_specW (a b : Fe51) (ha : Bd (8 * U) a) (hb : Bd (8 * U) b) :
    Bd U (asmMul a b) ∧ eval (asmMul a b) = eval a * eval b := by
  obtain ⟨a0, a1, a2, a3, a4⟩ := a
  obtain ⟨b0, b1, b2, b3, b4⟩ := b
  obtain ⟨ha0, ha1, ha2, ha3, ha4⟩ := ha
  obtain ⟨hb0, hb1, hb2, hb3, hb4⟩ := hb
  have hU : 8 * U = 2 ^ 54 + 2 ^ 21 := rfl
  simp only [hU] at ha0 ha1 ha2 ha3 ha4 hb0 hb1 hb2 hb3 hb4
  have k19 : (19 : UInt64).toNat = 19 := rfl
  have s1 := scale a1 19 (by rw [k19]; omega)
  have s2 := scale a2 19 (by rw [k19]; omega)
  have s3 := scale a3 19 (by rw [k19]; omega)
  have s4 := scale a4 19 (by rw [k19]; omega)
  rw [k19] at s1 s2 s3 s4
  unfold asmMul
  simp only [eval, nat]
  have B : ∀ {x y : UInt64}, x.toNat ≤ 2 ^ 54 + 2 ^ 21 → y.toNat ≤ 2 ^ 54 + 2 ^ 21 → x.toNat * y.toNat ≤ 2 ^ 108 + 2 ^ 77 :=
    fun hx hy => (Nat.mul_le_mul hx hy).trans (by norm_num)
  have b00 := B ha0 hb0
  have b01 := B ha0 hb1
  have b02 := B ha0 hb2
  have b03 := B ha0 hb3
  have b04 := B ha0 hb4
  have b10 := B ha1 hb0
  have b11 := B ha1 hb1
  have b12 := B ha1 hb2
  have b13 := B ha1 hb3
  have b14 := B ha1 hb4
  have b20 := B ha2 hb0
  have b21 := B ha2 hb1
  have b22 := B ha2 hb2
  have b23 := B ha2 hb3
  have b24 := B ha2 hb4
  have b30 := B ha3 hb0
  have b31 := B ha3 hb1
  have b32 := B ha3 hb2
  have b33 := B ha3 hb3
  have b34 := B ha3 hb4
  have b40 := B ha4 hb0
  have b41 := B ha4 hb1
  have b42 := B ha4 hb2
  have b43 := B ha4 hb3
  have b44 := B ha4 hb4
  have e0 := mulAcc5 a0 b0 (a1 * 19) b4 (a2 * 19) b3 (a3 * 19) b2 (a4 * 19) b1
    (by omega) (by rw [s1, Nat.mul_assoc]; omega) (by rw [s2, Nat.mul_assoc]; omega)
    (by rw [s3, Nat.mul_assoc]; omega) (by rw [s4, Nat.mul_assoc]; omega)
  have e1 := mulAcc5 a0 b1 a1 b0 (a2 * 19) b4 (a3 * 19) b3 (a4 * 19) b2
    (by omega) (by omega) (by rw [s2, Nat.mul_assoc]; omega)
    (by rw [s3, Nat.mul_assoc]; omega) (by rw [s4, Nat.mul_assoc]; omega)
  have e2 := mulAcc5 a0 b2 a1 b1 a2 b0 (a3 * 19) b4 (a4 * 19) b3
    (by omega) (by omega) (by omega)
    (by rw [s3, Nat.mul_assoc]; omega) (by rw [s4, Nat.mul_assoc]; omega)
  have e3 := mulAcc5 a0 b3 a1 b2 a2 b1 a3 b0 (a4 * 19) b4
    (by omega) (by omega) (by omega) (by omega) (by rw [s4, Nat.mul_assoc]; omega)
  have e4 := mulAcc5 a0 b4 a1 b3 a2 b2 a3 b1 a4 b0
    (by omega) (by omega) (by omega) (by omega) (by omega)
  simp only [s1, s2, s3, s4, Nat.mul_assoc] at e0 e1 e2 e3
  obtain ⟨hB, q, hq⟩ := reduceAsm_spec _ _ _ _ _ (by rw [e0]; omega) (by rw [e1]; omega)
    (by rw [e2]; omega) (by rw [e3]; omega) (by rw [e4]; omega)
  refine ⟨hB, ?_⟩
  rw [e0, e1, e2, e3, e4] at hq
  simp only [nat] at hq
  have hq' := congrArg (fun n : ℕ => (n : ZMod p)) hq
  push_cast at hq' ⊢
  have hp := p_cast
  generalize (a0.toNat : ZMod p) = A0 at *
  generalize (a1.toNat : ZMod p) = A1 at *
  generalize (a2.toNat : ZMod p) = A2 at *
  generalize (a3.toNat : ZMod p) = A3 at *
  generalize (a4.toNat : ZMod p) = A4 at *
  generalize (b0.toNat : ZMod p) = B0 at *
  generalize (b1.toNat : ZMod p) = B1 at *
  generalize (b2.toNat : ZMod p) = B2 at *
  generalize (b3.toNat : ZMod p) = B3 at *
  generalize (b4.toNat : ZMod p) = B4 at *
  linear_combination hq' - ((q : ZMod p) +
    (A1 * B4 + A2 * B3 + A3 * B2 + A4 * B1) + 2 ^ 51 * (A2 * B4 + A3 * B3 + A4 * B2) +
    2 ^ 102 * (A3 * B4 + A4 * B3) + 2 ^ 153 * (A4 * B4)) * hp

theorem shl1 (x : UInt64) (h : x.toNat ≤ 2 ^ 54 + 2 ^ 21) : (x <<< 1).toNat = 2 * x.toNat := by
  rw [UInt64.toNat_shiftLeft]
  have : (1 : UInt64).toNat % 64 = 1 := rfl
  rw [this, Nat.shiftLeft_eq]
  omega

theorem asmSquare_specW (a : Fe51) (ha : Bd (8 * U) a) :
    Bd U (asmSquare a) ∧ eval (asmSquare a) = eval a * eval a := by
  obtain ⟨a0, a1, a2, a3, a4⟩ := a
  obtain ⟨ha0, ha1, ha2, ha3, ha4⟩ := ha
  have hU : 8 * U = 2 ^ 54 + 2 ^ 21 := rfl
  simp only [hU] at ha0 ha1 ha2 ha3 ha4
  have k19 : (19 : UInt64).toNat = 19 := rfl
  have k38 : (38 : UInt64).toNat = 38 := rfl
  have s3 := scale a3 19 (by rw [k19]; omega)
  have s4 := scale a4 19 (by rw [k19]; omega)
  have r1 := scale a1 38 (by rw [k38]; omega)
  have r2 := scale a2 38 (by rw [k38]; omega)
  have r3 := scale a3 38 (by rw [k38]; omega)
  have d0 := shl1 a0 ha0
  have d1 := shl1 a1 ha1
  rw [k19] at s3 s4
  rw [k38] at r1 r2 r3
  unfold asmSquare
  simp only [eval, nat]
  have B : ∀ {x y : UInt64}, x.toNat ≤ 2 ^ 54 + 2 ^ 21 → y.toNat ≤ 2 ^ 54 + 2 ^ 21 → x.toNat * y.toNat ≤ 2 ^ 108 + 2 ^ 77 :=
    fun hx hy => (Nat.mul_le_mul hx hy).trans (by norm_num)
  have b00 := B ha0 ha0
  have b01 := B ha0 ha1
  have b02 := B ha0 ha2
  have b03 := B ha0 ha3
  have b04 := B ha0 ha4
  have b11 := B ha1 ha1
  have b12 := B ha1 ha2
  have b13 := B ha1 ha3
  have b14 := B ha1 ha4
  have b22 := B ha2 ha2
  have b23 := B ha2 ha3
  have b24 := B ha2 ha4
  have b33 := B ha3 ha3
  have b34 := B ha3 ha4
  have b44 := B ha4 ha4
  have e0 := mulAcc3 a0 a0 (a1 * 38) a4 (a2 * 38) a3
    (by omega) (by rw [r1, Nat.mul_assoc]; omega) (by rw [r2, Nat.mul_assoc]; omega)
  have e1 := mulAcc3 (a0 <<< 1) a1 (a2 * 38) a4 (a3 * 19) a3
    (by rw [d0, Nat.mul_assoc]; omega) (by rw [r2, Nat.mul_assoc]; omega)
    (by rw [s3, Nat.mul_assoc]; omega)
  have e2 := mulAcc3 (a0 <<< 1) a2 a1 a1 (a3 * 38) a4
    (by rw [d0, Nat.mul_assoc]; omega) (by omega) (by rw [r3, Nat.mul_assoc]; omega)
  have e3 := mulAcc3 (a0 <<< 1) a3 (a1 <<< 1) a2 (a4 * 19) a4
    (by rw [d0, Nat.mul_assoc]; omega) (by rw [d1, Nat.mul_assoc]; omega)
    (by rw [s4, Nat.mul_assoc]; omega)
  have e4 := mulAcc3 (a0 <<< 1) a4 (a1 <<< 1) a3 a2 a2
    (by rw [d0, Nat.mul_assoc]; omega) (by rw [d1, Nat.mul_assoc]; omega) (by omega)
  simp only [r1, r2, r3, s3, s4, d0, d1, Nat.mul_assoc] at e0 e1 e2 e3 e4
  obtain ⟨hB, q, hq⟩ := reduceAsm_spec _ _ _ _ _ (by rw [e0]; omega) (by rw [e1]; omega)
    (by rw [e2]; omega) (by rw [e3]; omega) (by rw [e4]; omega)
  refine ⟨hB, ?_⟩
  rw [e0, e1, e2, e3, e4] at hq
  simp only [nat] at hq
  have hq' := congrArg (fun n : ℕ => (n : ZMod p)) hq
  push_cast at hq' ⊢
  have hp := p_cast
  generalize (a0.toNat : ZMod p) = A0 at *
  generalize (a1.toNat : ZMod p) = A1 at *
  generalize (a2.toNat : ZMod p) = A2 at *
  generalize (a3.toNat : ZMod p) = A3 at *
  generalize (a4.toNat : ZMod p) = A4 at *
  linear_combination hq' - ((q : ZMod p) +
    (A1 * A4 + A2 * A3 + A3 * A2 + A4 * A1) + 2 ^ 51 * (A2 * A4 + A3 * A3 + A4 * A2) +
    2 ^ 102 * (A3 * A4 + A4 * A3) + 2 ^ 153 * (A4 * A4)) * hp

theorem asmMul_spec (a b : Fe51) (ha : Bd (2 ^ 54) a) (hb : Bd (2 ^ 54) b) :
    Bd U (asmMul a b) ∧ eval (asmMul a b) = eval a * eval b :=
  asmMul_specW a b (ha.mono (by decide)) (hb.mono (by decide))

theorem asmSquare_spec (a : Fe51) (ha : Bd (2 ^ 54) a) :
    Bd U (asmSquare a) ∧ eval (asmSquare a) = eval a * eval a := asmSquare_specW a (ha.mono (by decide))

/-! ### The assembly build is lawful -/

theorem mulF_eq (a b : Fe51) : mulF a b = asmMul a b := by
  unfold mulF Asm.mulI
  rw [feMulI_eq]
  simp [assign]

theorem squareF_eq (a : Fe51) : squareF a = asmSquare a := by
  unfold squareF Asm.squareI
  rw [feSquareI_eq]
  simp [assign]

theorem doubledSquareI_eq (reg : Reg → Val) (fe a : Addr) (m : FMem) :
    Asm.doubledSquareI reg fe a m =
      some (assign m fe (Model.Fe51.add (asmSquare (m a)) (asmSquare (m a)))) := by
  unfold Asm.doubledSquareI
  rw [feSquareI_eq, Option.map_some, Alias.addI_eq]
  congr 1
  funext x
  simp only [assign, if_true]
  split <;> rfl

theorem doubledSquareF_eq (a : Fe51) :
    doubledSquareF a = Model.Fe51.add (asmSquare a) (asmSquare a) := by
  unfold doubledSquareF
  rw [doubledSquareI_eq]
  simp [assign]

abbrev L51 : LawfulField Fe51 := inferInstance

theorem bd6 {a : Fe51} (h : Bd (6 * U) a) : Bd (2 ^ 54) a := h.mono (by decide)

theorem asm_mul_spec {a b : Fe51} (ha : Bd (6 * U) a) (hb : Bd (6 * U) b) :
    Bd (1 * U) (mulF a b) ∧ eval (mulF a b) = eval a * eval b := by
  rw [mulF_eq, Nat.one_mul]; exact asmMul_spec a b (bd6 ha) (bd6 hb)

theorem asm_square_spec {a : Fe51} (ha : Bd (6 * U) a) :
    Bd (1 * U) (squareF a) ∧ eval (squareF a) = eval a * eval a := by
  rw [squareF_eq, Nat.one_mul]; exact asmSquare_spec a (bd6 ha)

theorem asm_doubledSquare_spec {a : Fe51} (ha : Bd (6 * U) a) :
    Bd (2 * U) (doubledSquareF a) ∧ eval (doubledSquareF a) = 2 * (eval a * eval a) := by
  rw [doubledSquareF_eq]
  obtain ⟨h1, h2⟩ := asmSquare_spec a (bd6 ha)
  obtain ⟨h3, h4⟩ := Fe51.add_spec _ _ U U h1 h1 (by decide)
  refine ⟨h3.mono (by omega), ?_⟩
  rw [h4, h2]; ring

noncomputable instance : LawfulField FeAsm where
  toFieldOps := inferInstance
  eval := L51.eval
  bd := L51.bd
  bd_mono := L51.bd_mono
  eval_feZero := L51.eval_feZero
  bd_feZero := L51.bd_feZero
  eval_feOne := L51.eval_feOne
  bd_feOne := L51.bd_feOne
  eval_feMinusOne := L51.eval_feMinusOne
  bd_feMinusOne := L51.bd_feMinusOne
  eval_feI := L51.eval_feI
  bd_feI := L51.bd_feI
  eval_feMinusI := L51.eval_feMinusI
  bd_feMinusI := L51.bd_feMinusI
  eval_feD := L51.eval_feD
  bd_feD := L51.bd_feD
  eval_fe2D := L51.eval_fe2D
  bd_fe2D := L51.bd_fe2D
  eval_feInvSqrtMinusDMinusOne := L51.eval_feInvSqrtMinusDMinusOne
  bd_feInvSqrtMinusDMinusOne := L51.bd_feInvSqrtMinusDMinusOne
  eval_feDoubleInvSqrtMinusDMinusOne := L51.eval_feDoubleInvSqrtMinusDMinusOne
  bd_feDoubleInvSqrtMinusDMinusOne := L51.bd_feDoubleInvSqrtMinusDMinusOne
  eval_feDoubleIInvSqrtMinusDMinusOne := L51.eval_feDoubleIInvSqrtMinusDMinusOne
  bd_feDoubleIInvSqrtMinusDMinusOne := L51.bd_feDoubleIInvSqrtMinusDMinusOne
  eval_feDMinusOneSquared := L51.eval_feDMinusOneSquared
  bd_feDMinusOneSquared := L51.bd_feDMinusOneSquared
  eval_feOneMinusDSquared := L51.eval_feOneMinusDSquared
  bd_feOneMinusDSquared := L51.bd_feOneMinusDSquared
  eval_feDp1OverDm1 := L51.eval_feDp1OverDm1
  bd_feDp1OverDm1 := L51.bd_feDp1OverDm1
  eval_feSqrtID := L51.eval_feSqrtID
  bd_feSqrtID := L51.bd_feSqrtID
  eval_feInvSqrt1pD := L51.eval_feInvSqrt1pD
  bd_feInvSqrt1pD := L51.bd_feInvSqrt1pD
  eval_epBaseX := L51.eval_epBaseX
  bd_epBaseX := L51.bd_epBaseX
  eval_epBaseY := L51.eval_epBaseY
  bd_epBaseY := L51.bd_epBaseY
  eval_epBaseT := L51.eval_epBaseT
  bd_epBaseT := L51.bd_epBaseT
  add_law := L51.add_law
  sub_law := L51.sub_law
  neg_law := L51.neg_law
  normalize_law := L51.normalize_law
  mul_law := asm_mul_spec
  square_law := asm_square_spec
  doubledSquare_law := asm_doubledSquare_spec
  condSet_zero := L51.condSet_zero
  condSet_one := L51.condSet_one
  bytes_law := L51.bytes_law
  touch_law := L51.touch_law
  setBytes_law := L51.setBytes_law

end Ristretto.Proofs.Asm
