import Verif.Proofs.Field25CheckedSim
import Verif.Proofs.EdGeneric

/-!
# Programs over field elements of the generic build: nothing overflows
-/

namespace Ristretto.Proofs.J25
open Model hiding Mem Cmd exec run bit Out
open Model.Fe25 Proofs Proofs.Fe25
set_option autoImplicit false

theorem reduce_okW {fe : Fe25} (ha : Limbs25 (2 ^ 27) Fe25.bytesB fe) : (JFe.reduce (.of fe)).ok = true := by
  obtain ⟨A0, A1, A2, A3, A4, A5, A6, A7, A8, A9⟩ := ha
  unfold JFe.reduce
  extract_lets f0 f1 f2 f3 f4 f5 f6 f7 f8 f9 q q_v1 q_v2 q_v3 q_v4 q_v5 q_v6 q_v7 q_v8 q_v9 q_v10 f0_v1 c0 f1_v1 f0_v2 c1 f2_v1 f1_v2 c2 f3_v1 f2_v2 c3 f4_v1 f3_v2 c4 f5_v1 f4_v2 c5 f6_v1 f5_v2 c6 f7_v1 f6_v2 c7 f8_v1 f7_v2 c8 f9_v1 f8_v2 c9 f9_v2
  have K_f0 : In32 f0 134217728 := .mono (In32.of A0) (by norm_num)
  have K_f1 : In32 f1 100663296 := .mono (In32.of A1) (by norm_num [Fe25.bytesB])
  have K_f2 : In32 f2 134217728 := .mono (In32.of A2) (by norm_num)
  have K_f3 : In32 f3 100663296 := .mono (In32.of A3) (by norm_num [Fe25.bytesB])
  have K_f4 : In32 f4 134217728 := .mono (In32.of A4) (by norm_num)
  have K_f5 : In32 f5 100663296 := .mono (In32.of A5) (by norm_num [Fe25.bytesB])
  have K_f6 : In32 f6 134217728 := .mono (In32.of A6) (by norm_num)
  have K_f7 : In32 f7 100663296 := .mono (In32.of A7) (by norm_num [Fe25.bytesB])
  have K_f8 : In32 f8 134217728 := .mono (In32.of A8) (by norm_num)
  have K_f9 : In32 f9 100663296 := .mono (In32.of A9) (by norm_num [Fe25.bytesB])
  have K_q : In32 q 58 := .mono ((((In32.lit 19 19 rfl).mul K_f9 (by norm_num)).add (In32.lit 16777216 16777216 rfl) (by norm_num)).shr 25 25 (by decide)) (by norm_num)
  have K_q_v1 : In32 q_v1 3 := .mono ((K_f0.add K_q (by norm_num)).shr 26 26 (by decide)) (by norm_num)
  have K_q_v2 : In32 q_v2 4 := .mono ((K_f1.add K_q_v1 (by norm_num)).shr 25 25 (by decide)) (by norm_num)
  have K_q_v3 : In32 q_v3 3 := .mono ((K_f2.add K_q_v2 (by norm_num)).shr 26 26 (by decide)) (by norm_num)
  have K_q_v4 : In32 q_v4 4 := .mono ((K_f3.add K_q_v3 (by norm_num)).shr 25 25 (by decide)) (by norm_num)
  have K_q_v5 : In32 q_v5 3 := .mono ((K_f4.add K_q_v4 (by norm_num)).shr 26 26 (by decide)) (by norm_num)
  have K_q_v6 : In32 q_v6 4 := .mono ((K_f5.add K_q_v5 (by norm_num)).shr 25 25 (by decide)) (by norm_num)
  have K_q_v7 : In32 q_v7 3 := .mono ((K_f6.add K_q_v6 (by norm_num)).shr 26 26 (by decide)) (by norm_num)
  have K_q_v8 : In32 q_v8 4 := .mono ((K_f7.add K_q_v7 (by norm_num)).shr 25 25 (by decide)) (by norm_num)
  have K_q_v9 : In32 q_v9 3 := .mono ((K_f8.add K_q_v8 (by norm_num)).shr 26 26 (by decide)) (by norm_num)
  have K_q_v10 : In32 q_v10 4 := .mono ((K_f9.add K_q_v9 (by norm_num)).shr 25 25 (by decide)) (by norm_num)
  have K_f0_v1 : In32 f0_v1 134217804 := .mono (K_f0.add ((In32.lit 19 19 rfl).mul K_q_v10 (by norm_num)) (by norm_num)) (by norm_num)
  have K_c0 : In32 c0 3 := .mono (K_f0_v1.shr 26 26 (by decide)) (by norm_num)
  have K_f1_v1 : In32 f1_v1 100663299 := .mono (K_f1.add K_c0 (by norm_num)) (by norm_num)
  have K_f0_v2 : In32 f0_v2 67108863 := .mono (In32.low26 K_f0_v1 (by norm_num)) (by norm_num)
  have K_c1 : In32 c1 4 := .mono (K_f1_v1.shr 25 25 (by decide)) (by norm_num)
  have K_f2_v1 : In32 f2_v1 134217732 := .mono (K_f2.add K_c1 (by norm_num)) (by norm_num)
  have K_f1_v2 : In32 f1_v2 33554431 := .mono (In32.low25 K_f1_v1 (by norm_num)) (by norm_num)
  have K_c2 : In32 c2 3 := .mono (K_f2_v1.shr 26 26 (by decide)) (by norm_num)
  have K_f3_v1 : In32 f3_v1 100663299 := .mono (K_f3.add K_c2 (by norm_num)) (by norm_num)
  have K_f2_v2 : In32 f2_v2 67108863 := .mono (In32.low26 K_f2_v1 (by norm_num)) (by norm_num)
  have K_c3 : In32 c3 4 := .mono (K_f3_v1.shr 25 25 (by decide)) (by norm_num)
  have K_f4_v1 : In32 f4_v1 134217732 := .mono (K_f4.add K_c3 (by norm_num)) (by norm_num)
  have K_f3_v2 : In32 f3_v2 33554431 := .mono (In32.low25 K_f3_v1 (by norm_num)) (by norm_num)
  have K_c4 : In32 c4 3 := .mono (K_f4_v1.shr 26 26 (by decide)) (by norm_num)
  have K_f5_v1 : In32 f5_v1 100663299 := .mono (K_f5.add K_c4 (by norm_num)) (by norm_num)
  have K_f4_v2 : In32 f4_v2 67108863 := .mono (In32.low26 K_f4_v1 (by norm_num)) (by norm_num)
  have K_c5 : In32 c5 4 := .mono (K_f5_v1.shr 25 25 (by decide)) (by norm_num)
  have K_f6_v1 : In32 f6_v1 134217732 := .mono (K_f6.add K_c5 (by norm_num)) (by norm_num)
  have K_f5_v2 : In32 f5_v2 33554431 := .mono (In32.low25 K_f5_v1 (by norm_num)) (by norm_num)
  have K_c6 : In32 c6 3 := .mono (K_f6_v1.shr 26 26 (by decide)) (by norm_num)
  have K_f7_v1 : In32 f7_v1 100663299 := .mono (K_f7.add K_c6 (by norm_num)) (by norm_num)
  have K_f6_v2 : In32 f6_v2 67108863 := .mono (In32.low26 K_f6_v1 (by norm_num)) (by norm_num)
  have K_c7 : In32 c7 4 := .mono (K_f7_v1.shr 25 25 (by decide)) (by norm_num)
  have K_f8_v1 : In32 f8_v1 134217732 := .mono (K_f8.add K_c7 (by norm_num)) (by norm_num)
  have K_f7_v2 : In32 f7_v2 33554431 := .mono (In32.low25 K_f7_v1 (by norm_num)) (by norm_num)
  have K_c8 : In32 c8 3 := .mono (K_f8_v1.shr 26 26 (by decide)) (by norm_num)
  have K_f9_v1 : In32 f9_v1 100663299 := .mono (K_f9.add K_c8 (by norm_num)) (by norm_num)
  have K_f8_v2 : In32 f8_v2 67108863 := .mono (In32.low26 K_f8_v1 (by norm_num)) (by norm_num)
  have K_c9 : In32 c9 4 := .mono (K_f9_v1.shr 25 25 (by decide)) (by norm_num)
  have K_f9_v2 : In32 f9_v2 33554431 := .mono (In32.low25 K_f9_v1 (by norm_num)) (by norm_num)
  exact okFe K_f0_v2 K_f1_v2 K_f2_v2 K_f3_v2 K_f4_v2 K_f5_v2 K_f6_v2 K_f7_v2 K_f8_v2 K_f9_v2

variable {junk : Bytes 32}

theorem bytes_fineW {a : Fe25} (h : Limbs25 (2 ^ 27) Fe25.bytesB a) :
    FieldOps.bytes (Fe25W.fine a : Fe25W junk) = FieldOps.bytes a := by
  show Fe25W.bytes (Fe25W.fine a) = Fe25.bytes a
  have e : Fe25W.map JFe.reduce (Fe25W.fine a : Fe25W junk) = Fe25W.fine (Fe25.reduce a) := map_fine (reduce_okW h) rfl
  unfold Fe25W.bytes
  rw [e]
  rfl

theorem fsimW : Proofs.Ed.FSim (RW 2 : Fe25W junk → Fp → Prop) where
  zero := simField.mono (simField.rZero) (by norm_num)
  one := simField.mono (simField.rOne) (by norm_num)
  i := simField.mono (simField.rI) (by norm_num)
  add h h' := simField.mono (simField.norm (simField.add h h' (by norm_num))) (by norm_num)
  sub h h' := simField.mono (simField.norm (simField.sub h h' (by norm_num))) (by norm_num)
  neg h := simField.neg h (by norm_num)
  mul h h' := simField.mono (simField.mulS (simField.mono h (by norm_num)) (simField.toS (simField.mono h' (by norm_num)))) (by norm_num)
  sq h := simField.mono (simField.sq (simField.mono h (by norm_num))) (by norm_num)
  dsq h := simField.mono (simField.dsq (simField.mono h (by norm_num))) (by norm_num)
  inverse h := simField.mono (Sim.R.inverse (L := simField) h) (by norm_num)
  exp h := simField.mono (Sim.R.exp22523 (L := simField) h) (by norm_num)
  invSqrt h := simField.mono (Sim.R.invSqrt (L := simField) h) (by norm_num)
  sqrt h := Sim.R.sqrt (L := simField) h
  invSqrtI h := by
    obtain ⟨h1, h2⟩ := Sim.R.invSqrtI (L := simField) h
    exact ⟨simField.mono h1 (by norm_num), h2.1⟩
  setBytes b := simField.mono (simField.setBytes b) (by norm_num)
  cond h h' hc := Sim.R.cond (L := simField) h h' hc
  touch h := simField.touch (simField.mono h (by norm_num))
  bytes h := simField.bytes (simField.mono h (by norm_num))
  isNeg h := simField.isNeg (simField.mono h (by norm_num))
  isOne h := (Sim.R.isOne (L := simField) h).1
  diff := by
    rintro _ _ x y ⟨a, rfl, r⟩ ⟨b, rfl, r'⟩
    have r4 := (Fe25.R.sub (m := 2) (n := 2) r r').mono (n := 4)
    have e := Ed.R4.bytes r4
    have e2 := bytes_fineW (junk := junk) (a := Fe25.sub a b) (Fe25.Limbs25.mono r4.1 (by decide) (by decide))
    have e3 : FieldOps.bytes (FieldOps.sub (Fe25W.fine a : Fe25W junk) (Fe25W.fine b)) = FieldOps.bytes (FieldOps.sub x y) := by
      rw [sub_fine r r' (by norm_num)]; exact e2.trans e
    unfold isNonZeroI
    rw [e3]

end Ristretto.Proofs.J25
