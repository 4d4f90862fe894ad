import Verif.Proofs.CrefChecked
import Verif.Proofs.CrefSim25

/-!
# No overflow in the field functions of cref.c on bounded limbs

The proofs follow the functions line by line and carry a bound on the absolute value of every variable.
-/

namespace Ristretto.Proofs.Cref
open Model Model.Cref
set_option autoImplicit false
set_option maxHeartbeats 4000000

theorem mulC_ok {f g : Fe25} (hf : Limbs25 100663296 50528256 f) (hg : Limbs25 100663296 50528256 g) : (mulC f g).ok = true := by
  obtain ⟨A0, A1, A2, A3, A4, A5, A6, A7, A8, A9⟩ := hf
  obtain ⟨B0, B1, B2, B3, B4, B5, B6, B7, B8, B9⟩ := hg
  unfold mulC
  extract_lets f0 f1 f2 f3 f4 f5 f6 f7 f8 f9 g0 g1 g2 g3 g4 g5 g6 g7 g8 g9 g1_19 g2_19 g3_19 g4_19 g5_19 g6_19 g7_19 g8_19 g9_19 f1_2 f3_2 f5_2 f7_2 f9_2 f0g0 f0g1 f0g2 f0g3 f0g4 f0g5 f0g6 f0g7 f0g8 f0g9 f1g0 f1g1_2 f1g2 f1g3_2 f1g4 f1g5_2 f1g6 f1g7_2 f1g8 f1g9_38 f2g0 f2g1 f2g2 f2g3 f2g4 f2g5 f2g6 f2g7 f2g8_19 f2g9_19 f3g0 f3g1_2 f3g2 f3g3_2 f3g4 f3g5_2 f3g6 f3g7_38 f3g8_19 f3g9_38 f4g0 f4g1 f4g2 f4g3 f4g4 f4g5 f4g6_19 f4g7_19 f4g8_19 f4g9_19 f5g0 f5g1_2 f5g2 f5g3_2 f5g4 f5g5_38 f5g6_19 f5g7_38 f5g8_19 f5g9_38 f6g0 f6g1 f6g2 f6g3 f6g4_19 f6g5_19 f6g6_19 f6g7_19 f6g8_19 f6g9_19 f7g0 f7g1_2 f7g2 f7g3_38 f7g4_19 f7g5_38 f7g6_19 f7g7_38 f7g8_19 f7g9_38 f8g0 f8g1 f8g2_19 f8g3_19 f8g4_19 f8g5_19 f8g6_19 f8g7_19 f8g8_19 f8g9_19 f9g0 f9g1_38 f9g2_19 f9g3_38 f9g4_19 f9g5_38 f9g6_19 f9g7_38 f9g8_19 f9g9_38 h0n0 h1n0 h2n0 h3n0 h4n0 h5n0 h6n0 h7n0 h8n0 h9n0 carry0n0 h1n1 h0n1 carry4n0 h5n1 h4n1 carry1n0 h2n1 h1n2 carry5n0 h6n1 h5n2 carry2n0 h3n1 h2n2 carry6n0 h7n1 h6n2 carry3n0 h4n2 h3n2 carry7n0 h8n1 h7n2 carry4n1 h5n3 h4n3 carry8n0 h9n1 h8n2 carry9n0 h0n2 h9n2 carry0n1 h1n3 h0n3
  have K_f0 : In32 f0 100663296 := .mono (In32.of A0) (by norm_num)
  have K_f1 : In32 f1 50528256 := .mono (In32.of A1) (by norm_num)
  have K_f2 : In32 f2 100663296 := .mono (In32.of A2) (by norm_num)
  have K_f3 : In32 f3 50528256 := .mono (In32.of A3) (by norm_num)
  have K_f4 : In32 f4 100663296 := .mono (In32.of A4) (by norm_num)
  have K_f5 : In32 f5 50528256 := .mono (In32.of A5) (by norm_num)
  have K_f6 : In32 f6 100663296 := .mono (In32.of A6) (by norm_num)
  have K_f7 : In32 f7 50528256 := .mono (In32.of A7) (by norm_num)
  have K_f8 : In32 f8 100663296 := .mono (In32.of A8) (by norm_num)
  have K_f9 : In32 f9 50528256 := .mono (In32.of A9) (by norm_num)
  have K_g0 : In32 g0 100663296 := .mono (In32.of B0) (by norm_num)
  have K_g1 : In32 g1 50528256 := .mono (In32.of B1) (by norm_num)
  have K_g2 : In32 g2 100663296 := .mono (In32.of B2) (by norm_num)
  have K_g3 : In32 g3 50528256 := .mono (In32.of B3) (by norm_num)
  have K_g4 : In32 g4 100663296 := .mono (In32.of B4) (by norm_num)
  have K_g5 : In32 g5 50528256 := .mono (In32.of B5) (by norm_num)
  have K_g6 : In32 g6 100663296 := .mono (In32.of B6) (by norm_num)
  have K_g7 : In32 g7 50528256 := .mono (In32.of B7) (by norm_num)
  have K_g8 : In32 g8 100663296 := .mono (In32.of B8) (by norm_num)
  have K_g9 : In32 g9 50528256 := .mono (In32.of B9) (by norm_num)
  have K_g1_19 : In32 g1_19 960036864 := .mono ((In32.lit 19 19 rfl).mul K_g1 (by norm_num)) (by norm_num)
  have K_g2_19 : In32 g2_19 1912602624 := .mono ((In32.lit 19 19 rfl).mul K_g2 (by norm_num)) (by norm_num)
  have K_g3_19 : In32 g3_19 960036864 := .mono ((In32.lit 19 19 rfl).mul K_g3 (by norm_num)) (by norm_num)
  have K_g4_19 : In32 g4_19 1912602624 := .mono ((In32.lit 19 19 rfl).mul K_g4 (by norm_num)) (by norm_num)
  have K_g5_19 : In32 g5_19 960036864 := .mono ((In32.lit 19 19 rfl).mul K_g5 (by norm_num)) (by norm_num)
  have K_g6_19 : In32 g6_19 1912602624 := .mono ((In32.lit 19 19 rfl).mul K_g6 (by norm_num)) (by norm_num)
  have K_g7_19 : In32 g7_19 960036864 := .mono ((In32.lit 19 19 rfl).mul K_g7 (by norm_num)) (by norm_num)
  have K_g8_19 : In32 g8_19 1912602624 := .mono ((In32.lit 19 19 rfl).mul K_g8 (by norm_num)) (by norm_num)
  have K_g9_19 : In32 g9_19 960036864 := .mono ((In32.lit 19 19 rfl).mul K_g9 (by norm_num)) (by norm_num)
  have K_f1_2 : In32 f1_2 101056512 := .mono ((In32.lit 2 2 rfl).mul K_f1 (by norm_num)) (by norm_num)
  have K_f3_2 : In32 f3_2 101056512 := .mono ((In32.lit 2 2 rfl).mul K_f3 (by norm_num)) (by norm_num)
  have K_f5_2 : In32 f5_2 101056512 := .mono ((In32.lit 2 2 rfl).mul K_f5 (by norm_num)) (by norm_num)
  have K_f7_2 : In32 f7_2 101056512 := .mono ((In32.lit 2 2 rfl).mul K_f7 (by norm_num)) (by norm_num)
  have K_f9_2 : In32 f9_2 101056512 := .mono ((In32.lit 2 2 rfl).mul K_f9 (by norm_num)) (by norm_num)
  have K_f0g0 : In64 f0g0 10133099161583616 := .mono (K_f0.to64.mul K_g0.to64 (by norm_num)) (by norm_num)
  have K_f0g1 : In64 f0g1 5086340790091776 := .mono (K_f0.to64.mul K_g1.to64 (by norm_num)) (by norm_num)
  have K_f0g2 : In64 f0g2 10133099161583616 := .mono (K_f0.to64.mul K_g2.to64 (by norm_num)) (by norm_num)
  have K_f0g3 : In64 f0g3 5086340790091776 := .mono (K_f0.to64.mul K_g3.to64 (by norm_num)) (by norm_num)
  have K_f0g4 : In64 f0g4 10133099161583616 := .mono (K_f0.to64.mul K_g4.to64 (by norm_num)) (by norm_num)
  have K_f0g5 : In64 f0g5 5086340790091776 := .mono (K_f0.to64.mul K_g5.to64 (by norm_num)) (by norm_num)
  have K_f0g6 : In64 f0g6 10133099161583616 := .mono (K_f0.to64.mul K_g6.to64 (by norm_num)) (by norm_num)
  have K_f0g7 : In64 f0g7 5086340790091776 := .mono (K_f0.to64.mul K_g7.to64 (by norm_num)) (by norm_num)
  have K_f0g8 : In64 f0g8 10133099161583616 := .mono (K_f0.to64.mul K_g8.to64 (by norm_num)) (by norm_num)
  have K_f0g9 : In64 f0g9 5086340790091776 := .mono (K_f0.to64.mul K_g9.to64 (by norm_num)) (by norm_num)
  have K_f1g0 : In64 f1g0 5086340790091776 := .mono (K_f1.to64.mul K_g0.to64 (by norm_num)) (by norm_num)
  have K_f1g1_2 : In64 f1g1_2 5106209308803072 := .mono (K_f1_2.to64.mul K_g1.to64 (by norm_num)) (by norm_num)
  have K_f1g2 : In64 f1g2 5086340790091776 := .mono (K_f1.to64.mul K_g2.to64 (by norm_num)) (by norm_num)
  have K_f1g3_2 : In64 f1g3_2 5106209308803072 := .mono (K_f1_2.to64.mul K_g3.to64 (by norm_num)) (by norm_num)
  have K_f1g4 : In64 f1g4 5086340790091776 := .mono (K_f1.to64.mul K_g4.to64 (by norm_num)) (by norm_num)
  have K_f1g5_2 : In64 f1g5_2 5106209308803072 := .mono (K_f1_2.to64.mul K_g5.to64 (by norm_num)) (by norm_num)
  have K_f1g6 : In64 f1g6 5086340790091776 := .mono (K_f1.to64.mul K_g6.to64 (by norm_num)) (by norm_num)
  have K_f1g7_2 : In64 f1g7_2 5106209308803072 := .mono (K_f1_2.to64.mul K_g7.to64 (by norm_num)) (by norm_num)
  have K_f1g8 : In64 f1g8 5086340790091776 := .mono (K_f1.to64.mul K_g8.to64 (by norm_num)) (by norm_num)
  have K_f1g9_38 : In64 f1g9_38 97017976867258368 := .mono (K_f1_2.to64.mul K_g9_19.to64 (by norm_num)) (by norm_num)
  have K_f2g0 : In64 f2g0 10133099161583616 := .mono (K_f2.to64.mul K_g0.to64 (by norm_num)) (by norm_num)
  have K_f2g1 : In64 f2g1 5086340790091776 := .mono (K_f2.to64.mul K_g1.to64 (by norm_num)) (by norm_num)
  have K_f2g2 : In64 f2g2 10133099161583616 := .mono (K_f2.to64.mul K_g2.to64 (by norm_num)) (by norm_num)
  have K_f2g3 : In64 f2g3 5086340790091776 := .mono (K_f2.to64.mul K_g3.to64 (by norm_num)) (by norm_num)
  have K_f2g4 : In64 f2g4 10133099161583616 := .mono (K_f2.to64.mul K_g4.to64 (by norm_num)) (by norm_num)
  have K_f2g5 : In64 f2g5 5086340790091776 := .mono (K_f2.to64.mul K_g5.to64 (by norm_num)) (by norm_num)
  have K_f2g6 : In64 f2g6 10133099161583616 := .mono (K_f2.to64.mul K_g6.to64 (by norm_num)) (by norm_num)
  have K_f2g7 : In64 f2g7 5086340790091776 := .mono (K_f2.to64.mul K_g7.to64 (by norm_num)) (by norm_num)
  have K_f2g8_19 : In64 f2g8_19 192528884070088704 := .mono (K_f2.to64.mul K_g8_19.to64 (by norm_num)) (by norm_num)
  have K_f2g9_19 : In64 f2g9_19 96640475011743744 := .mono (K_f2.to64.mul K_g9_19.to64 (by norm_num)) (by norm_num)
  have K_f3g0 : In64 f3g0 5086340790091776 := .mono (K_f3.to64.mul K_g0.to64 (by norm_num)) (by norm_num)
  have K_f3g1_2 : In64 f3g1_2 5106209308803072 := .mono (K_f3_2.to64.mul K_g1.to64 (by norm_num)) (by norm_num)
  have K_f3g2 : In64 f3g2 5086340790091776 := .mono (K_f3.to64.mul K_g2.to64 (by norm_num)) (by norm_num)
  have K_f3g3_2 : In64 f3g3_2 5106209308803072 := .mono (K_f3_2.to64.mul K_g3.to64 (by norm_num)) (by norm_num)
  have K_f3g4 : In64 f3g4 5086340790091776 := .mono (K_f3.to64.mul K_g4.to64 (by norm_num)) (by norm_num)
  have K_f3g5_2 : In64 f3g5_2 5106209308803072 := .mono (K_f3_2.to64.mul K_g5.to64 (by norm_num)) (by norm_num)
  have K_f3g6 : In64 f3g6 5086340790091776 := .mono (K_f3.to64.mul K_g6.to64 (by norm_num)) (by norm_num)
  have K_f3g7_38 : In64 f3g7_38 97017976867258368 := .mono (K_f3_2.to64.mul K_g7_19.to64 (by norm_num)) (by norm_num)
  have K_f3g8_19 : In64 f3g8_19 96640475011743744 := .mono (K_f3.to64.mul K_g8_19.to64 (by norm_num)) (by norm_num)
  have K_f3g9_38 : In64 f3g9_38 97017976867258368 := .mono (K_f3_2.to64.mul K_g9_19.to64 (by norm_num)) (by norm_num)
  have K_f4g0 : In64 f4g0 10133099161583616 := .mono (K_f4.to64.mul K_g0.to64 (by norm_num)) (by norm_num)
  have K_f4g1 : In64 f4g1 5086340790091776 := .mono (K_f4.to64.mul K_g1.to64 (by norm_num)) (by norm_num)
  have K_f4g2 : In64 f4g2 10133099161583616 := .mono (K_f4.to64.mul K_g2.to64 (by norm_num)) (by norm_num)
  have K_f4g3 : In64 f4g3 5086340790091776 := .mono (K_f4.to64.mul K_g3.to64 (by norm_num)) (by norm_num)
  have K_f4g4 : In64 f4g4 10133099161583616 := .mono (K_f4.to64.mul K_g4.to64 (by norm_num)) (by norm_num)
  have K_f4g5 : In64 f4g5 5086340790091776 := .mono (K_f4.to64.mul K_g5.to64 (by norm_num)) (by norm_num)
  have K_f4g6_19 : In64 f4g6_19 192528884070088704 := .mono (K_f4.to64.mul K_g6_19.to64 (by norm_num)) (by norm_num)
  have K_f4g7_19 : In64 f4g7_19 96640475011743744 := .mono (K_f4.to64.mul K_g7_19.to64 (by norm_num)) (by norm_num)
  have K_f4g8_19 : In64 f4g8_19 192528884070088704 := .mono (K_f4.to64.mul K_g8_19.to64 (by norm_num)) (by norm_num)
  have K_f4g9_19 : In64 f4g9_19 96640475011743744 := .mono (K_f4.to64.mul K_g9_19.to64 (by norm_num)) (by norm_num)
  have K_f5g0 : In64 f5g0 5086340790091776 := .mono (K_f5.to64.mul K_g0.to64 (by norm_num)) (by norm_num)
  have K_f5g1_2 : In64 f5g1_2 5106209308803072 := .mono (K_f5_2.to64.mul K_g1.to64 (by norm_num)) (by norm_num)
  have K_f5g2 : In64 f5g2 5086340790091776 := .mono (K_f5.to64.mul K_g2.to64 (by norm_num)) (by norm_num)
  have K_f5g3_2 : In64 f5g3_2 5106209308803072 := .mono (K_f5_2.to64.mul K_g3.to64 (by norm_num)) (by norm_num)
  have K_f5g4 : In64 f5g4 5086340790091776 := .mono (K_f5.to64.mul K_g4.to64 (by norm_num)) (by norm_num)
  have K_f5g5_38 : In64 f5g5_38 97017976867258368 := .mono (K_f5_2.to64.mul K_g5_19.to64 (by norm_num)) (by norm_num)
  have K_f5g6_19 : In64 f5g6_19 96640475011743744 := .mono (K_f5.to64.mul K_g6_19.to64 (by norm_num)) (by norm_num)
  have K_f5g7_38 : In64 f5g7_38 97017976867258368 := .mono (K_f5_2.to64.mul K_g7_19.to64 (by norm_num)) (by norm_num)
  have K_f5g8_19 : In64 f5g8_19 96640475011743744 := .mono (K_f5.to64.mul K_g8_19.to64 (by norm_num)) (by norm_num)
  have K_f5g9_38 : In64 f5g9_38 97017976867258368 := .mono (K_f5_2.to64.mul K_g9_19.to64 (by norm_num)) (by norm_num)
  have K_f6g0 : In64 f6g0 10133099161583616 := .mono (K_f6.to64.mul K_g0.to64 (by norm_num)) (by norm_num)
  have K_f6g1 : In64 f6g1 5086340790091776 := .mono (K_f6.to64.mul K_g1.to64 (by norm_num)) (by norm_num)
  have K_f6g2 : In64 f6g2 10133099161583616 := .mono (K_f6.to64.mul K_g2.to64 (by norm_num)) (by norm_num)
  have K_f6g3 : In64 f6g3 5086340790091776 := .mono (K_f6.to64.mul K_g3.to64 (by norm_num)) (by norm_num)
  have K_f6g4_19 : In64 f6g4_19 192528884070088704 := .mono (K_f6.to64.mul K_g4_19.to64 (by norm_num)) (by norm_num)
  have K_f6g5_19 : In64 f6g5_19 96640475011743744 := .mono (K_f6.to64.mul K_g5_19.to64 (by norm_num)) (by norm_num)
  have K_f6g6_19 : In64 f6g6_19 192528884070088704 := .mono (K_f6.to64.mul K_g6_19.to64 (by norm_num)) (by norm_num)
  have K_f6g7_19 : In64 f6g7_19 96640475011743744 := .mono (K_f6.to64.mul K_g7_19.to64 (by norm_num)) (by norm_num)
  have K_f6g8_19 : In64 f6g8_19 192528884070088704 := .mono (K_f6.to64.mul K_g8_19.to64 (by norm_num)) (by norm_num)
  have K_f6g9_19 : In64 f6g9_19 96640475011743744 := .mono (K_f6.to64.mul K_g9_19.to64 (by norm_num)) (by norm_num)
  have K_f7g0 : In64 f7g0 5086340790091776 := .mono (K_f7.to64.mul K_g0.to64 (by norm_num)) (by norm_num)
  have K_f7g1_2 : In64 f7g1_2 5106209308803072 := .mono (K_f7_2.to64.mul K_g1.to64 (by norm_num)) (by norm_num)
  have K_f7g2 : In64 f7g2 5086340790091776 := .mono (K_f7.to64.mul K_g2.to64 (by norm_num)) (by norm_num)
  have K_f7g3_38 : In64 f7g3_38 97017976867258368 := .mono (K_f7_2.to64.mul K_g3_19.to64 (by norm_num)) (by norm_num)
  have K_f7g4_19 : In64 f7g4_19 96640475011743744 := .mono (K_f7.to64.mul K_g4_19.to64 (by norm_num)) (by norm_num)
  have K_f7g5_38 : In64 f7g5_38 97017976867258368 := .mono (K_f7_2.to64.mul K_g5_19.to64 (by norm_num)) (by norm_num)
  have K_f7g6_19 : In64 f7g6_19 96640475011743744 := .mono (K_f7.to64.mul K_g6_19.to64 (by norm_num)) (by norm_num)
  have K_f7g7_38 : In64 f7g7_38 97017976867258368 := .mono (K_f7_2.to64.mul K_g7_19.to64 (by norm_num)) (by norm_num)
  have K_f7g8_19 : In64 f7g8_19 96640475011743744 := .mono (K_f7.to64.mul K_g8_19.to64 (by norm_num)) (by norm_num)
  have K_f7g9_38 : In64 f7g9_38 97017976867258368 := .mono (K_f7_2.to64.mul K_g9_19.to64 (by norm_num)) (by norm_num)
  have K_f8g0 : In64 f8g0 10133099161583616 := .mono (K_f8.to64.mul K_g0.to64 (by norm_num)) (by norm_num)
  have K_f8g1 : In64 f8g1 5086340790091776 := .mono (K_f8.to64.mul K_g1.to64 (by norm_num)) (by norm_num)
  have K_f8g2_19 : In64 f8g2_19 192528884070088704 := .mono (K_f8.to64.mul K_g2_19.to64 (by norm_num)) (by norm_num)
  have K_f8g3_19 : In64 f8g3_19 96640475011743744 := .mono (K_f8.to64.mul K_g3_19.to64 (by norm_num)) (by norm_num)
  have K_f8g4_19 : In64 f8g4_19 192528884070088704 := .mono (K_f8.to64.mul K_g4_19.to64 (by norm_num)) (by norm_num)
  have K_f8g5_19 : In64 f8g5_19 96640475011743744 := .mono (K_f8.to64.mul K_g5_19.to64 (by norm_num)) (by norm_num)
  have K_f8g6_19 : In64 f8g6_19 192528884070088704 := .mono (K_f8.to64.mul K_g6_19.to64 (by norm_num)) (by norm_num)
  have K_f8g7_19 : In64 f8g7_19 96640475011743744 := .mono (K_f8.to64.mul K_g7_19.to64 (by norm_num)) (by norm_num)
  have K_f8g8_19 : In64 f8g8_19 192528884070088704 := .mono (K_f8.to64.mul K_g8_19.to64 (by norm_num)) (by norm_num)
  have K_f8g9_19 : In64 f8g9_19 96640475011743744 := .mono (K_f8.to64.mul K_g9_19.to64 (by norm_num)) (by norm_num)
  have K_f9g0 : In64 f9g0 5086340790091776 := .mono (K_f9.to64.mul K_g0.to64 (by norm_num)) (by norm_num)
  have K_f9g1_38 : In64 f9g1_38 97017976867258368 := .mono (K_f9_2.to64.mul K_g1_19.to64 (by norm_num)) (by norm_num)
  have K_f9g2_19 : In64 f9g2_19 96640475011743744 := .mono (K_f9.to64.mul K_g2_19.to64 (by norm_num)) (by norm_num)
  have K_f9g3_38 : In64 f9g3_38 97017976867258368 := .mono (K_f9_2.to64.mul K_g3_19.to64 (by norm_num)) (by norm_num)
  have K_f9g4_19 : In64 f9g4_19 96640475011743744 := .mono (K_f9.to64.mul K_g4_19.to64 (by norm_num)) (by norm_num)
  have K_f9g5_38 : In64 f9g5_38 97017976867258368 := .mono (K_f9_2.to64.mul K_g5_19.to64 (by norm_num)) (by norm_num)
  have K_f9g6_19 : In64 f9g6_19 96640475011743744 := .mono (K_f9.to64.mul K_g6_19.to64 (by norm_num)) (by norm_num)
  have K_f9g7_38 : In64 f9g7_38 97017976867258368 := .mono (K_f9_2.to64.mul K_g7_19.to64 (by norm_num)) (by norm_num)
  have K_f9g8_19 : In64 f9g8_19 96640475011743744 := .mono (K_f9.to64.mul K_g8_19.to64 (by norm_num)) (by norm_num)
  have K_f9g9_38 : In64 f9g9_38 97017976867258368 := .mono (K_f9_2.to64.mul K_g9_19.to64 (by norm_num)) (by norm_num)
  have K_h0n0 : In64 h0n0 1265338519778230272 := .mono (((((((((K_f0g0.add K_f1g9_38 (by norm_num)).add K_f2g8_19 (by norm_num)).add K_f3g7_38 (by norm_num)).add K_f4g6_19 (by norm_num)).add K_f5g5_38 (by norm_num)).add K_f6g4_19 (by norm_num)).add K_f7g3_38 (by norm_num)).add K_f8g2_19 (by norm_num)).add K_f9g1_38 (by norm_num)) (by norm_num)
  have K_h1n0 : In64 h1n0 783296481674133504 := .mono (((((((((K_f0g1.add K_f1g0 (by norm_num)).add K_f2g9_19 (by norm_num)).add K_f3g8_19 (by norm_num)).add K_f4g7_19 (by norm_num)).add K_f5g6_19 (by norm_num)).add K_f6g5_19 (by norm_num)).add K_f7g4_19 (by norm_num)).add K_f8g3_19 (by norm_num)).add K_f9g2_19 (by norm_num)) (by norm_num)
  have K_h2n0 : In64 h2n0 991030967311269888 := .mono (((((((((K_f0g2.add K_f1g1_2 (by norm_num)).add K_f2g0 (by norm_num)).add K_f3g9_38 (by norm_num)).add K_f4g8_19 (by norm_num)).add K_f5g7_38 (by norm_num)).add K_f6g6_19 (by norm_num)).add K_f7g5_38 (by norm_num)).add K_f8g4_19 (by norm_num)).add K_f9g3_38 (by norm_num)) (by norm_num)
  have K_h3n0 : In64 h3n0 600188213230829568 := .mono (((((((((K_f0g3.add K_f1g2 (by norm_num)).add K_f2g1 (by norm_num)).add K_f3g0 (by norm_num)).add K_f4g9_19 (by norm_num)).add K_f5g8_19 (by norm_num)).add K_f6g7_19 (by norm_num)).add K_f7g6_19 (by norm_num)).add K_f8g5_19 (by norm_num)).add K_f9g4_19 (by norm_num)) (by norm_num)
  have K_h4n0 : In64 h4n0 716723414844309504 := .mono (((((((((K_f0g4.add K_f1g3_2 (by norm_num)).add K_f2g2 (by norm_num)).add K_f3g1_2 (by norm_num)).add K_f4g0 (by norm_num)).add K_f5g9_38 (by norm_num)).add K_f6g8_19 (by norm_num)).add K_f7g7_38 (by norm_num)).add K_f8g6_19 (by norm_num)).add K_f9g5_38 (by norm_num)) (by norm_num)
  have K_h5n0 : In64 h5n0 417079944787525632 := .mono (((((((((K_f0g5.add K_f1g4 (by norm_num)).add K_f2g3 (by norm_num)).add K_f3g2 (by norm_num)).add K_f4g1 (by norm_num)).add K_f5g0 (by norm_num)).add K_f6g9_19 (by norm_num)).add K_f7g8_19 (by norm_num)).add K_f8g7_19 (by norm_num)).add K_f9g6_19 (by norm_num)) (by norm_num)
  have K_h6n0 : In64 h6n0 442415862377349120 := .mono (((((((((K_f0g6.add K_f1g5_2 (by norm_num)).add K_f2g4 (by norm_num)).add K_f3g3_2 (by norm_num)).add K_f4g2 (by norm_num)).add K_f5g1_2 (by norm_num)).add K_f6g0 (by norm_num)).add K_f7g9_38 (by norm_num)).add K_f8g8_19 (by norm_num)).add K_f9g7_38 (by norm_num)) (by norm_num)
  have K_h7n0 : In64 h7n0 233971676344221696 := .mono (((((((((K_f0g7.add K_f1g6 (by norm_num)).add K_f2g5 (by norm_num)).add K_f3g4 (by norm_num)).add K_f4g3 (by norm_num)).add K_f5g2 (by norm_num)).add K_f6g1 (by norm_num)).add K_f7g0 (by norm_num)).add K_f8g9_19 (by norm_num)).add K_f9g8_19 (by norm_num)) (by norm_num)
  have K_h8n0 : In64 h8n0 168108309910388736 := .mono (((((((((K_f0g8.add K_f1g7_2 (by norm_num)).add K_f2g6 (by norm_num)).add K_f3g5_2 (by norm_num)).add K_f4g4 (by norm_num)).add K_f5g3_2 (by norm_num)).add K_f6g2 (by norm_num)).add K_f7g1_2 (by norm_num)).add K_f8g0 (by norm_num)).add K_f9g9_38 (by norm_num)) (by norm_num)
  have K_h9n0 : In64 h9n0 50863407900917760 := .mono (((((((((K_f0g9.add K_f1g8 (by norm_num)).add K_f2g7 (by norm_num)).add K_f3g6 (by norm_num)).add K_f4g5 (by norm_num)).add K_f5g4 (by norm_num)).add K_f6g3 (by norm_num)).add K_f7g2 (by norm_num)).add K_f8g1 (by norm_num)).add K_f9g0 (by norm_num)) (by norm_num)
  have K_carry0n0 : In64 carry0n0 18855013249 := .mono (In64.carry26 K_h0n0 (by norm_num)) (by norm_num)
  have K_h1n1 : In64 h1n1 783296500529146753 := .mono (K_h1n0.add K_carry0n0 (by norm_num)) (by norm_num)
  have K_h0n1 : In64 h0n1 33554432 := .mono (In64.carry26s K_h0n0 (by norm_num)) (by norm_num)
  have K_carry4n0 : In64 carry4n0 10680011137 := .mono (In64.carry26 K_h4n0 (by norm_num)) (by norm_num)
  have K_h5n1 : In64 h5n1 417079955467536769 := .mono (K_h5n0.add K_carry4n0 (by norm_num)) (by norm_num)
  have K_h4n1 : In64 h4n1 33554432 := .mono (In64.carry26s K_h4n0 (by norm_num)) (by norm_num)
  have K_carry1n0 : In64 carry1n0 23344054834 := .mono (In64.carry25 K_h1n1 (by norm_num)) (by norm_num)
  have K_h2n1 : In64 h2n1 991030990655324722 := .mono (K_h2n0.add K_carry1n0 (by norm_num)) (by norm_num)
  have K_h1n2 : In64 h1n2 16777216 := .mono (In64.carry25s K_h1n1 (by norm_num)) (by norm_num)
  have K_carry5n0 : In64 carry5n0 12429951295 := .mono (In64.carry25 K_h5n1 (by norm_num)) (by norm_num)
  have K_h6n1 : In64 h6n1 442415874807300415 := .mono (K_h6n0.add K_carry5n0 (by norm_num)) (by norm_num)
  have K_h5n2 : In64 h5n2 16777216 := .mono (In64.carry25s K_h5n1 (by norm_num)) (by norm_num)
  have K_carry2n0 : In64 carry2n0 14767512540 := .mono (In64.carry26 K_h2n1 (by norm_num)) (by norm_num)
  have K_h3n1 : In64 h3n1 600188227998342108 := .mono (K_h3n0.add K_carry2n0 (by norm_num)) (by norm_num)
  have K_h2n2 : In64 h2n2 33554432 := .mono (In64.carry26s K_h2n1 (by norm_num)) (by norm_num)
  have K_carry6n0 : In64 carry6n0 6592510266 := .mono (In64.carry26 K_h6n1 (by norm_num)) (by norm_num)
  have K_h7n1 : In64 h7n1 233971682936731962 := .mono (K_h7n0.add K_carry6n0 (by norm_num)) (by norm_num)
  have K_h6n2 : In64 h6n2 33554432 := .mono (In64.carry26s K_h6n1 (by norm_num)) (by norm_num)
  have K_carry3n0 : In64 carry3n0 17887003065 := .mono (In64.carry25 K_h3n1 (by norm_num)) (by norm_num)
  have K_h4n2 : In64 h4n2 17920557497 := .mono (K_h4n1.add K_carry3n0 (by norm_num)) (by norm_num)
  have K_h3n2 : In64 h3n2 16777216 := .mono (In64.carry25s K_h3n1 (by norm_num)) (by norm_num)
  have K_carry7n0 : In64 carry7n0 6972899525 := .mono (In64.carry25 K_h7n1 (by norm_num)) (by norm_num)
  have K_h8n1 : In64 h8n1 168108316883288261 := .mono (K_h8n0.add K_carry7n0 (by norm_num)) (by norm_num)
  have K_h7n2 : In64 h7n2 16777216 := .mono (In64.carry25s K_h7n1 (by norm_num)) (by norm_num)
  have K_carry4n1 : In64 carry4n1 268 := .mono (In64.carry26 K_h4n2 (by norm_num)) (by norm_num)
  have K_h5n3 : In64 h5n3 16777484 := .mono (K_h5n2.add K_carry4n1 (by norm_num)) (by norm_num)
  have K_h4n3 : In64 h4n3 33554432 := .mono (In64.carry26s K_h4n2 (by norm_num)) (by norm_num)
  have K_carry8n0 : In64 carry8n0 2505009128 := .mono (In64.carry26 K_h8n1 (by norm_num)) (by norm_num)
  have K_h9n1 : In64 h9n1 50863410405926888 := .mono (K_h9n0.add K_carry8n0 (by norm_num)) (by norm_num)
  have K_h8n2 : In64 h8n2 33554432 := .mono (In64.carry26s K_h8n1 (by norm_num)) (by norm_num)
  have K_carry9n0 : In64 carry9n0 1515847755 := .mono (In64.carry25 K_h9n1 (by norm_num)) (by norm_num)
  have K_h0n2 : In64 h0n2 28834661777 := .mono (K_h0n1.add (K_carry9n0.mul (In64.lit 19 19 rfl) (by norm_num)) (by norm_num)) (by norm_num)
  have K_h9n2 : In64 h9n2 16777216 := .mono (In64.carry25s K_h9n1 (by norm_num)) (by norm_num)
  have K_carry0n1 : In64 carry0n1 430 := .mono (In64.carry26 K_h0n2 (by norm_num)) (by norm_num)
  have K_h1n3 : In64 h1n3 16777646 := .mono (K_h1n2.add K_carry0n1 (by norm_num)) (by norm_num)
  have K_h0n3 : In64 h0n3 33554432 := .mono (In64.carry26s K_h0n2 (by norm_num)) (by norm_num)
  exact okFe (K_h0n3.to32 (by norm_num)) (K_h1n3.to32 (by norm_num)) (K_h2n2.to32 (by norm_num)) (K_h3n2.to32 (by norm_num)) (K_h4n3.to32 (by norm_num)) (K_h5n3.to32 (by norm_num)) (K_h6n2.to32 (by norm_num)) (K_h7n2.to32 (by norm_num)) (K_h8n2.to32 (by norm_num)) (K_h9n2.to32 (by norm_num))

theorem squareC_ok {f : Fe25} (hf : Limbs25 100663296 50528256 f) : (squareC f).ok = true := by
  obtain ⟨A0, A1, A2, A3, A4, A5, A6, A7, A8, A9⟩ := hf
  unfold squareC
  extract_lets f0 f1 f2 f3 f4 f5 f6 f7 f8 f9 f0_2 f1_2 f2_2 f3_2 f4_2 f5_2 f6_2 f7_2 f5_38 f6_19 f7_38 f8_19 f9_38 f0f0 f0f1_2 f0f2_2 f0f3_2 f0f4_2 f0f5_2 f0f6_2 f0f7_2 f0f8_2 f0f9_2 f1f1_2 f1f2_2 f1f3_4 f1f4_2 f1f5_4 f1f6_2 f1f7_4 f1f8_2 f1f9_76 f2f2 f2f3_2 f2f4_2 f2f5_2 f2f6_2 f2f7_2 f2f8_38 f2f9_38 f3f3_2 f3f4_2 f3f5_4 f3f6_2 f3f7_76 f3f8_38 f3f9_76 f4f4 f4f5_2 f4f6_38 f4f7_38 f4f8_38 f4f9_38 f5f5_38 f5f6_38 f5f7_76 f5f8_38 f5f9_76 f6f6_19 f6f7_38 f6f8_38 f6f9_38 f7f7_38 f7f8_38 f7f9_76 f8f8_19 f8f9_38 f9f9_38 h0n0 h1n0 h2n0 h3n0 h4n0 h5n0 h6n0 h7n0 h8n0 h9n0 carry0n0 h1n1 h0n1 carry4n0 h5n1 h4n1 carry1n0 h2n1 h1n2 carry5n0 h6n1 h5n2 carry2n0 h3n1 h2n2 carry6n0 h7n1 h6n2 carry3n0 h4n2 h3n2 carry7n0 h8n1 h7n2 carry4n1 h5n3 h4n3 carry8n0 h9n1 h8n2 carry9n0 h0n2 h9n2 carry0n1 h1n3 h0n3
  have K_f0 : In32 f0 100663296 := .mono (In32.of A0) (by norm_num)
  have K_f1 : In32 f1 50528256 := .mono (In32.of A1) (by norm_num)
  have K_f2 : In32 f2 100663296 := .mono (In32.of A2) (by norm_num)
  have K_f3 : In32 f3 50528256 := .mono (In32.of A3) (by norm_num)
  have K_f4 : In32 f4 100663296 := .mono (In32.of A4) (by norm_num)
  have K_f5 : In32 f5 50528256 := .mono (In32.of A5) (by norm_num)
  have K_f6 : In32 f6 100663296 := .mono (In32.of A6) (by norm_num)
  have K_f7 : In32 f7 50528256 := .mono (In32.of A7) (by norm_num)
  have K_f8 : In32 f8 100663296 := .mono (In32.of A8) (by norm_num)
  have K_f9 : In32 f9 50528256 := .mono (In32.of A9) (by norm_num)
  have K_f0_2 : In32 f0_2 201326592 := .mono ((In32.lit 2 2 rfl).mul K_f0 (by norm_num)) (by norm_num)
  have K_f1_2 : In32 f1_2 101056512 := .mono ((In32.lit 2 2 rfl).mul K_f1 (by norm_num)) (by norm_num)
  have K_f2_2 : In32 f2_2 201326592 := .mono ((In32.lit 2 2 rfl).mul K_f2 (by norm_num)) (by norm_num)
  have K_f3_2 : In32 f3_2 101056512 := .mono ((In32.lit 2 2 rfl).mul K_f3 (by norm_num)) (by norm_num)
  have K_f4_2 : In32 f4_2 201326592 := .mono ((In32.lit 2 2 rfl).mul K_f4 (by norm_num)) (by norm_num)
  have K_f5_2 : In32 f5_2 101056512 := .mono ((In32.lit 2 2 rfl).mul K_f5 (by norm_num)) (by norm_num)
  have K_f6_2 : In32 f6_2 201326592 := .mono ((In32.lit 2 2 rfl).mul K_f6 (by norm_num)) (by norm_num)
  have K_f7_2 : In32 f7_2 101056512 := .mono ((In32.lit 2 2 rfl).mul K_f7 (by norm_num)) (by norm_num)
  have K_f5_38 : In32 f5_38 1920073728 := .mono ((In32.lit 38 38 rfl).mul K_f5 (by norm_num)) (by norm_num)
  have K_f6_19 : In32 f6_19 1912602624 := .mono ((In32.lit 19 19 rfl).mul K_f6 (by norm_num)) (by norm_num)
  have K_f7_38 : In32 f7_38 1920073728 := .mono ((In32.lit 38 38 rfl).mul K_f7 (by norm_num)) (by norm_num)
  have K_f8_19 : In32 f8_19 1912602624 := .mono ((In32.lit 19 19 rfl).mul K_f8 (by norm_num)) (by norm_num)
  have K_f9_38 : In32 f9_38 1920073728 := .mono ((In32.lit 38 38 rfl).mul K_f9 (by norm_num)) (by norm_num)
  have K_f0f0 : In64 f0f0 10133099161583616 := .mono (K_f0.to64.mul K_f0.to64 (by norm_num)) (by norm_num)
  have K_f0f1_2 : In64 f0f1_2 10172681580183552 := .mono (K_f0_2.to64.mul K_f1.to64 (by norm_num)) (by norm_num)
  have K_f0f2_2 : In64 f0f2_2 20266198323167232 := .mono (K_f0_2.to64.mul K_f2.to64 (by norm_num)) (by norm_num)
  have K_f0f3_2 : In64 f0f3_2 10172681580183552 := .mono (K_f0_2.to64.mul K_f3.to64 (by norm_num)) (by norm_num)
  have K_f0f4_2 : In64 f0f4_2 20266198323167232 := .mono (K_f0_2.to64.mul K_f4.to64 (by norm_num)) (by norm_num)
  have K_f0f5_2 : In64 f0f5_2 10172681580183552 := .mono (K_f0_2.to64.mul K_f5.to64 (by norm_num)) (by norm_num)
  have K_f0f6_2 : In64 f0f6_2 20266198323167232 := .mono (K_f0_2.to64.mul K_f6.to64 (by norm_num)) (by norm_num)
  have K_f0f7_2 : In64 f0f7_2 10172681580183552 := .mono (K_f0_2.to64.mul K_f7.to64 (by norm_num)) (by norm_num)
  have K_f0f8_2 : In64 f0f8_2 20266198323167232 := .mono (K_f0_2.to64.mul K_f8.to64 (by norm_num)) (by norm_num)
  have K_f0f9_2 : In64 f0f9_2 10172681580183552 := .mono (K_f0_2.to64.mul K_f9.to64 (by norm_num)) (by norm_num)
  have K_f1f1_2 : In64 f1f1_2 5106209308803072 := .mono (K_f1_2.to64.mul K_f1.to64 (by norm_num)) (by norm_num)
  have K_f1f2_2 : In64 f1f2_2 10172681580183552 := .mono (K_f1_2.to64.mul K_f2.to64 (by norm_num)) (by norm_num)
  have K_f1f3_4 : In64 f1f3_4 10212418617606144 := .mono (K_f1_2.to64.mul K_f3_2.to64 (by norm_num)) (by norm_num)
  have K_f1f4_2 : In64 f1f4_2 10172681580183552 := .mono (K_f1_2.to64.mul K_f4.to64 (by norm_num)) (by norm_num)
  have K_f1f5_4 : In64 f1f5_4 10212418617606144 := .mono (K_f1_2.to64.mul K_f5_2.to64 (by norm_num)) (by norm_num)
  have K_f1f6_2 : In64 f1f6_2 10172681580183552 := .mono (K_f1_2.to64.mul K_f6.to64 (by norm_num)) (by norm_num)
  have K_f1f7_4 : In64 f1f7_4 10212418617606144 := .mono (K_f1_2.to64.mul K_f7_2.to64 (by norm_num)) (by norm_num)
  have K_f1f8_2 : In64 f1f8_2 10172681580183552 := .mono (K_f1_2.to64.mul K_f8.to64 (by norm_num)) (by norm_num)
  have K_f1f9_76 : In64 f1f9_76 194035953734516736 := .mono (K_f1_2.to64.mul K_f9_38.to64 (by norm_num)) (by norm_num)
  have K_f2f2 : In64 f2f2 10133099161583616 := .mono (K_f2.to64.mul K_f2.to64 (by norm_num)) (by norm_num)
  have K_f2f3_2 : In64 f2f3_2 10172681580183552 := .mono (K_f2_2.to64.mul K_f3.to64 (by norm_num)) (by norm_num)
  have K_f2f4_2 : In64 f2f4_2 20266198323167232 := .mono (K_f2_2.to64.mul K_f4.to64 (by norm_num)) (by norm_num)
  have K_f2f5_2 : In64 f2f5_2 10172681580183552 := .mono (K_f2_2.to64.mul K_f5.to64 (by norm_num)) (by norm_num)
  have K_f2f6_2 : In64 f2f6_2 20266198323167232 := .mono (K_f2_2.to64.mul K_f6.to64 (by norm_num)) (by norm_num)
  have K_f2f7_2 : In64 f2f7_2 10172681580183552 := .mono (K_f2_2.to64.mul K_f7.to64 (by norm_num)) (by norm_num)
  have K_f2f8_38 : In64 f2f8_38 385057768140177408 := .mono (K_f2_2.to64.mul K_f8_19.to64 (by norm_num)) (by norm_num)
  have K_f2f9_38 : In64 f2f9_38 193280950023487488 := .mono (K_f2.to64.mul K_f9_38.to64 (by norm_num)) (by norm_num)
  have K_f3f3_2 : In64 f3f3_2 5106209308803072 := .mono (K_f3_2.to64.mul K_f3.to64 (by norm_num)) (by norm_num)
  have K_f3f4_2 : In64 f3f4_2 10172681580183552 := .mono (K_f3_2.to64.mul K_f4.to64 (by norm_num)) (by norm_num)
  have K_f3f5_4 : In64 f3f5_4 10212418617606144 := .mono (K_f3_2.to64.mul K_f5_2.to64 (by norm_num)) (by norm_num)
  have K_f3f6_2 : In64 f3f6_2 10172681580183552 := .mono (K_f3_2.to64.mul K_f6.to64 (by norm_num)) (by norm_num)
  have K_f3f7_76 : In64 f3f7_76 194035953734516736 := .mono (K_f3_2.to64.mul K_f7_38.to64 (by norm_num)) (by norm_num)
  have K_f3f8_38 : In64 f3f8_38 193280950023487488 := .mono (K_f3_2.to64.mul K_f8_19.to64 (by norm_num)) (by norm_num)
  have K_f3f9_76 : In64 f3f9_76 194035953734516736 := .mono (K_f3_2.to64.mul K_f9_38.to64 (by norm_num)) (by norm_num)
  have K_f4f4 : In64 f4f4 10133099161583616 := .mono (K_f4.to64.mul K_f4.to64 (by norm_num)) (by norm_num)
  have K_f4f5_2 : In64 f4f5_2 10172681580183552 := .mono (K_f4_2.to64.mul K_f5.to64 (by norm_num)) (by norm_num)
  have K_f4f6_38 : In64 f4f6_38 385057768140177408 := .mono (K_f4_2.to64.mul K_f6_19.to64 (by norm_num)) (by norm_num)
  have K_f4f7_38 : In64 f4f7_38 193280950023487488 := .mono (K_f4.to64.mul K_f7_38.to64 (by norm_num)) (by norm_num)
  have K_f4f8_38 : In64 f4f8_38 385057768140177408 := .mono (K_f4_2.to64.mul K_f8_19.to64 (by norm_num)) (by norm_num)
  have K_f4f9_38 : In64 f4f9_38 193280950023487488 := .mono (K_f4.to64.mul K_f9_38.to64 (by norm_num)) (by norm_num)
  have K_f5f5_38 : In64 f5f5_38 97017976867258368 := .mono (K_f5.to64.mul K_f5_38.to64 (by norm_num)) (by norm_num)
  have K_f5f6_38 : In64 f5f6_38 193280950023487488 := .mono (K_f5_2.to64.mul K_f6_19.to64 (by norm_num)) (by norm_num)
  have K_f5f7_76 : In64 f5f7_76 194035953734516736 := .mono (K_f5_2.to64.mul K_f7_38.to64 (by norm_num)) (by norm_num)
  have K_f5f8_38 : In64 f5f8_38 193280950023487488 := .mono (K_f5_2.to64.mul K_f8_19.to64 (by norm_num)) (by norm_num)
  have K_f5f9_76 : In64 f5f9_76 194035953734516736 := .mono (K_f5_2.to64.mul K_f9_38.to64 (by norm_num)) (by norm_num)
  have K_f6f6_19 : In64 f6f6_19 192528884070088704 := .mono (K_f6.to64.mul K_f6_19.to64 (by norm_num)) (by norm_num)
  have K_f6f7_38 : In64 f6f7_38 193280950023487488 := .mono (K_f6.to64.mul K_f7_38.to64 (by norm_num)) (by norm_num)
  have K_f6f8_38 : In64 f6f8_38 385057768140177408 := .mono (K_f6_2.to64.mul K_f8_19.to64 (by norm_num)) (by norm_num)
  have K_f6f9_38 : In64 f6f9_38 193280950023487488 := .mono (K_f6.to64.mul K_f9_38.to64 (by norm_num)) (by norm_num)
  have K_f7f7_38 : In64 f7f7_38 97017976867258368 := .mono (K_f7.to64.mul K_f7_38.to64 (by norm_num)) (by norm_num)
  have K_f7f8_38 : In64 f7f8_38 193280950023487488 := .mono (K_f7_2.to64.mul K_f8_19.to64 (by norm_num)) (by norm_num)
  have K_f7f9_76 : In64 f7f9_76 194035953734516736 := .mono (K_f7_2.to64.mul K_f9_38.to64 (by norm_num)) (by norm_num)
  have K_f8f8_19 : In64 f8f8_19 192528884070088704 := .mono (K_f8.to64.mul K_f8_19.to64 (by norm_num)) (by norm_num)
  have K_f8f9_38 : In64 f8f9_38 193280950023487488 := .mono (K_f8.to64.mul K_f9_38.to64 (by norm_num)) (by norm_num)
  have K_f9f9_38 : In64 f9f9_38 97017976867258368 := .mono (K_f9.to64.mul K_f9_38.to64 (by norm_num)) (by norm_num)
  have K_h0n0 : In64 h0n0 1265338519778230272 := .mono (((((K_f0f0.add K_f1f9_76 (by norm_num)).add K_f2f8_38 (by norm_num)).add K_f3f7_76 (by norm_num)).add K_f4f6_38 (by norm_num)).add K_f5f5_38 (by norm_num)) (by norm_num)
  have K_h1n0 : In64 h1n0 783296481674133504 := .mono ((((K_f0f1_2.add K_f2f9_38 (by norm_num)).add K_f3f8_38 (by norm_num)).add K_f4f7_38 (by norm_num)).add K_f5f6_38 (by norm_num)) (by norm_num)
  have K_h2n0 : In64 h2n0 991030967311269888 := .mono (((((K_f0f2_2.add K_f1f1_2 (by norm_num)).add K_f3f9_76 (by norm_num)).add K_f4f8_38 (by norm_num)).add K_f5f7_76 (by norm_num)).add K_f6f6_19 (by norm_num)) (by norm_num)
  have K_h3n0 : In64 h3n0 600188213230829568 := .mono ((((K_f0f3_2.add K_f1f2_2 (by norm_num)).add K_f4f9_38 (by norm_num)).add K_f5f8_38 (by norm_num)).add K_f6f7_38 (by norm_num)) (by norm_num)
  have K_h4n0 : In64 h4n0 716723414844309504 := .mono (((((K_f0f4_2.add K_f1f3_4 (by norm_num)).add K_f2f2 (by norm_num)).add K_f5f9_76 (by norm_num)).add K_f6f8_38 (by norm_num)).add K_f7f7_38 (by norm_num)) (by norm_num)
  have K_h5n0 : In64 h5n0 417079944787525632 := .mono ((((K_f0f5_2.add K_f1f4_2 (by norm_num)).add K_f2f3_2 (by norm_num)).add K_f6f9_38 (by norm_num)).add K_f7f8_38 (by norm_num)) (by norm_num)
  have K_h6n0 : In64 h6n0 442415862377349120 := .mono (((((K_f0f6_2.add K_f1f5_4 (by norm_num)).add K_f2f4_2 (by norm_num)).add K_f3f3_2 (by norm_num)).add K_f7f9_76 (by norm_num)).add K_f8f8_19 (by norm_num)) (by norm_num)
  have K_h7n0 : In64 h7n0 233971676344221696 := .mono ((((K_f0f7_2.add K_f1f6_2 (by norm_num)).add K_f2f5_2 (by norm_num)).add K_f3f4_2 (by norm_num)).add K_f8f9_38 (by norm_num)) (by norm_num)
  have K_h8n0 : In64 h8n0 168108309910388736 := .mono (((((K_f0f8_2.add K_f1f7_4 (by norm_num)).add K_f2f6_2 (by norm_num)).add K_f3f5_4 (by norm_num)).add K_f4f4 (by norm_num)).add K_f9f9_38 (by norm_num)) (by norm_num)
  have K_h9n0 : In64 h9n0 50863407900917760 := .mono ((((K_f0f9_2.add K_f1f8_2 (by norm_num)).add K_f2f7_2 (by norm_num)).add K_f3f6_2 (by norm_num)).add K_f4f5_2 (by norm_num)) (by norm_num)
  have K_carry0n0 : In64 carry0n0 18855013249 := .mono (In64.carry26 K_h0n0 (by norm_num)) (by norm_num)
  have K_h1n1 : In64 h1n1 783296500529146753 := .mono (K_h1n0.add K_carry0n0 (by norm_num)) (by norm_num)
  have K_h0n1 : In64 h0n1 33554432 := .mono (In64.carry26s K_h0n0 (by norm_num)) (by norm_num)
  have K_carry4n0 : In64 carry4n0 10680011137 := .mono (In64.carry26 K_h4n0 (by norm_num)) (by norm_num)
  have K_h5n1 : In64 h5n1 417079955467536769 := .mono (K_h5n0.add K_carry4n0 (by norm_num)) (by norm_num)
  have K_h4n1 : In64 h4n1 33554432 := .mono (In64.carry26s K_h4n0 (by norm_num)) (by norm_num)
  have K_carry1n0 : In64 carry1n0 23344054834 := .mono (In64.carry25 K_h1n1 (by norm_num)) (by norm_num)
  have K_h2n1 : In64 h2n1 991030990655324722 := .mono (K_h2n0.add K_carry1n0 (by norm_num)) (by norm_num)
  have K_h1n2 : In64 h1n2 16777216 := .mono (In64.carry25s K_h1n1 (by norm_num)) (by norm_num)
  have K_carry5n0 : In64 carry5n0 12429951295 := .mono (In64.carry25 K_h5n1 (by norm_num)) (by norm_num)
  have K_h6n1 : In64 h6n1 442415874807300415 := .mono (K_h6n0.add K_carry5n0 (by norm_num)) (by norm_num)
  have K_h5n2 : In64 h5n2 16777216 := .mono (In64.carry25s K_h5n1 (by norm_num)) (by norm_num)
  have K_carry2n0 : In64 carry2n0 14767512540 := .mono (In64.carry26 K_h2n1 (by norm_num)) (by norm_num)
  have K_h3n1 : In64 h3n1 600188227998342108 := .mono (K_h3n0.add K_carry2n0 (by norm_num)) (by norm_num)
  have K_h2n2 : In64 h2n2 33554432 := .mono (In64.carry26s K_h2n1 (by norm_num)) (by norm_num)
  have K_carry6n0 : In64 carry6n0 6592510266 := .mono (In64.carry26 K_h6n1 (by norm_num)) (by norm_num)
  have K_h7n1 : In64 h7n1 233971682936731962 := .mono (K_h7n0.add K_carry6n0 (by norm_num)) (by norm_num)
  have K_h6n2 : In64 h6n2 33554432 := .mono (In64.carry26s K_h6n1 (by norm_num)) (by norm_num)
  have K_carry3n0 : In64 carry3n0 17887003065 := .mono (In64.carry25 K_h3n1 (by norm_num)) (by norm_num)
  have K_h4n2 : In64 h4n2 17920557497 := .mono (K_h4n1.add K_carry3n0 (by norm_num)) (by norm_num)
  have K_h3n2 : In64 h3n2 16777216 := .mono (In64.carry25s K_h3n1 (by norm_num)) (by norm_num)
  have K_carry7n0 : In64 carry7n0 6972899525 := .mono (In64.carry25 K_h7n1 (by norm_num)) (by norm_num)
  have K_h8n1 : In64 h8n1 168108316883288261 := .mono (K_h8n0.add K_carry7n0 (by norm_num)) (by norm_num)
  have K_h7n2 : In64 h7n2 16777216 := .mono (In64.carry25s K_h7n1 (by norm_num)) (by norm_num)
  have K_carry4n1 : In64 carry4n1 268 := .mono (In64.carry26 K_h4n2 (by norm_num)) (by norm_num)
  have K_h5n3 : In64 h5n3 16777484 := .mono (K_h5n2.add K_carry4n1 (by norm_num)) (by norm_num)
  have K_h4n3 : In64 h4n3 33554432 := .mono (In64.carry26s K_h4n2 (by norm_num)) (by norm_num)
  have K_carry8n0 : In64 carry8n0 2505009128 := .mono (In64.carry26 K_h8n1 (by norm_num)) (by norm_num)
  have K_h9n1 : In64 h9n1 50863410405926888 := .mono (K_h9n0.add K_carry8n0 (by norm_num)) (by norm_num)
  have K_h8n2 : In64 h8n2 33554432 := .mono (In64.carry26s K_h8n1 (by norm_num)) (by norm_num)
  have K_carry9n0 : In64 carry9n0 1515847755 := .mono (In64.carry25 K_h9n1 (by norm_num)) (by norm_num)
  have K_h0n2 : In64 h0n2 28834661777 := .mono (K_h0n1.add (K_carry9n0.mul (In64.lit 19 19 rfl) (by norm_num)) (by norm_num)) (by norm_num)
  have K_h9n2 : In64 h9n2 16777216 := .mono (In64.carry25s K_h9n1 (by norm_num)) (by norm_num)
  have K_carry0n1 : In64 carry0n1 430 := .mono (In64.carry26 K_h0n2 (by norm_num)) (by norm_num)
  have K_h1n3 : In64 h1n3 16777646 := .mono (K_h1n2.add K_carry0n1 (by norm_num)) (by norm_num)
  have K_h0n3 : In64 h0n3 33554432 := .mono (In64.carry26s K_h0n2 (by norm_num)) (by norm_num)
  exact okFe (K_h0n3.to32 (by norm_num)) (K_h1n3.to32 (by norm_num)) (K_h2n2.to32 (by norm_num)) (K_h3n2.to32 (by norm_num)) (K_h4n3.to32 (by norm_num)) (K_h5n3.to32 (by norm_num)) (K_h6n2.to32 (by norm_num)) (K_h7n2.to32 (by norm_num)) (K_h8n2.to32 (by norm_num)) (K_h9n2.to32 (by norm_num))

theorem squareDoubleC_ok {f : Fe25} (hf : Limbs25 100663296 50528256 f) : (squareDoubleC f).ok = true := by
  obtain ⟨A0, A1, A2, A3, A4, A5, A6, A7, A8, A9⟩ := hf
  unfold squareDoubleC
  extract_lets f0 f1 f2 f3 f4 f5 f6 f7 f8 f9 f0_2 f1_2 f2_2 f3_2 f4_2 f5_2 f6_2 f7_2 f5_38 f6_19 f7_38 f8_19 f9_38 f0f0 f0f1_2 f0f2_2 f0f3_2 f0f4_2 f0f5_2 f0f6_2 f0f7_2 f0f8_2 f0f9_2 f1f1_2 f1f2_2 f1f3_4 f1f4_2 f1f5_4 f1f6_2 f1f7_4 f1f8_2 f1f9_76 f2f2 f2f3_2 f2f4_2 f2f5_2 f2f6_2 f2f7_2 f2f8_38 f2f9_38 f3f3_2 f3f4_2 f3f5_4 f3f6_2 f3f7_76 f3f8_38 f3f9_76 f4f4 f4f5_2 f4f6_38 f4f7_38 f4f8_38 f4f9_38 f5f5_38 f5f6_38 f5f7_76 f5f8_38 f5f9_76 f6f6_19 f6f7_38 f6f8_38 f6f9_38 f7f7_38 f7f8_38 f7f9_76 f8f8_19 f8f9_38 f9f9_38 h0n0 h1n0 h2n0 h3n0 h4n0 h5n0 h6n0 h7n0 h8n0 h9n0 h0n1 h1n1 h2n1 h3n1 h4n1 h5n1 h6n1 h7n1 h8n1 h9n1 carry0n0 h1n2 h0n2 carry4n0 h5n2 h4n2 carry1n0 h2n2 h1n3 carry5n0 h6n2 h5n3 carry2n0 h3n2 h2n3 carry6n0 h7n2 h6n3 carry3n0 h4n3 h3n3 carry7n0 h8n2 h7n3 carry4n1 h5n4 h4n4 carry8n0 h9n2 h8n3 carry9n0 h0n3 h9n3 carry0n1 h1n4 h0n4
  have K_f0 : In32 f0 100663296 := .mono (In32.of A0) (by norm_num)
  have K_f1 : In32 f1 50528256 := .mono (In32.of A1) (by norm_num)
  have K_f2 : In32 f2 100663296 := .mono (In32.of A2) (by norm_num)
  have K_f3 : In32 f3 50528256 := .mono (In32.of A3) (by norm_num)
  have K_f4 : In32 f4 100663296 := .mono (In32.of A4) (by norm_num)
  have K_f5 : In32 f5 50528256 := .mono (In32.of A5) (by norm_num)
  have K_f6 : In32 f6 100663296 := .mono (In32.of A6) (by norm_num)
  have K_f7 : In32 f7 50528256 := .mono (In32.of A7) (by norm_num)
  have K_f8 : In32 f8 100663296 := .mono (In32.of A8) (by norm_num)
  have K_f9 : In32 f9 50528256 := .mono (In32.of A9) (by norm_num)
  have K_f0_2 : In32 f0_2 201326592 := .mono ((In32.lit 2 2 rfl).mul K_f0 (by norm_num)) (by norm_num)
  have K_f1_2 : In32 f1_2 101056512 := .mono ((In32.lit 2 2 rfl).mul K_f1 (by norm_num)) (by norm_num)
  have K_f2_2 : In32 f2_2 201326592 := .mono ((In32.lit 2 2 rfl).mul K_f2 (by norm_num)) (by norm_num)
  have K_f3_2 : In32 f3_2 101056512 := .mono ((In32.lit 2 2 rfl).mul K_f3 (by norm_num)) (by norm_num)
  have K_f4_2 : In32 f4_2 201326592 := .mono ((In32.lit 2 2 rfl).mul K_f4 (by norm_num)) (by norm_num)
  have K_f5_2 : In32 f5_2 101056512 := .mono ((In32.lit 2 2 rfl).mul K_f5 (by norm_num)) (by norm_num)
  have K_f6_2 : In32 f6_2 201326592 := .mono ((In32.lit 2 2 rfl).mul K_f6 (by norm_num)) (by norm_num)
  have K_f7_2 : In32 f7_2 101056512 := .mono ((In32.lit 2 2 rfl).mul K_f7 (by norm_num)) (by norm_num)
  have K_f5_38 : In32 f5_38 1920073728 := .mono ((In32.lit 38 38 rfl).mul K_f5 (by norm_num)) (by norm_num)
  have K_f6_19 : In32 f6_19 1912602624 := .mono ((In32.lit 19 19 rfl).mul K_f6 (by norm_num)) (by norm_num)
  have K_f7_38 : In32 f7_38 1920073728 := .mono ((In32.lit 38 38 rfl).mul K_f7 (by norm_num)) (by norm_num)
  have K_f8_19 : In32 f8_19 1912602624 := .mono ((In32.lit 19 19 rfl).mul K_f8 (by norm_num)) (by norm_num)
  have K_f9_38 : In32 f9_38 1920073728 := .mono ((In32.lit 38 38 rfl).mul K_f9 (by norm_num)) (by norm_num)
  have K_f0f0 : In64 f0f0 10133099161583616 := .mono (K_f0.to64.mul K_f0.to64 (by norm_num)) (by norm_num)
  have K_f0f1_2 : In64 f0f1_2 10172681580183552 := .mono (K_f0_2.to64.mul K_f1.to64 (by norm_num)) (by norm_num)
  have K_f0f2_2 : In64 f0f2_2 20266198323167232 := .mono (K_f0_2.to64.mul K_f2.to64 (by norm_num)) (by norm_num)
  have K_f0f3_2 : In64 f0f3_2 10172681580183552 := .mono (K_f0_2.to64.mul K_f3.to64 (by norm_num)) (by norm_num)
  have K_f0f4_2 : In64 f0f4_2 20266198323167232 := .mono (K_f0_2.to64.mul K_f4.to64 (by norm_num)) (by norm_num)
  have K_f0f5_2 : In64 f0f5_2 10172681580183552 := .mono (K_f0_2.to64.mul K_f5.to64 (by norm_num)) (by norm_num)
  have K_f0f6_2 : In64 f0f6_2 20266198323167232 := .mono (K_f0_2.to64.mul K_f6.to64 (by norm_num)) (by norm_num)
  have K_f0f7_2 : In64 f0f7_2 10172681580183552 := .mono (K_f0_2.to64.mul K_f7.to64 (by norm_num)) (by norm_num)
  have K_f0f8_2 : In64 f0f8_2 20266198323167232 := .mono (K_f0_2.to64.mul K_f8.to64 (by norm_num)) (by norm_num)
  have K_f0f9_2 : In64 f0f9_2 10172681580183552 := .mono (K_f0_2.to64.mul K_f9.to64 (by norm_num)) (by norm_num)
  have K_f1f1_2 : In64 f1f1_2 5106209308803072 := .mono (K_f1_2.to64.mul K_f1.to64 (by norm_num)) (by norm_num)
  have K_f1f2_2 : In64 f1f2_2 10172681580183552 := .mono (K_f1_2.to64.mul K_f2.to64 (by norm_num)) (by norm_num)
  have K_f1f3_4 : In64 f1f3_4 10212418617606144 := .mono (K_f1_2.to64.mul K_f3_2.to64 (by norm_num)) (by norm_num)
  have K_f1f4_2 : In64 f1f4_2 10172681580183552 := .mono (K_f1_2.to64.mul K_f4.to64 (by norm_num)) (by norm_num)
  have K_f1f5_4 : In64 f1f5_4 10212418617606144 := .mono (K_f1_2.to64.mul K_f5_2.to64 (by norm_num)) (by norm_num)
  have K_f1f6_2 : In64 f1f6_2 10172681580183552 := .mono (K_f1_2.to64.mul K_f6.to64 (by norm_num)) (by norm_num)
  have K_f1f7_4 : In64 f1f7_4 10212418617606144 := .mono (K_f1_2.to64.mul K_f7_2.to64 (by norm_num)) (by norm_num)
  have K_f1f8_2 : In64 f1f8_2 10172681580183552 := .mono (K_f1_2.to64.mul K_f8.to64 (by norm_num)) (by norm_num)
  have K_f1f9_76 : In64 f1f9_76 194035953734516736 := .mono (K_f1_2.to64.mul K_f9_38.to64 (by norm_num)) (by norm_num)
  have K_f2f2 : In64 f2f2 10133099161583616 := .mono (K_f2.to64.mul K_f2.to64 (by norm_num)) (by norm_num)
  have K_f2f3_2 : In64 f2f3_2 10172681580183552 := .mono (K_f2_2.to64.mul K_f3.to64 (by norm_num)) (by norm_num)
  have K_f2f4_2 : In64 f2f4_2 20266198323167232 := .mono (K_f2_2.to64.mul K_f4.to64 (by norm_num)) (by norm_num)
  have K_f2f5_2 : In64 f2f5_2 10172681580183552 := .mono (K_f2_2.to64.mul K_f5.to64 (by norm_num)) (by norm_num)
  have K_f2f6_2 : In64 f2f6_2 20266198323167232 := .mono (K_f2_2.to64.mul K_f6.to64 (by norm_num)) (by norm_num)
  have K_f2f7_2 : In64 f2f7_2 10172681580183552 := .mono (K_f2_2.to64.mul K_f7.to64 (by norm_num)) (by norm_num)
  have K_f2f8_38 : In64 f2f8_38 385057768140177408 := .mono (K_f2_2.to64.mul K_f8_19.to64 (by norm_num)) (by norm_num)
  have K_f2f9_38 : In64 f2f9_38 193280950023487488 := .mono (K_f2.to64.mul K_f9_38.to64 (by norm_num)) (by norm_num)
  have K_f3f3_2 : In64 f3f3_2 5106209308803072 := .mono (K_f3_2.to64.mul K_f3.to64 (by norm_num)) (by norm_num)
  have K_f3f4_2 : In64 f3f4_2 10172681580183552 := .mono (K_f3_2.to64.mul K_f4.to64 (by norm_num)) (by norm_num)
  have K_f3f5_4 : In64 f3f5_4 10212418617606144 := .mono (K_f3_2.to64.mul K_f5_2.to64 (by norm_num)) (by norm_num)
  have K_f3f6_2 : In64 f3f6_2 10172681580183552 := .mono (K_f3_2.to64.mul K_f6.to64 (by norm_num)) (by norm_num)
  have K_f3f7_76 : In64 f3f7_76 194035953734516736 := .mono (K_f3_2.to64.mul K_f7_38.to64 (by norm_num)) (by norm_num)
  have K_f3f8_38 : In64 f3f8_38 193280950023487488 := .mono (K_f3_2.to64.mul K_f8_19.to64 (by norm_num)) (by norm_num)
  have K_f3f9_76 : In64 f3f9_76 194035953734516736 := .mono (K_f3_2.to64.mul K_f9_38.to64 (by norm_num)) (by norm_num)
  have K_f4f4 : In64 f4f4 10133099161583616 := .mono (K_f4.to64.mul K_f4.to64 (by norm_num)) (by norm_num)
  have K_f4f5_2 : In64 f4f5_2 10172681580183552 := .mono (K_f4_2.to64.mul K_f5.to64 (by norm_num)) (by norm_num)
  have K_f4f6_38 : In64 f4f6_38 385057768140177408 := .mono (K_f4_2.to64.mul K_f6_19.to64 (by norm_num)) (by norm_num)
  have K_f4f7_38 : In64 f4f7_38 193280950023487488 := .mono (K_f4.to64.mul K_f7_38.to64 (by norm_num)) (by norm_num)
  have K_f4f8_38 : In64 f4f8_38 385057768140177408 := .mono (K_f4_2.to64.mul K_f8_19.to64 (by norm_num)) (by norm_num)
  have K_f4f9_38 : In64 f4f9_38 193280950023487488 := .mono (K_f4.to64.mul K_f9_38.to64 (by norm_num)) (by norm_num)
  have K_f5f5_38 : In64 f5f5_38 97017976867258368 := .mono (K_f5.to64.mul K_f5_38.to64 (by norm_num)) (by norm_num)
  have K_f5f6_38 : In64 f5f6_38 193280950023487488 := .mono (K_f5_2.to64.mul K_f6_19.to64 (by norm_num)) (by norm_num)
  have K_f5f7_76 : In64 f5f7_76 194035953734516736 := .mono (K_f5_2.to64.mul K_f7_38.to64 (by norm_num)) (by norm_num)
  have K_f5f8_38 : In64 f5f8_38 193280950023487488 := .mono (K_f5_2.to64.mul K_f8_19.to64 (by norm_num)) (by norm_num)
  have K_f5f9_76 : In64 f5f9_76 194035953734516736 := .mono (K_f5_2.to64.mul K_f9_38.to64 (by norm_num)) (by norm_num)
  have K_f6f6_19 : In64 f6f6_19 192528884070088704 := .mono (K_f6.to64.mul K_f6_19.to64 (by norm_num)) (by norm_num)
  have K_f6f7_38 : In64 f6f7_38 193280950023487488 := .mono (K_f6.to64.mul K_f7_38.to64 (by norm_num)) (by norm_num)
  have K_f6f8_38 : In64 f6f8_38 385057768140177408 := .mono (K_f6_2.to64.mul K_f8_19.to64 (by norm_num)) (by norm_num)
  have K_f6f9_38 : In64 f6f9_38 193280950023487488 := .mono (K_f6.to64.mul K_f9_38.to64 (by norm_num)) (by norm_num)
  have K_f7f7_38 : In64 f7f7_38 97017976867258368 := .mono (K_f7.to64.mul K_f7_38.to64 (by norm_num)) (by norm_num)
  have K_f7f8_38 : In64 f7f8_38 193280950023487488 := .mono (K_f7_2.to64.mul K_f8_19.to64 (by norm_num)) (by norm_num)
  have K_f7f9_76 : In64 f7f9_76 194035953734516736 := .mono (K_f7_2.to64.mul K_f9_38.to64 (by norm_num)) (by norm_num)
  have K_f8f8_19 : In64 f8f8_19 192528884070088704 := .mono (K_f8.to64.mul K_f8_19.to64 (by norm_num)) (by norm_num)
  have K_f8f9_38 : In64 f8f9_38 193280950023487488 := .mono (K_f8.to64.mul K_f9_38.to64 (by norm_num)) (by norm_num)
  have K_f9f9_38 : In64 f9f9_38 97017976867258368 := .mono (K_f9.to64.mul K_f9_38.to64 (by norm_num)) (by norm_num)
  have K_h0n0 : In64 h0n0 1265338519778230272 := .mono (((((K_f0f0.add K_f1f9_76 (by norm_num)).add K_f2f8_38 (by norm_num)).add K_f3f7_76 (by norm_num)).add K_f4f6_38 (by norm_num)).add K_f5f5_38 (by norm_num)) (by norm_num)
  have K_h1n0 : In64 h1n0 783296481674133504 := .mono ((((K_f0f1_2.add K_f2f9_38 (by norm_num)).add K_f3f8_38 (by norm_num)).add K_f4f7_38 (by norm_num)).add K_f5f6_38 (by norm_num)) (by norm_num)
  have K_h2n0 : In64 h2n0 991030967311269888 := .mono (((((K_f0f2_2.add K_f1f1_2 (by norm_num)).add K_f3f9_76 (by norm_num)).add K_f4f8_38 (by norm_num)).add K_f5f7_76 (by norm_num)).add K_f6f6_19 (by norm_num)) (by norm_num)
  have K_h3n0 : In64 h3n0 600188213230829568 := .mono ((((K_f0f3_2.add K_f1f2_2 (by norm_num)).add K_f4f9_38 (by norm_num)).add K_f5f8_38 (by norm_num)).add K_f6f7_38 (by norm_num)) (by norm_num)
  have K_h4n0 : In64 h4n0 716723414844309504 := .mono (((((K_f0f4_2.add K_f1f3_4 (by norm_num)).add K_f2f2 (by norm_num)).add K_f5f9_76 (by norm_num)).add K_f6f8_38 (by norm_num)).add K_f7f7_38 (by norm_num)) (by norm_num)
  have K_h5n0 : In64 h5n0 417079944787525632 := .mono ((((K_f0f5_2.add K_f1f4_2 (by norm_num)).add K_f2f3_2 (by norm_num)).add K_f6f9_38 (by norm_num)).add K_f7f8_38 (by norm_num)) (by norm_num)
  have K_h6n0 : In64 h6n0 442415862377349120 := .mono (((((K_f0f6_2.add K_f1f5_4 (by norm_num)).add K_f2f4_2 (by norm_num)).add K_f3f3_2 (by norm_num)).add K_f7f9_76 (by norm_num)).add K_f8f8_19 (by norm_num)) (by norm_num)
  have K_h7n0 : In64 h7n0 233971676344221696 := .mono ((((K_f0f7_2.add K_f1f6_2 (by norm_num)).add K_f2f5_2 (by norm_num)).add K_f3f4_2 (by norm_num)).add K_f8f9_38 (by norm_num)) (by norm_num)
  have K_h8n0 : In64 h8n0 168108309910388736 := .mono (((((K_f0f8_2.add K_f1f7_4 (by norm_num)).add K_f2f6_2 (by norm_num)).add K_f3f5_4 (by norm_num)).add K_f4f4 (by norm_num)).add K_f9f9_38 (by norm_num)) (by norm_num)
  have K_h9n0 : In64 h9n0 50863407900917760 := .mono ((((K_f0f9_2.add K_f1f8_2 (by norm_num)).add K_f2f7_2 (by norm_num)).add K_f3f6_2 (by norm_num)).add K_f4f5_2 (by norm_num)) (by norm_num)
  have K_h0n1 : In64 h0n1 2530677039556460544 := .mono (K_h0n0.add K_h0n0 (by norm_num)) (by norm_num)
  have K_h1n1 : In64 h1n1 1566592963348267008 := .mono (K_h1n0.add K_h1n0 (by norm_num)) (by norm_num)
  have K_h2n1 : In64 h2n1 1982061934622539776 := .mono (K_h2n0.add K_h2n0 (by norm_num)) (by norm_num)
  have K_h3n1 : In64 h3n1 1200376426461659136 := .mono (K_h3n0.add K_h3n0 (by norm_num)) (by norm_num)
  have K_h4n1 : In64 h4n1 1433446829688619008 := .mono (K_h4n0.add K_h4n0 (by norm_num)) (by norm_num)
  have K_h5n1 : In64 h5n1 834159889575051264 := .mono (K_h5n0.add K_h5n0 (by norm_num)) (by norm_num)
  have K_h6n1 : In64 h6n1 884831724754698240 := .mono (K_h6n0.add K_h6n0 (by norm_num)) (by norm_num)
  have K_h7n1 : In64 h7n1 467943352688443392 := .mono (K_h7n0.add K_h7n0 (by norm_num)) (by norm_num)
  have K_h8n1 : In64 h8n1 336216619820777472 := .mono (K_h8n0.add K_h8n0 (by norm_num)) (by norm_num)
  have K_h9n1 : In64 h9n1 101726815801835520 := .mono (K_h9n0.add K_h9n0 (by norm_num)) (by norm_num)
  have K_carry0n0 : In64 carry0n0 37710026497 := .mono (In64.carry26 K_h0n1 (by norm_num)) (by norm_num)
  have K_h1n2 : In64 h1n2 1566593001058293505 := .mono (K_h1n1.add K_carry0n0 (by norm_num)) (by norm_num)
  have K_h0n2 : In64 h0n2 33554432 := .mono (In64.carry26s K_h0n1 (by norm_num)) (by norm_num)
  have K_carry4n0 : In64 carry4n0 21360022273 := .mono (In64.carry26 K_h4n1 (by norm_num)) (by norm_num)
  have K_h5n2 : In64 h5n2 834159910935073537 := .mono (K_h5n1.add K_carry4n0 (by norm_num)) (by norm_num)
  have K_h4n2 : In64 h4n2 33554432 := .mono (In64.carry26s K_h4n1 (by norm_num)) (by norm_num)
  have K_carry1n0 : In64 carry1n0 46688109668 := .mono (In64.carry25 K_h1n2 (by norm_num)) (by norm_num)
  have K_h2n2 : In64 h2n2 1982061981310649444 := .mono (K_h2n1.add K_carry1n0 (by norm_num)) (by norm_num)
  have K_h1n3 : In64 h1n3 16777216 := .mono (In64.carry25s K_h1n2 (by norm_num)) (by norm_num)
  have K_carry5n0 : In64 carry5n0 24859902589 := .mono (In64.carry25 K_h5n2 (by norm_num)) (by norm_num)
  have K_h6n2 : In64 h6n2 884831749614600829 := .mono (K_h6n1.add K_carry5n0 (by norm_num)) (by norm_num)
  have K_h5n3 : In64 h5n3 16777216 := .mono (In64.carry25s K_h5n2 (by norm_num)) (by norm_num)
  have K_carry2n0 : In64 carry2n0 29535025080 := .mono (In64.carry26 K_h2n2 (by norm_num)) (by norm_num)
  have K_h3n2 : In64 h3n2 1200376455996684216 := .mono (K_h3n1.add K_carry2n0 (by norm_num)) (by norm_num)
  have K_h2n3 : In64 h2n3 33554432 := .mono (In64.carry26s K_h2n2 (by norm_num)) (by norm_num)
  have K_carry6n0 : In64 carry6n0 13185020531 := .mono (In64.carry26 K_h6n2 (by norm_num)) (by norm_num)
  have K_h7n2 : In64 h7n2 467943365873463923 := .mono (K_h7n1.add K_carry6n0 (by norm_num)) (by norm_num)
  have K_h6n3 : In64 h6n3 33554432 := .mono (In64.carry26s K_h6n2 (by norm_num)) (by norm_num)
  have K_carry3n0 : In64 carry3n0 35774006129 := .mono (In64.carry25 K_h3n2 (by norm_num)) (by norm_num)
  have K_h4n3 : In64 h4n3 35807560561 := .mono (K_h4n2.add K_carry3n0 (by norm_num)) (by norm_num)
  have K_h3n3 : In64 h3n3 16777216 := .mono (In64.carry25s K_h3n2 (by norm_num)) (by norm_num)
  have K_carry7n0 : In64 carry7n0 13945799049 := .mono (In64.carry25 K_h7n2 (by norm_num)) (by norm_num)
  have K_h8n2 : In64 h8n2 336216633766576521 := .mono (K_h8n1.add K_carry7n0 (by norm_num)) (by norm_num)
  have K_h7n3 : In64 h7n3 16777216 := .mono (In64.carry25s K_h7n2 (by norm_num)) (by norm_num)
  have K_carry4n1 : In64 carry4n1 534 := .mono (In64.carry26 K_h4n3 (by norm_num)) (by norm_num)
  have K_h5n4 : In64 h5n4 16777750 := .mono (K_h5n3.add K_carry4n1 (by norm_num)) (by norm_num)
  have K_h4n4 : In64 h4n4 33554432 := .mono (In64.carry26s K_h4n3 (by norm_num)) (by norm_num)
  have K_carry8n0 : In64 carry8n0 5010018256 := .mono (In64.carry26 K_h8n2 (by norm_num)) (by norm_num)
  have K_h9n2 : In64 h9n2 101726820811853776 := .mono (K_h9n1.add K_carry8n0 (by norm_num)) (by norm_num)
  have K_h8n3 : In64 h8n3 33554432 := .mono (In64.carry26s K_h8n2 (by norm_num)) (by norm_num)
  have K_carry9n0 : In64 carry9n0 3031695510 := .mono (In64.carry25 K_h9n2 (by norm_num)) (by norm_num)
  have K_h0n3 : In64 h0n3 57635769122 := .mono (K_h0n2.add (K_carry9n0.mul (In64.lit 19 19 rfl) (by norm_num)) (by norm_num)) (by norm_num)
  have K_h9n3 : In64 h9n3 16777216 := .mono (In64.carry25s K_h9n2 (by norm_num)) (by norm_num)
  have K_carry0n1 : In64 carry0n1 859 := .mono (In64.carry26 K_h0n3 (by norm_num)) (by norm_num)
  have K_h1n4 : In64 h1n4 16778075 := .mono (K_h1n3.add K_carry0n1 (by norm_num)) (by norm_num)
  have K_h0n4 : In64 h0n4 33554432 := .mono (In64.carry26s K_h0n3 (by norm_num)) (by norm_num)
  exact okFe (K_h0n4.to32 (by norm_num)) (K_h1n4.to32 (by norm_num)) (K_h2n3.to32 (by norm_num)) (K_h3n3.to32 (by norm_num)) (K_h4n4.to32 (by norm_num)) (K_h5n4.to32 (by norm_num)) (K_h6n3.to32 (by norm_num)) (K_h7n3.to32 (by norm_num)) (K_h8n3.to32 (by norm_num)) (K_h9n3.to32 (by norm_num))

theorem packC_ok {h : Fe25} (hh : Limbs25 100663296 50528256 h) : ∀ c ∈ packC h, c.ok = true := by
  obtain ⟨A0, A1, A2, A3, A4, A5, A6, A7, A8, A9⟩ := hh
  unfold packC
  extract_lets h0n0 h1n0 h2n0 h3n0 h4n0 h5n0 h6n0 h7n0 h8n0 h9n0 qn0 qn1 qn2 qn3 qn4 qn5 qn6 qn7 qn8 qn9 qn10 h0n1 carry0n0 h1n1 h0n2 carry1n0 h2n1 h1n2 carry2n0 h3n1 h2n2 carry3n0 h4n1 h3n2 carry4n0 h5n1 h4n2 carry5n0 h6n1 h5n2 carry6n0 h7n1 h6n2 carry7n0 h8n1 h7n2 carry8n0 h9n1 h8n2 carry9n0 h9n2
  have K_h0n0 : In32 h0n0 100663296 := .mono (In32.of A0) (by norm_num)
  have K_h1n0 : In32 h1n0 50528256 := .mono (In32.of A1) (by norm_num)
  have K_h2n0 : In32 h2n0 100663296 := .mono (In32.of A2) (by norm_num)
  have K_h3n0 : In32 h3n0 50528256 := .mono (In32.of A3) (by norm_num)
  have K_h4n0 : In32 h4n0 100663296 := .mono (In32.of A4) (by norm_num)
  have K_h5n0 : In32 h5n0 50528256 := .mono (In32.of A5) (by norm_num)
  have K_h6n0 : In32 h6n0 100663296 := .mono (In32.of A6) (by norm_num)
  have K_h7n0 : In32 h7n0 50528256 := .mono (In32.of A7) (by norm_num)
  have K_h8n0 : In32 h8n0 100663296 := .mono (In32.of A8) (by norm_num)
  have K_h9n0 : In32 h9n0 50528256 := .mono (In32.of A9) (by norm_num)
  have K_qn0 : In32 qn0 30 := .mono ((((In32.lit 19 19 rfl).mul K_h9n0 (by norm_num)).add (In32.lit 16777216 16777216 rfl) (by norm_num)).shr 25 25 rfl) (by norm_num)
  have K_qn1 : In32 qn1 2 := .mono ((K_h0n0.add K_qn0 (by norm_num)).shr 26 26 rfl) (by norm_num)
  have K_qn2 : In32 qn2 2 := .mono ((K_h1n0.add K_qn1 (by norm_num)).shr 25 25 rfl) (by norm_num)
  have K_qn3 : In32 qn3 2 := .mono ((K_h2n0.add K_qn2 (by norm_num)).shr 26 26 rfl) (by norm_num)
  have K_qn4 : In32 qn4 2 := .mono ((K_h3n0.add K_qn3 (by norm_num)).shr 25 25 rfl) (by norm_num)
  have K_qn5 : In32 qn5 2 := .mono ((K_h4n0.add K_qn4 (by norm_num)).shr 26 26 rfl) (by norm_num)
  have K_qn6 : In32 qn6 2 := .mono ((K_h5n0.add K_qn5 (by norm_num)).shr 25 25 rfl) (by norm_num)
  have K_qn7 : In32 qn7 2 := .mono ((K_h6n0.add K_qn6 (by norm_num)).shr 26 26 rfl) (by norm_num)
  have K_qn8 : In32 qn8 2 := .mono ((K_h7n0.add K_qn7 (by norm_num)).shr 25 25 rfl) (by norm_num)
  have K_qn9 : In32 qn9 2 := .mono ((K_h8n0.add K_qn8 (by norm_num)).shr 26 26 rfl) (by norm_num)
  have K_qn10 : In32 qn10 2 := .mono ((K_h9n0.add K_qn9 (by norm_num)).shr 25 25 rfl) (by norm_num)
  have K_h0n1 : In32 h0n1 100663334 := .mono (K_h0n0.add ((In32.lit 19 19 rfl).mul K_qn10 (by norm_num)) (by norm_num)) (by norm_num)
  have K_carry0n0 : In32 carry0n0 2 := .mono (K_h0n1.shr 26 26 rfl) (by norm_num)
  have K_h1n1 : In32 h1n1 50528258 := .mono (K_h1n0.add K_carry0n0 (by norm_num)) (by norm_num)
  have K_h0n2 : In32 h0n2 234881062 := .mono (K_h0n1.sub (K_carry0n0.shl 26 26 rfl (by norm_num)) (by norm_num)) (by norm_num)
  have K_carry1n0 : In32 carry1n0 2 := .mono (K_h1n1.shr 25 25 rfl) (by norm_num)
  have K_h2n1 : In32 h2n1 100663298 := .mono (K_h2n0.add K_carry1n0 (by norm_num)) (by norm_num)
  have K_h1n2 : In32 h1n2 117637122 := .mono (K_h1n1.sub (K_carry1n0.shl 25 25 rfl (by norm_num)) (by norm_num)) (by norm_num)
  have K_carry2n0 : In32 carry2n0 2 := .mono (K_h2n1.shr 26 26 rfl) (by norm_num)
  have K_h3n1 : In32 h3n1 50528258 := .mono (K_h3n0.add K_carry2n0 (by norm_num)) (by norm_num)
  have K_h2n2 : In32 h2n2 234881026 := .mono (K_h2n1.sub (K_carry2n0.shl 26 26 rfl (by norm_num)) (by norm_num)) (by norm_num)
  have K_carry3n0 : In32 carry3n0 2 := .mono (K_h3n1.shr 25 25 rfl) (by norm_num)
  have K_h4n1 : In32 h4n1 100663298 := .mono (K_h4n0.add K_carry3n0 (by norm_num)) (by norm_num)
  have K_h3n2 : In32 h3n2 117637122 := .mono (K_h3n1.sub (K_carry3n0.shl 25 25 rfl (by norm_num)) (by norm_num)) (by norm_num)
  have K_carry4n0 : In32 carry4n0 2 := .mono (K_h4n1.shr 26 26 rfl) (by norm_num)
  have K_h5n1 : In32 h5n1 50528258 := .mono (K_h5n0.add K_carry4n0 (by norm_num)) (by norm_num)
  have K_h4n2 : In32 h4n2 234881026 := .mono (K_h4n1.sub (K_carry4n0.shl 26 26 rfl (by norm_num)) (by norm_num)) (by norm_num)
  have K_carry5n0 : In32 carry5n0 2 := .mono (K_h5n1.shr 25 25 rfl) (by norm_num)
  have K_h6n1 : In32 h6n1 100663298 := .mono (K_h6n0.add K_carry5n0 (by norm_num)) (by norm_num)
  have K_h5n2 : In32 h5n2 117637122 := .mono (K_h5n1.sub (K_carry5n0.shl 25 25 rfl (by norm_num)) (by norm_num)) (by norm_num)
  have K_carry6n0 : In32 carry6n0 2 := .mono (K_h6n1.shr 26 26 rfl) (by norm_num)
  have K_h7n1 : In32 h7n1 50528258 := .mono (K_h7n0.add K_carry6n0 (by norm_num)) (by norm_num)
  have K_h6n2 : In32 h6n2 234881026 := .mono (K_h6n1.sub (K_carry6n0.shl 26 26 rfl (by norm_num)) (by norm_num)) (by norm_num)
  have K_carry7n0 : In32 carry7n0 2 := .mono (K_h7n1.shr 25 25 rfl) (by norm_num)
  have K_h8n1 : In32 h8n1 100663298 := .mono (K_h8n0.add K_carry7n0 (by norm_num)) (by norm_num)
  have K_h7n2 : In32 h7n2 117637122 := .mono (K_h7n1.sub (K_carry7n0.shl 25 25 rfl (by norm_num)) (by norm_num)) (by norm_num)
  have K_carry8n0 : In32 carry8n0 2 := .mono (K_h8n1.shr 26 26 rfl) (by norm_num)
  have K_h9n1 : In32 h9n1 50528258 := .mono (K_h9n0.add K_carry8n0 (by norm_num)) (by norm_num)
  have K_h8n2 : In32 h8n2 234881026 := .mono (K_h8n1.sub (K_carry8n0.shl 26 26 rfl (by norm_num)) (by norm_num)) (by norm_num)
  have K_carry9n0 : In32 carry9n0 2 := .mono (K_h9n1.shr 25 25 rfl) (by norm_num)
  have K_h9n2 : In32 h9n2 117637122 := .mono (K_h9n1.sub (K_carry9n0.shl 25 25 rfl (by norm_num)) (by norm_num)) (by norm_num)
  simp only [List.mem_cons, List.not_mem_nil, or_false, forall_eq_or_imp, forall_eq, ok_byte, ok_or, ok_shl, ok_shr, K_h0n2.1, K_h1n2.1, K_h2n2.1, K_h3n2.1, K_h4n2.1, K_h5n2.1, K_h6n2.1, K_h7n2.1, K_h8n2.1, K_h9n2.1]
  decide

theorem unpackC_ok (s : Bytes 32) : (unpackC s).ok = true := by
  unfold unpackC
  extract_lets h0n0 h1n0 h2n0 h3n0 h4n0 h5n0 h6n0 h7n0 h8n0 h9n0 carry9n0 h0n1 h9n1 carry1n0 h2n1 h1n1 carry3n0 h4n1 h3n1 carry5n0 h6n1 h5n1 carry7n0 h8n1 h7n1 carry0n0 h1n2 h0n2 carry2n0 h3n2 h2n2 carry4n0 h5n2 h4n2 carry6n0 h7n2 h6n2 carry8n0 h9n2 h8n2
  have K_h0n0 : In64 h0n0 17179869184 := .mono (In64.ofI ((Fe25.load4_spec s[0] s[1] s[2] s[3]))) (by norm_num)
  have K_h1n0 : In64 h1n0 17179869184 := .mono (In64.ofI (((Fe25.load3_spec s[4] s[5] s[6]).shlT 6 6 rfl (by norm_num)))) (by norm_num)
  have K_h2n0 : In64 h2n0 17179869184 := .mono (In64.ofI (((Fe25.load3_spec s[7] s[8] s[9]).shlT 5 5 rfl (by norm_num)))) (by norm_num)
  have K_h3n0 : In64 h3n0 17179869184 := .mono (In64.ofI (((Fe25.load3_spec s[10] s[11] s[12]).shlT 3 3 rfl (by norm_num)))) (by norm_num)
  have K_h4n0 : In64 h4n0 17179869184 := .mono (In64.ofI (((Fe25.load3_spec s[13] s[14] s[15]).shlT 2 2 rfl (by norm_num)))) (by norm_num)
  have K_h5n0 : In64 h5n0 17179869184 := .mono (In64.ofI ((Fe25.load4_spec s[16] s[17] s[18] s[19]))) (by norm_num)
  have K_h6n0 : In64 h6n0 17179869184 := .mono (In64.ofI (((Fe25.load3_spec s[20] s[21] s[22]).shlT 7 7 rfl (by norm_num)))) (by norm_num)
  have K_h7n0 : In64 h7n0 17179869184 := .mono (In64.ofI (((Fe25.load3_spec s[23] s[24] s[25]).shlT 5 5 rfl (by norm_num)))) (by norm_num)
  have K_h8n0 : In64 h8n0 17179869184 := .mono (In64.ofI (((Fe25.load3_spec s[26] s[27] s[28]).shlT 4 4 rfl (by norm_num)))) (by norm_num)
  have K_h9n0 : In64 h9n0 17179869184 := .mono (In64.ofI (((Fe25.load3m_spec s[29] s[30] s[31]).shlT 2 2 rfl (by norm_num)))) (by norm_num)
  have K_carry9n0 : In64 carry9n0 513 := .mono (In64.carry25 K_h9n0 (by norm_num)) (by norm_num)
  have K_h0n1 : In64 h0n1 17179878931 := .mono (K_h0n0.add (K_carry9n0.mul (In64.lit 19 19 rfl) (by norm_num)) (by norm_num)) (by norm_num)
  have K_h9n1 : In64 h9n1 16777216 := .mono (In64.carry25s K_h9n0 (by norm_num)) (by norm_num)
  have K_carry1n0 : In64 carry1n0 513 := .mono (In64.carry25 K_h1n0 (by norm_num)) (by norm_num)
  have K_h2n1 : In64 h2n1 17179869697 := .mono (K_h2n0.add K_carry1n0 (by norm_num)) (by norm_num)
  have K_h1n1 : In64 h1n1 16777216 := .mono (In64.carry25s K_h1n0 (by norm_num)) (by norm_num)
  have K_carry3n0 : In64 carry3n0 513 := .mono (In64.carry25 K_h3n0 (by norm_num)) (by norm_num)
  have K_h4n1 : In64 h4n1 17179869697 := .mono (K_h4n0.add K_carry3n0 (by norm_num)) (by norm_num)
  have K_h3n1 : In64 h3n1 16777216 := .mono (In64.carry25s K_h3n0 (by norm_num)) (by norm_num)
  have K_carry5n0 : In64 carry5n0 513 := .mono (In64.carry25 K_h5n0 (by norm_num)) (by norm_num)
  have K_h6n1 : In64 h6n1 17179869697 := .mono (K_h6n0.add K_carry5n0 (by norm_num)) (by norm_num)
  have K_h5n1 : In64 h5n1 16777216 := .mono (In64.carry25s K_h5n0 (by norm_num)) (by norm_num)
  have K_carry7n0 : In64 carry7n0 513 := .mono (In64.carry25 K_h7n0 (by norm_num)) (by norm_num)
  have K_h8n1 : In64 h8n1 17179869697 := .mono (K_h8n0.add K_carry7n0 (by norm_num)) (by norm_num)
  have K_h7n1 : In64 h7n1 16777216 := .mono (In64.carry25s K_h7n0 (by norm_num)) (by norm_num)
  have K_carry0n0 : In64 carry0n0 257 := .mono (In64.carry26 K_h0n1 (by norm_num)) (by norm_num)
  have K_h1n2 : In64 h1n2 16777473 := .mono (K_h1n1.add K_carry0n0 (by norm_num)) (by norm_num)
  have K_h0n2 : In64 h0n2 33554432 := .mono (In64.carry26s K_h0n1 (by norm_num)) (by norm_num)
  have K_carry2n0 : In64 carry2n0 257 := .mono (In64.carry26 K_h2n1 (by norm_num)) (by norm_num)
  have K_h3n2 : In64 h3n2 16777473 := .mono (K_h3n1.add K_carry2n0 (by norm_num)) (by norm_num)
  have K_h2n2 : In64 h2n2 33554432 := .mono (In64.carry26s K_h2n1 (by norm_num)) (by norm_num)
  have K_carry4n0 : In64 carry4n0 257 := .mono (In64.carry26 K_h4n1 (by norm_num)) (by norm_num)
  have K_h5n2 : In64 h5n2 16777473 := .mono (K_h5n1.add K_carry4n0 (by norm_num)) (by norm_num)
  have K_h4n2 : In64 h4n2 33554432 := .mono (In64.carry26s K_h4n1 (by norm_num)) (by norm_num)
  have K_carry6n0 : In64 carry6n0 257 := .mono (In64.carry26 K_h6n1 (by norm_num)) (by norm_num)
  have K_h7n2 : In64 h7n2 16777473 := .mono (K_h7n1.add K_carry6n0 (by norm_num)) (by norm_num)
  have K_h6n2 : In64 h6n2 33554432 := .mono (In64.carry26s K_h6n1 (by norm_num)) (by norm_num)
  have K_carry8n0 : In64 carry8n0 257 := .mono (In64.carry26 K_h8n1 (by norm_num)) (by norm_num)
  have K_h9n2 : In64 h9n2 16777473 := .mono (K_h9n1.add K_carry8n0 (by norm_num)) (by norm_num)
  have K_h8n2 : In64 h8n2 33554432 := .mono (In64.carry26s K_h8n1 (by norm_num)) (by norm_num)
  exact okFe (K_h0n2.to32 (by norm_num)) (K_h1n2.to32 (by norm_num)) (K_h2n2.to32 (by norm_num)) (K_h3n2.to32 (by norm_num)) (K_h4n2.to32 (by norm_num)) (K_h5n2.to32 (by norm_num)) (K_h6n2.to32 (by norm_num)) (K_h7n2.to32 (by norm_num)) (K_h8n2.to32 (by norm_num)) (K_h9n2.to32 (by norm_num))

end Ristretto.Proofs.Cref
