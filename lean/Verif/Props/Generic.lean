import Verif.Props.Machine
import Verif.Proofs.Sim25

/-!
# C45, C49, C50: the generic field implementation (field_generic.go, table_generic.go)

The build with tag `forcegeneric` represents field elements by ten signed limbs.  `feVal25`, `Limbs25`, `Tight25`
(Spec/Repr25.lean) say what limbs stand for and how large they are.
-/

namespace Ristretto.Props
open Model Proofs
set_option autoImplicit false

/-! ## C49: field operations -/

/-- **C49**: `Mul` is the product in GF(2^255-19), with small limbs, whenever the limbs of the first factor are at most
2^27 and those of the second at most `(2^31-1)/19`. -/
theorem C49_mul (a b : Fe25) (ha : Limbs25 (2 ^ 27) (2 ^ 27) a) (hb : Limbs25 times19 times19 b) :
    Tight25 (Fe25.mul a b) ∧ feVal25 (Fe25.mul a b) = feVal25 a * feVal25 b := Fe25.mul_spec a b ha hb

/-- **C49**: `Square`. -/
theorem C49_square (a : Fe25) (ha : Limbs25 (2 ^ 27) (2 ^ 27) a) :
    Tight25 (Fe25.square a) ∧ feVal25 (Fe25.square a) = feVal25 a ^ 2 := by
  obtain ⟨h1, h2⟩ := Fe25.square_spec a ha
  exact ⟨h1, by rw [h2]; ring⟩

/-- **C49**: `DoubledSquare`. -/
theorem C49_doubledSquare (a : Fe25) (ha : Limbs25 times19 times19 a) :
    Tight25 (Fe25.doubledSquare a) ∧ feVal25 (Fe25.doubledSquare a) = 2 * feVal25 a ^ 2 := by
  obtain ⟨h1, h2⟩ := Fe25.doubledSquare_spec a ha
  exact ⟨h1, by rw [h2]; ring⟩

/-- **C49**: the unexported `add` and `sub` and `Neg` do not reduce: the bounds add up. -/
theorem C49_addSubNeg (a b : Fe25) (A B C D : ℕ) (ha : Limbs25 A B a) (hb : Limbs25 C D b) (h1 : A + C < 2 ^ 31)
    (h2 : B + D < 2 ^ 31) :
    (Limbs25 (A + C) (B + D) (Fe25.add a b) ∧ feVal25 (Fe25.add a b) = feVal25 a + feVal25 b) ∧
    (Limbs25 (A + C) (B + D) (Fe25.sub a b) ∧ feVal25 (Fe25.sub a b) = feVal25 a - feVal25 b) ∧
    (Limbs25 A B (Fe25.neg a) ∧ feVal25 (Fe25.neg a) = - feVal25 a) :=
  ⟨Fe25.add_spec a b A B C D ha hb h1 h2, Fe25.sub_spec a b A B C D ha hb h1 h2,
    Fe25.neg_spec a A B ha (by omega) (by omega)⟩

/-- **C49**: exported `Add` and `Sub` reduce afterwards. -/
theorem C49_AddSub (a b : Fe25) (A B : ℕ) (ha : Limbs25 A B a) (hb : Limbs25 A B b) (h1 : A < 2 ^ 30)
    (h2 : B < 2 ^ 30) :
    (Tight25 (feAdd a b) ∧ feVal25 (feAdd a b) = feVal25 a + feVal25 b) ∧
    (Tight25 (feSub a b) ∧ feVal25 (feSub a b) = feVal25 a - feVal25 b) := by
  obtain ⟨-, e1⟩ := Fe25.add_spec a b A B A B ha hb (by omega) (by omega)
  obtain ⟨-, e2⟩ := Fe25.sub_spec a b A B A B ha hb (by omega) (by omega)
  obtain ⟨t1, f1⟩ := Fe25.normalize_spec (Fe25.add a b)
  obtain ⟨t2, f2⟩ := Fe25.normalize_spec (Fe25.sub a b)
  exact ⟨⟨t1, f1.trans e1⟩, ⟨t2, f2.trans e2⟩⟩

/-- **C49**: `BytesInto` writes the canonical encoding, and leaves in its receiver limbs of the same value, but up to
2^26 and 2^25. -/
theorem C49_bytesInto (a : Fe25) (ha : Limbs25 (2 ^ 26 + 2 ^ 25) (2 ^ 26 + 2 ^ 25) a) :
    leVal (Fe25.bytes a) = (feVal25 a).val ∧
    Limbs25 (2 ^ 26) (2 ^ 25) (Fe25.reduce a) ∧ feVal25 (Fe25.reduce a) = feVal25 a :=
  ⟨Fe25.bytes_spec a ha, Fe25.touch_spec a ha⟩

/-- **C49**: `SetBytes` ignores the top bit and accepts every buffer. -/
theorem C49_setBytes (b : Bytes 32) :
    Tight25 (Fe25.setBytes b) ∧ feVal25 (Fe25.setBytes b) = ((leVal b % 2 ^ 255 : ℕ) : Fp) := Fe25.setBytes_spec b

/-- **C49**: `ConditionalSet`. -/
theorem C49_condSet (a b : Fe25) : Fe25.condSet a b 0 = a ∧ Fe25.condSet a b 1 = b :=
  ⟨Fe25.condSet_zero a b, Fe25.condSet_one a b⟩

/-- The hypotheses can be met, at the bounds: the largest limbs allowed, the largest limbs `BytesInto` copes with; and
one more in the second factor gives a wrong product. -/
example :
    (let a : Fe25 := ⟨2 ^ 27, 2 ^ 27, 2 ^ 27, 2 ^ 27, 2 ^ 27, 2 ^ 27, 2 ^ 27, 2 ^ 27, 2 ^ 27, 2 ^ 27⟩
     let b : Fe25 := ⟨113025455, 113025455, 113025455, 113025455, 113025455, 113025455, 113025455, 113025455, 113025455, 113025455⟩
     let c : Fe25 := ⟨113025456, 113025456, 113025456, 113025456, 113025456, 113025456, 113025456, 113025456, 113025456, 113025456⟩
     Limbs25 (2 ^ 27) (2 ^ 27) a ∧ Limbs25 times19 times19 b ∧
     feInt25 (Fe25.mul a b) % p = feInt25 a * feInt25 b % p ∧
     ¬ feInt25 (Fe25.mul a c) % p = feInt25 a * feInt25 c % p) := by
  decide +kernel

/-- `a` and `b` have the same value in GF(2^255-19). -/
def SameFe (a : Fe25) (b : Fe51) : Prop := feVal25 a = feVal b

/-- **C49**: the constants of the two implementations have the same values. -/
theorem C49_constants :
    SameFe FieldOps.feZero FieldOps.feZero ∧ SameFe FieldOps.feOne FieldOps.feOne ∧
    SameFe FieldOps.feMinusOne FieldOps.feMinusOne ∧ SameFe FieldOps.feI FieldOps.feI ∧
    SameFe FieldOps.feMinusI FieldOps.feMinusI ∧ SameFe FieldOps.feD FieldOps.feD ∧
    SameFe FieldOps.fe2D FieldOps.fe2D ∧
    SameFe FieldOps.feInvSqrtMinusDMinusOne FieldOps.feInvSqrtMinusDMinusOne ∧
    SameFe FieldOps.feDoubleInvSqrtMinusDMinusOne FieldOps.feDoubleInvSqrtMinusDMinusOne ∧
    SameFe FieldOps.feDoubleIInvSqrtMinusDMinusOne FieldOps.feDoubleIInvSqrtMinusDMinusOne ∧
    SameFe FieldOps.feDMinusOneSquared FieldOps.feDMinusOneSquared ∧
    SameFe FieldOps.feOneMinusDSquared FieldOps.feOneMinusDSquared ∧
    SameFe FieldOps.feDp1OverDm1 FieldOps.feDp1OverDm1 ∧ SameFe FieldOps.feSqrtID FieldOps.feSqrtID ∧
    SameFe FieldOps.feInvSqrt1pD FieldOps.feInvSqrt1pD ∧ SameFe FieldOps.epBaseX FieldOps.epBaseX ∧
    SameFe FieldOps.epBaseY FieldOps.epBaseY ∧ SameFe FieldOps.epBaseT FieldOps.epBaseT := by
  have key : ∀ (a : Fe25) (b : Fe51), feInt25 a % p = (feNat b : ℤ) % p → SameFe a b := by
    intro a b h
    unfold SameFe feVal25 feVal
    rw [← Int.cast_natCast (R := Fp) (feNat b)]
    exact (ZMod.intCast_eq_intCast_iff _ _ _).2 h
  refine ⟨?_, ?_, ?_, ?_, ?_, ?_, ?_, ?_, ?_, ?_, ?_, ?_, ?_, ?_, ?_, ?_, ?_, ?_⟩ <;>
    exact key _ _ (by decide +kernel)

/-- **C49**: the tables of multiples of the base point of the two implementations have the same values, entry by
entry. -/
theorem C49_table :
    List.Forall₂ (List.Forall₂ fun (a : NielsPt Fe25) (b : NielsPt Fe51) =>
      SameFe a.YPlusX b.YPlusX ∧ SameFe a.YMinusX b.YMinusX ∧ SameFe a.XY2D b.XY2D) baseTable25 baseTable := by
  have h := Fe25.baseTable25_rel
  unfold Fe25.idealT Sim.TabRel at h
  rw [List.forall₂_map_right_iff] at h
  refine h.imp fun a b hr => ?_
  rw [List.forall₂_map_right_iff] at hr
  exact hr.imp fun a b hn => ⟨hn.P.2, hn.M.2, hn.D.2⟩

/-! ## C45: points -/

theorem two_d : feVal25 FieldOps.fe2D = 2 * d := Fe25.r2D.2

/-- **C45** (partial): `Add`, `Sub`, `Double` and `Neg` of extended coordinates in the generic build, on every curve
point, whenever the limbs of the coordinates are at most 2^26 and the limbs of `Y+X`, `Y-X`, `Z`, `T` of the *second*
operand are at most `(2^31-1)/19`.  What is missing is that bound for decoded points, see `C45_false`. -/
theorem C45_points_partial (q r : ExtPt Fe25) (P Q : EPoint) (hq : IsWidePoint q P) (hr : IsWidePoint r Q)
    (hs : SecondOperand r) :
    IsTightPoint (ExtPt.add q r) (P + Q) ∧ IsTightPoint (ExtPt.sub q r) (P - Q) ∧
    IsTightPoint (ExtPt.double q) (P + P) ∧ IsWidePoint (ExtPt.neg q) (-P) := by
  refine ⟨Fe25.toExtended_spec (Fe25.addExtended_spec two_d hq hr (by norm_num) (by norm_num) hs),
    Fe25.toExtended_spec (Fe25.subExtended_spec two_d hq hr (by norm_num) (by norm_num) hs),
    Fe25.toExtended_spec (Fe25.doubleExtended_spec hq), Fe25.negPt_spec (by norm_num) (by norm_num) hq⟩

/-- The package's base point and all results of `Add`, `Sub`, `Double` can be second operands; sums of
decoded coordinates cannot always. -/
example : SecondOperand (ExtPt.base : ExtPt Fe25) ∧
    SecondOperand (ExtPt.add (ExtPt.base : ExtPt Fe25) ExtPt.base) := by decide +kernel

/-! ## C50: programs -/

/-- The environment of the package in the generic build. -/
def genericEnv (sha512 : List UInt8 → Bytes 64) : Env Fe25 := ⟨Sha256.sha256, sha512, baseTable25⟩

/-- **C50**: a program that never uses a freshly decoded point as the second operand of `Add` or `Sub`, as the
argument of a scalar multiplication or to fill a table (`Safe`, Spec/Raw.lean) returns in the generic build exactly what the
abstract machine on group elements returns. -/
theorem C50_refinement (sha512 : List UInt8 → Bytes 64) (prog : List Cmd) (h : Safe prog = true) :
    (run (genericEnv sha512) Mem.init prog).map Prod.snd =
      (arun Sha256.sha256 sha512 AState.init prog).map Prod.snd := by
  have he : Sim.SimEnv (genericEnv sha512) (⟨Sha256.sha256, sha512, Fe25.idealT baseTable⟩ : Env Fp) :=
    ⟨rfl, rfl, Fe25.baseTable25_rel⟩
  rw [Sim.run_sim he prog (Sim.simMem_init _) h]
  have := run_sim (⟨Sha256.sha256, sha512, Fe25.idealT baseTable⟩ : Env Fp) sha256_avoids Fe25.holds_idealTable prog
    _ _ rel_init
  cases h1 : run (⟨Sha256.sha256, sha512, Fe25.idealT baseTable⟩ : Env Fp) Mem.init prog with
  | none =>
    cases h2 : arun Sha256.sha256 sha512 AState.init prog with
    | none => rfl
    | some y => rw [h1, h2] at this; exact this.elim
  | some x =>
    cases h2 : arun Sha256.sha256 sha512 AState.init prog with
    | none => rw [h1, h2] at this; exact this.elim
    | some y => rw [h1, h2] at this; exact congrArg some this.2

/-- **C50**: such a program returns the same in the generic build and in the default build. -/
theorem C50_agreement (sha512 : List UInt8 → Bytes 64) (prog : List Cmd) (h : Safe prog = true) :
    (run (genericEnv sha512) Mem.init prog).map Prod.snd = (run (goEnv sha512) Mem.init prog).map Prod.snd := by
  rw [C50_refinement sha512 prog h, C42_refinement]

/-- A program that is safe, and one that is not. -/
example (b : Bytes 32) :
    Safe [.pSetBytes 0 b, .pBase 1, .pAdd 2 0 1, .pSub 3 2 1, .pEquals 3 0, .pDouble 4 0, .pScalarMult 5 4 7,
      .pAdd 6 0 5, .pBytes 6, .pBytes 0] = true ∧
    Safe [.pSetBytes 0 b, .pBase 1, .pAdd 2 1 0] = false := ⟨rfl, rfl⟩

/-- **C45** (partial): in the generic build every buffer is accepted or rejected as it should, and an accepted one encodes
to itself. -/
theorem C45_decode_partial (sha512 : List UInt8 → Bytes 64) (b : Bytes 32) :
    (run (genericEnv sha512) Mem.init [.pSetBytes 0 b, .pBytes 0]).map Prod.snd =
      (run (goEnv sha512) Mem.init [.pSetBytes 0 b, .pBytes 0]).map Prod.snd :=
  C50_agreement sha512 _ rfl

/-- The full statement of C45: decode, then add to the base point on the left, then encode. -/
def C45_full : Prop := ∀ (sha512 : List UInt8 → Bytes 64) (b : Bytes 32),
  (run (genericEnv sha512) Mem.init [.pSetBytes 0 b, .pBase 1, .pAdd 2 1 0, .pBytes 2]).map Prod.snd =
    (run (goEnv sha512) Mem.init [.pSetBytes 0 b, .pBase 1, .pAdd 2 1 0, .pBytes 2]).map Prod.snd

/-- The encoding of 7 times the base point. -/
def enc7 : Bytes 32 := #v[68,245,53,32,146,110,200,31,189,90,56,120,69,190,183,223,133,169,106,36,236,225,135,56,189,207,166,167,130,42,23,109]

/-- The decoded point in the generic build. -/
def dec7 : ExtPt Fe25 × Bool := ExtPt.setRistretto enc7

set_option maxRecDepth 1000000 in
theorem generic_wrong : (ExtPt.add ExtPt.base dec7.1).ristretto.toList =
    [80,35,252,15,110,54,211,3,19,117,95,87,40,83,143,105,165,45,61,228,213,188,91,196,218,71,214,73,127,30,97,75] := by
  decide +kernel

set_option maxRecDepth 1000000 in
theorem generic_right : dec7.2 = true ∧ (ExtPt.add dec7.1 ExtPt.base).ristretto.toList =
    [144,50,147,216,242,40,126,190,16,226,55,77,193,165,62,11,200,135,229,146,105,159,2,208,119,213,38,60,221,85,96,28] := by
  decide +kernel

theorem addO_comm (a b : Option RGroup) : addO a b = addO b a := by
  cases a <;> cases b <;> simp [addO, add_comm]

/-- **C45** is false: with `q` decoded from the encoding of 7 times the base point, `Add(base, q)` in the generic build is
a different point from 8 times the base point, although `Add(q, base)` is that point. -/
theorem C45_false : ¬ C45_full := by
  intro h
  have hg := h (fun _ => Vector.replicate 64 0) enc7
  have hsafe := C50_agreement (fun _ => Vector.replicate 64 0)
    [.pSetBytes 0 enc7, .pBase 1, .pAdd 2 0 1, .pBytes 2] rfl
  have hcomm : (run (goEnv fun _ => Vector.replicate 64 0) Mem.init
        [.pSetBytes 0 enc7, .pBase 1, .pAdd 2 0 1, .pBytes 2]).map Prod.snd =
      (run (goEnv fun _ => Vector.replicate 64 0) Mem.init
        [.pSetBytes 0 enc7, .pBase 1, .pAdd 2 1 0, .pBytes 2]).map Prod.snd := by
    rw [C42_refinement, C42_refinement]
    simp only [arun, aexec, AState.setPt]
    simp [addO_comm]
  rw [← hcomm, ← hsafe] at hg
  have e1 : (run (genericEnv fun _ => Vector.replicate 64 0) Mem.init
      [.pSetBytes 0 enc7, .pBase 1, .pAdd 2 1 0, .pBytes 2]).map Prod.snd =
      some [.bool dec7.2, .unit, .unit, .bytes (ExtPt.add ExtPt.base dec7.1).ristretto.toList] := rfl
  have e2 : (run (genericEnv fun _ => Vector.replicate 64 0) Mem.init
      [.pSetBytes 0 enc7, .pBase 1, .pAdd 2 0 1, .pBytes 2]).map Prod.snd =
      some [.bool dec7.2, .unit, .unit, .bytes (ExtPt.add dec7.1 ExtPt.base).ristretto.toList] := rfl
  rw [e1, e2, generic_wrong, generic_right.2] at hg
  injection hg with hg
  injection hg with _ hg
  injection hg with _ hg
  injection hg with _ hg
  injection hg with hg _
  injection hg with hg
  injection hg with hg _
  revert hg
  decide

end Ristretto.Props
