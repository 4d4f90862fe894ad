import Verif.Proofs.CrefSim
import Verif.Proofs.Degenerate

/-!
# Scalar multiplication of the C reference implementation
-/

namespace Ristretto.Proofs.Cref
open Model FieldOps Model.Cref
open Sim (Flag F2)
set_option autoImplicit false

/-! ## Digits -/

/-- The digits of `group_scalar` that come from bytes. -/
def ofBytes (b : Bytes 32) : Sc := b.map UInt8.toUInt32

theorem scPack_ofBytes (b : Bytes 32) : scPack (ofBytes b) = b := by
  unfold scPack ofBytes
  ext i hi
  simp

theorem w_and31 : ∀ a : UInt8, Cref.i8 (a.toUInt32 &&& 31) = Model.i8 (a &&& 31) := uint8_forall (by decide +kernel)
theorem w_shr5 : ∀ a : UInt8, Cref.i8 ((a.toUInt32 >>> 5) &&& 31) = Model.i8 ((a >>> 5) &&& 31) := uint8_forall (by decide +kernel)
theorem w_shl3 : ∀ a : UInt8, Cref.i8 ((a.toUInt32 <<< 3) &&& 31) = Model.i8 ((a <<< 3) &&& 31) := uint8_forall (by decide +kernel)
theorem w_shr2 : ∀ a : UInt8, Cref.i8 ((a.toUInt32 >>> 2) &&& 31) = Model.i8 ((a >>> 2) &&& 31) := uint8_forall (by decide +kernel)
theorem w_shr7 : ∀ a : UInt8, Cref.i8 ((a.toUInt32 >>> 7) &&& 31) = Model.i8 ((a >>> 7) &&& 31) := uint8_forall (by decide +kernel)
theorem w_shl1 : ∀ a : UInt8, Cref.i8 ((a.toUInt32 <<< 1) &&& 31) = Model.i8 ((a <<< 1) &&& 31) := uint8_forall (by decide +kernel)
theorem w_shr4 : ∀ a : UInt8, Cref.i8 ((a.toUInt32 >>> 4) &&& 31) = Model.i8 ((a >>> 4) &&& 31) := uint8_forall (by decide +kernel)
theorem w_shl4 : ∀ a : UInt8, Cref.i8 ((a.toUInt32 <<< 4) &&& 31) = Model.i8 ((a <<< 4) &&& 31) := uint8_forall (by decide +kernel)
theorem w_shr1 : ∀ a : UInt8, Cref.i8 ((a.toUInt32 >>> 1) &&& 31) = Model.i8 ((a >>> 1) &&& 31) := uint8_forall (by decide +kernel)
theorem w_shr6 : ∀ a : UInt8, Cref.i8 ((a.toUInt32 >>> 6) &&& 31) = Model.i8 ((a >>> 6) &&& 31) := uint8_forall (by decide +kernel)
theorem w_shl2 : ∀ a : UInt8, Cref.i8 ((a.toUInt32 <<< 2) &&& 31) = Model.i8 ((a <<< 2) &&& 31) := uint8_forall (by decide +kernel)
theorem w_shr3 : ∀ a : UInt8, Cref.i8 ((a.toUInt32 >>> 3) &&& 31) = Model.i8 ((a >>> 3) &&& 31) := uint8_forall (by decide +kernel)

theorem chunk_eq (a b c d e : UInt8) :
    Cref.window5Chunk a.toUInt32 b.toUInt32 c.toUInt32 d.toUInt32 e.toUInt32 = Model.window5Chunk a b c d e := by
  unfold Cref.window5Chunk Model.window5Chunk
  rw [w_and31, w_shr5, w_shl3, w_shr2, w_shr7, w_shl1, w_shr4, w_shl4, w_shr1, w_shr6, w_shl2, w_shr3]

theorem raw_eq (b : Bytes 32) : Cref.window5Raw (ofBytes b) = Model.window5Raw b := by
  have g : ∀ (i : ℕ) (h : i < 32), (ofBytes b)[i] = b[i].toUInt32 := fun i h => by
    unfold ofBytes; simp
  unfold Cref.window5Raw Model.window5Raw
  simp only [g, chunk_eq, w_and31, w_shr5, w_shl3, w_shr2]

theorem sign_eq (rest : List Int8) : ∀ carry a, Cref.window5Sign carry a rest = Model.window5Sign carry a rest := by
  induction rest with
  | nil => intro carry a; rfl
  | cons b rest ih => intro carry a; simp only [Cref.window5Sign, Model.window5Sign, ih]

theorem window5_eq (b : Bytes 32) : window5 (ofBytes b) = computeScalarWindow5 b := by
  unfold window5 computeScalarWindow5
  rw [raw_eq]
  cases Model.window5Raw b with
  | nil => rfl
  | cons a rest => exact sign_eq rest 0 a

/-! ## Selection -/

theorem static_eq (j : Fin 18) : ∀ w : Int8,
    (groupStaticEqual w (Int8.ofNat j) ||| groupStaticEqual (-w) (Int8.ofNat j)) =
      if w.toInt.natAbs = j.val then 1 else 0 := by
  revert j
  have : ∀ k : Fin 256, ∀ j : Fin 18, (groupStaticEqual (⟨⟨⟨k⟩⟩⟩ : Int8) (Int8.ofNat j) |||
      groupStaticEqual (-(⟨⟨⟨k⟩⟩⟩ : Int8)) (Int8.ofNat j)) =
      if ((⟨⟨⟨k⟩⟩⟩ : Int8).toInt.natAbs = j.val) then 1 else 0 := by decide +kernel
  intro j w
  obtain ⟨⟨⟨k⟩⟩⟩ := w
  exact this k j

theorem negative_eq : ∀ w : Int8, Cref.negative w = if w.toInt < 0 then 1 else 0 := int8_forall (by decide +kernel)

section
variable {F G : Type} [O : CrefOps F] [FieldOps G] [L : CSim F G]

theorem cond8 {n : ℕ} {a b : F} {x y : G} (h : R n a x) (h' : R n b y) (c : Prop) [Decidable c] :
    R n (O.cmov a b (if c then 1 else 0)) (FieldOps.condSet x y (flag c)) := by
  unfold flag
  split
  · rw [L.cmov1 h h', L.g1]; exact h'
  · rw [L.cmov0 h h', L.g0]; exact h

theorem CP.cmov {q q' : ExtPt F} {r r' : ExtPt G} (h : CP q r) (h' : CP q' r') (c : Prop) [Decidable c] :
    CP (cmovPt q q' (if c then 1 else 0)) (r.condSet r' (flag c)) :=
  ⟨cond8 h.X h'.X c, cond8 h.Y h'.Y c, cond8 h.Z h'.Z c, cond8 h.T h'.T c⟩

theorem chooseLoop_rel (w : Int8) : ∀ (pre : List (ExtPt F)) (lut : List (ExtPt G)), List.Forall₂ CP pre lut →
    ∀ (j : ℕ) (t : ExtPt F) (t' : ExtPt G), j + lut.length ≤ 17 → CP t t' →
    CP (chooseLoop w (Int8.ofNat j) pre t) (scalarMultSelectLoop w.toInt32 (Int32.ofNat j) lut t') := by
  intro pre lut h
  induction h with
  | nil => intro j t t' _ ht; exact ht
  | cons h hs ih =>
    intro j t t' hj ht
    simp only [List.length_cons] at hj
    simp only [chooseLoop, scalarMultSelectLoop]
    rw [static_eq ⟨j, by omega⟩ w, equal15_spec ⟨j, by omega⟩ w,
      show Int32.ofNat j + 1 = Int32.ofNat (j + 1) by rw [Int32.ofNat_add]; rfl,
      show Int8.ofNat j + 1 = Int8.ofNat (j + 1) by rw [Int8.ofNat_add]; rfl]
    exact ih (j + 1) _ _ (by omega) (ht.cmov h _)

theorem chooseT_rel (w : Int8) {pre : List (ExtPt F)} {lut : List (ExtPt G)} (h : List.Forall₂ CP pre lut)
    (hl : lut.length = 17) : CP (chooseT pre w) (scalarMultSelect lut w.toInt32) := by
  cases h with
  | nil => simp at hl
  | @cons p r ps rs h hs =>
    have ht := chooseLoop_rel w ps rs hs 1 p r (by simp at hl; omega) h
    unfold chooseT scalarMultSelect
    simp only [List.tail_cons, List.headD_cons]
    rw [negative_eq, negative_spec]
    exact ⟨cond8 ht.X ht.X.neg _, ht.Y, ht.Z, cond8 ht.T ht.T.neg _⟩

theorem precomp_rel {q : ExtPt F} {r : ExtPt G} (h : CP q r) : List.Forall₂ CP (precomp q) (scalarMultLut r) := by
  have h2 := h.double
  have h3 := h2.add h
  have h4 := h2.double
  have h5 := h4.add h
  have h6 := h3.double
  have h7 := h6.add h
  have h8 := h4.double
  have h9 := h8.add h
  have h10 := h5.double
  have h11 := h10.add h
  have h12 := h6.double
  have h13 := h12.add h
  have h14 := h7.double
  have h15 := h14.add h
  have h16 := h8.double
  unfold precomp scalarMultLut
  exact .cons .neutral <| .cons h <| .cons h2 <| .cons h3 <| .cons h4 <| .cons h5 <| .cons h6 <| .cons h7 <| .cons h8 <|
    .cons h9 <| .cons h10 <| .cons h11 <| .cons h12 <| .cons h13 <| .cons h14 <| .cons h15 <| .cons h16 .nil
end

/-! ## The same computation on the ideal field -/

section
variable {G : Type} [LawfulField G]

/-- Five doublings in extended coordinates, and an addition. -/
def fullStep (lut : List (ExtPt G)) (p : ExtPt G) (w : Int8) : ExtPt G :=
  ExtPt.add (ExtPt.double (ExtPt.double (ExtPt.double (ExtPt.double (ExtPt.double p))))) (scalarMultSelect lut w.toInt32)

/-- `scalarMult` with full doublings. -/
def fullMult (q : ExtPt G) (s : Bytes 32) : ExtPt G :=
  (computeScalarWindow5 s).reverse.foldl (fullStep (scalarMultLut q)) ExtPt.zero

theorem fullDouble5 {p : ExtPt G} {P : EPoint} (hp : IsPt p P) :
    IsPt (ExtPt.double (ExtPt.double (ExtPt.double (ExtPt.double (ExtPt.double p))))) ((32 : ℤ) • P) := by
  have := double_spec (double_spec (double_spec (double_spec (double_spec hp))))
  convert this using 1
  abel

theorem full_foldr {q : ExtPt G} {P : EPoint} (hq : IsPt q P) (ws : List Int8)
    (h : ∀ w ∈ ws, -16 ≤ w.toInt ∧ w.toInt ≤ 16) :
    IsPt (ws.foldr (fun w p => fullStep (scalarMultLut q) p w) ExtPt.zero) (digitsVal 32 ws • P) := by
  induction ws with
  | nil => simpa [digitsVal] using zero_spec
  | cons w ws ih =>
    obtain ⟨h1, h2⟩ := h w (by simp)
    have := add_spec (fullDouble5 (ih (fun w hw => h w (by simp [hw])))) (scalarMultSelect_spec hq w h1 h2)
    simp only [List.foldr_cons, digitsVal]
    rw [add_comm, add_zsmul, mul_zsmul]
    exact this

theorem fullMult_spec {q : ExtPt G} {P : EPoint} (hq : IsPt q P) (s : Bytes 32)
    (hs : leVal s < 2 ^ 254) : IsPt (fullMult q s) (leVal s • P) := by
  obtain ⟨hv, hr⟩ := computeScalarWindow5_spec s hs
  have := full_foldr hq _ hr
  rw [hv, natCast_zsmul] at this
  unfold fullMult
  rw [List.foldl_reverse]
  exact this

theorem fullDouble5_zp {c : Prop} {p : ExtPt G} (hp : Zp c p) :
    Zp c (ExtPt.double (ExtPt.double (ExtPt.double (ExtPt.double (ExtPt.double p))))) :=
  have d : ∀ {p : ExtPt G}, Zp c p → Zp c (ExtPt.double p) := fun h => h.doubleExtended.toExtended
  d (d (d (d (d hp))))

theorem full_foldr_zp {q : ExtPt G} (hq : Deg q) (ws : List Int8)
    (h : ∀ w ∈ ws, -16 ≤ w.toInt ∧ w.toInt ≤ 16) :
    Zp (∃ w ∈ ws, w.toInt ≠ 0) (ws.foldr (fun w p => fullStep (scalarMultLut q) p w) ExtPt.zero) := by
  induction ws with
  | nil => exact zp_zero.congr (by simp)
  | cons w ws ih =>
    rw [List.foldr_cons]
    have h1 := ih (fun w' hw' => h w' (List.mem_cons_of_mem _ hw'))
    have h2 := h w List.mem_cons_self
    have := ((fullDouble5_zp h1).addExtended (scalarMultSelect_zp hq w h2.1 h2.2)).toExtended
    refine this.congr ?_
    simp only [List.mem_cons, exists_eq_or_imp]
    exact or_comm

theorem fullMult_deg {q : ExtPt G} (hq : Deg q) (s : Bytes 32) (hs : leVal s < 2 ^ 254) :
    Zp (leVal s ≠ 0) (fullMult q s) := by
  obtain ⟨hv, hr⟩ := computeScalarWindow5_spec s hs
  have := full_foldr_zp hq _ hr
  unfold fullMult
  rw [List.foldl_reverse]
  refine this.congr ⟨?_, ?_⟩
  · rintro ⟨w, hw, h0⟩ hz
    rw [bytes_zero hz] at hw
    have : ∀ w ∈ computeScalarWindow5 (Vector.replicate 32 0), w.toInt = 0 := by decide +kernel
    exact h0 (this w hw)
  · intro h0
    by_contra hn
    push Not at hn
    have := digitsVal_zero 32 _ hn
    rw [hv] at this
    exact h0 (by exact_mod_cast this)

variable {F : Type} [O : CrefOps F] [L : CSim F G]

theorem foldl_rel {pre : List (ExtPt F)} {lut : List (ExtPt G)} (h : List.Forall₂ CP pre lut)
    (hl : lut.length = 17) (ws : List Int8) : ∀ (q : ExtPt F) (r : ExtPt G), CP q r →
    CP (ws.foldl (multStep pre) q) (ws.foldl (fullStep lut) r) := by
  induction ws with
  | nil => intro q r hq; exact hq
  | cons w ws ih =>
    intro q r hq
    rw [List.foldl_cons, List.foldl_cons]
    exact ih _ _ (hq.double.double.double.double.double.add (chooseT_rel w h hl))

theorem CP.mult {q : ExtPt F} {r : ExtPt G} (h : CP q r) (s : Bytes 32) :
    CP (geScalarMult q (ofBytes s)) (fullMult r s) := by
  have := foldl_rel (precomp_rel h) rfl (window5 (ofBytes s)).reverse _ _ CP.neutral
  rw [window5_eq] at this
  unfold geScalarMult fullMult
  simp only
  rw [window5_eq]
  exact this
end

end Ristretto.Proofs.Cref
