import Verif.Proofs.Repr
import Verif.Proofs.ScalarOps

/-!
# C21–C24, C28–C33: points as a group, scalar multiplication

`IsPoint q P` (Spec/Repr.lean): the data structure `q` holds extended coordinates of the curve point
`P`, with limbs small enough for the next operation.  `Represents q g`: it moreover belongs to the
class `g` of the Ristretto group `RGroup` (even points modulo 4-torsion, Spec/Order.lean).
-/

namespace Ristretto.Props
open Model Proofs
set_option autoImplicit false

abbrev Pt := ExtPt Fe51

/-- **C21.** There are no exceptional inputs. -/
theorem C21_group_law (q r : Pt) (P Q : EPoint) (hq : IsPoint q P) (hr : IsPoint r Q) :
    IsPoint (ExtPt.add q r) (P + Q) ∧ IsPoint (ExtPt.sub q r) (P - Q) ∧
    IsPoint (ExtPt.double q) (P + P) ∧ IsPoint (ExtPt.neg q) (-P) ∧ IsPoint (ExtPt.zero : Pt) 0 := by
  rw [isPoint_iff] at hq hr
  simp only [isPoint_iff]
  exact ⟨add_spec hq hr, sub_spec hq hr, double_spec hq, neg_spec hq, zero_spec⟩

/-- The addition of `EPoint` is the Edwards addition law of the curve `-x² + y² = 1 + d x² y²`. -/
theorem C21_edwards (P Q : EPoint) :
    (P + Q).x = (P.x * Q.y + P.y * Q.x) / (1 + d * P.x * Q.x * P.y * Q.y) ∧
    (P + Q).y = (P.y * Q.y + P.x * Q.x) / (1 - d * P.x * Q.x * P.y * Q.y) ∧
    1 + d * P.x * Q.x * P.y * Q.y ≠ 0 ∧ 1 - d * P.x * Q.x * P.y * Q.y ≠ 0 ∧
    -P.x ^ 2 + P.y ^ 2 = 1 + d * P.x ^ 2 * P.y ^ 2 :=
  ⟨rfl, rfl, EPoint.one_add_k_ne P.on Q.on, EPoint.one_sub_k_ne P.on Q.on, P.on⟩

/-- The base point meets the hypotheses; so do all points reachable through the API (C41). -/
theorem base_isPoint : ∃ P, IsPoint (ExtPt.base : Pt) P ∧ P ≠ 0 ∧ P + P ≠ 0 := by
  refine ⟨basePt, isPoint_iff.2 base_spec, ?_, ?_⟩
  · intro h; exact basePt_not_E4 (h ▸ E4.zero_mem)
  · intro h
    apply basePt_not_E4
    rw [mem_E4]
    exact Or.inl (double_eq_zero.1 h)
example : ∃ P, IsPoint (ExtPt.add ExtPt.base ExtPt.base : Pt) (P + P) := by
  obtain ⟨P, h, -⟩ := base_isPoint
  exact ⟨P, (C21_group_law _ _ _ _ h h).1⟩

/-- The point operations on Ristretto classes. -/
theorem C21_classes (q r : Pt) (g h : RGroup) (hq : Represents q g) (hr : Represents r h) :
    Represents (ExtPt.add q r) (g + h) ∧ Represents (ExtPt.sub q r) (g - h) ∧
    Represents (ExtPt.double q) (g + g) ∧ Represents (ExtPt.neg q) (-g) ∧
    Represents (ExtPt.zero : Pt) 0 ∧ Represents (ExtPt.base : Pt) baseR := by
  rw [represents_iff] at hq hr
  simp only [represents_iff]
  exact ⟨hq.add hr, hq.sub hr, hq.double, hq.neg, holds_zero, holds_base⟩

/-- `Equals` decides whether two values represent the same group element. -/
theorem equals_iff (q r : Pt) (g h : RGroup) (hq : Represents q g) (hr : Represents r h) :
    Point.equals q r = true ↔ g = h := (represents_iff.1 hq).equals (represents_iff.1 hr)

/-- **C22.** -/
theorem C22_group (a b c : Pt) (ga gb gc : RGroup) (ha : Represents a ga) (hb : Represents b gb)
    (hc : Represents c gc) :
    Point.equals (ExtPt.add (ExtPt.add a b) c) (ExtPt.add a (ExtPt.add b c)) = true ∧
    Point.equals (ExtPt.add a b) (ExtPt.add b a) = true ∧
    Point.equals (ExtPt.add a ExtPt.zero) a = true ∧
    Point.equals (ExtPt.add a (ExtPt.neg a)) ExtPt.zero = true ∧
    Point.equals (ExtPt.sub a b) (ExtPt.add a (ExtPt.neg b)) = true ∧
    Point.equals (ExtPt.double a) (ExtPt.add a a) = true := by
  rw [represents_iff] at ha hb hc
  refine ⟨((ha.add hb).add hc).equals (ha.add (hb.add hc)) |>.2 (add_assoc _ _ _),
    (ha.add hb).equals (hb.add ha) |>.2 (add_comm _ _), (ha.add holds_zero).equals ha |>.2 (add_zero _),
    (ha.add ha.neg).equals holds_zero |>.2 (add_neg_cancel _), (ha.sub hb).equals (ha.add hb.neg) |>.2 ?_,
    ha.double.equals (ha.add ha) |>.2 rfl⟩
  exact sub_eq_add_neg _ _

theorem zero_represents : Represents (ExtPt.zero : Pt) 0 := represents_iff.2 holds_zero
theorem base_represents : Represents (ExtPt.base : Pt) baseR := represents_iff.2 holds_base

example : Point.equals (ExtPt.double ExtPt.base : Pt) (ExtPt.add ExtPt.base ExtPt.base) = true :=
  (C22_group _ _ _ _ _ _ base_represents base_represents base_represents).2.2.2.2.2

/-- The l-th multiple of every element vanishes. -/
theorem l_smul (g : RGroup) : l • g = 0 := by
  have := card_nsmul_eq_zero' (x := g)
  rwa [card_RGroup] at this

theorem mod_smul (n : ℕ) (g : RGroup) : (n % l) • g = n • g := by
  conv_rhs => rw [← Nat.mod_add_div n l, add_nsmul, mul_nsmul, l_smul, nsmul_zero, add_zero]

theorem baseR_ne_zero : baseR ≠ 0 := by
  intro h
  have h' : cls stdBase stdBase_even = cls 0 Even.zero_mem := h
  rw [cls_eq, sub_zero] at h'
  have h4 : (4 : ℕ) • stdBase = 0 := h'
  have := addOrderOf_dvd_of_nsmul_eq_zero h4
  rw [addOrderOf_stdBase] at this
  exact absurd (Nat.le_of_dvd (by norm_num) this) (by norm_num [l])

theorem addOrderOf_baseR : addOrderOf baseR = l :=
  addOrderOf_eq_prime (l_smul _) baseR_ne_zero

/-- **C23.** -/
theorem C23_prime_order :
    Nat.card RGroup = l ∧ l.Prime ∧ (∀ g : RGroup, l • g = 0) ∧
    (∀ g : RGroup, ∃! s : ℕ, s < l ∧ s • baseR = g) := by
  refine ⟨card_RGroup, Fact.out, l_smul, fun g => ?_⟩
  have hinj : ∀ s t : ℕ, s < l → t < l → s • baseR = t • baseR → s = t := by
    intro s t hs ht h
    have := (nsmul_inj_mod (x := baseR)).1 h
    rwa [addOrderOf_baseR, Nat.mod_eq_of_lt hs, Nat.mod_eq_of_lt ht] at this
  have hfin : Finite RGroup := Nat.finite_of_card_ne_zero (by rw [card_RGroup]; norm_num [l])
  have hz : g ∈ AddSubgroup.zmultiples baseR := by
    have htop : AddSubgroup.zmultiples baseR = ⊤ := by
      apply AddSubgroup.eq_top_of_card_eq
      rw [Nat.card_zmultiples, addOrderOf_baseR, card_RGroup]
    rw [htop]; trivial
  obtain ⟨k, hk⟩ := AddSubgroup.mem_zmultiples_iff.1 hz
  have hl : (0 : ℤ) < l := by norm_num [l]
  have h1 := Int.emod_lt_of_pos k hl
  have h2 := Int.emod_nonneg k hl.ne'
  have key : (k % l).toNat • baseR = g := by
    rw [← natCast_zsmul, Int.toNat_of_nonneg h2, ← hk]
    have e : k = k % l + k / l * l := by rw [mul_comm, Int.emod_add_mul_ediv]
    conv_rhs => rw [e, add_zsmul, mul_comm, mul_zsmul, natCast_zsmul, l_smul, add_zero]
  refine ⟨(k % l).toNat, ⟨by omega, key⟩, ?_⟩
  rintro t ⟨ht, ht2⟩
  exact hinj _ _ ht (by omega) (ht2.trans key.symm)

/-- **C24** (equality is 4-torsion equality). No evenness is needed. -/
theorem C24_equals (q r : Pt) (P Q : EPoint) (hq : IsPoint q P) (hr : IsPoint r Q) :
    (4 • (P - Q) = 0 → ExtPt.ristrettoEqualsI q r = 1) ∧
    (4 • (P - Q) ≠ 0 → ExtPt.ristrettoEqualsI q r = 0) ∧
    (Point.equals q r = true ↔ P - Q ∈ ({0, torsM, torsI, -torsI} : Set EPoint)) := by
  classical
  have h := ristrettoEqualsI_spec (isPoint_iff.1 hq) (isPoint_iff.1 hr)
  have h4 : P - Q ∈ E4 ↔ 4 • (P - Q) = 0 := Iff.rfl
  refine ⟨fun h' => ?_, fun h' => ?_, ?_⟩
  · rw [h]; simp [flag, h4, h']
  · rw [h]; simp [flag, h4, h']
  · unfold Point.equals
    have hset : P - Q ∈ ({0, torsM, torsI, -torsI} : Set EPoint) ↔ P - Q ∈ E4 := by
      rw [mem_E4_cases]; simp only [Set.mem_insert_iff, Set.mem_singleton_iff]
    rw [h, hset]
    by_cases hm : P - Q ∈ E4 <;> simp [flag, hm]

/-- **C24** (equivalence relation and congruence). -/
theorem C24_congruence (a b c : Pt) (ga gb gc : RGroup) (ha : Represents a ga) (hb : Represents b gb)
    (hc : Represents c gc) (s : Scalar) (hs : scVal s < l) :
    Point.equals a a = true ∧ (Point.equals a b = true → Point.equals b a = true) ∧
    (Point.equals a b = true → Point.equals b c = true → Point.equals a c = true) ∧
    (Point.equals a b = true →
      Point.equals (ExtPt.add a c) (ExtPt.add b c) = true ∧ Point.equals (ExtPt.add c a) (ExtPt.add c b) = true ∧
      Point.equals (ExtPt.sub a c) (ExtPt.sub b c) = true ∧ Point.equals (ExtPt.sub c a) (ExtPt.sub c b) = true ∧
      Point.equals (ExtPt.neg a) (ExtPt.neg b) = true ∧ Point.equals (ExtPt.double a) (ExtPt.double b) = true ∧
      Point.equals (Point.scalarMult a s) (Point.scalarMult b s) = true) := by
  rw [represents_iff] at ha hb hc
  have hs' : scVal s < 2 ^ 254 := lt_trans hs (by norm_num [l])
  rw [ha.equals ha, ha.equals hb, hb.equals ha, hb.equals hc, ha.equals hc]
  refine ⟨rfl, Eq.symm, Eq.trans, ?_⟩
  rintro rfl
  exact ⟨(ha.add hc).equals (hb.add hc) |>.2 rfl, (hc.add ha).equals (hc.add hb) |>.2 rfl,
    (ha.sub hc).equals (hb.sub hc) |>.2 rfl, (hc.sub ha).equals (hc.sub hb) |>.2 rfl,
    ha.neg.equals hb.neg |>.2 rfl, ha.double.equals hb.double |>.2 rfl,
    (ha.smul hs').equals (hb.smul hs') |>.2 rfl⟩

/-- The four representatives of one class: the base point plus 2-torsion is equal to the base point
although its coordinates differ. -/
example : Point.equals (ExtPt.add ExtPt.base ExtPt.torsion1 : Pt) ExtPt.base = true ∧
    Point.equals (ExtPt.base : Pt) ExtPt.zero = false := by decide +kernel

/-- **C28.** Holds for all scalar arrays below 2^254, so for every reduced scalar. -/
theorem C28_scalarMult (q : Pt) (P : EPoint) (hq : IsPoint q P) (s : Scalar) (hs : scVal s < 2 ^ 254) :
    IsPoint (Point.scalarMult q s) (scVal s • P) := by
  rw [isPoint_iff] at hq ⊢
  rw [← bytes_val] at hs ⊢
  exact scalarMult_spec hq _ hs

theorem C28_classes (q : Pt) (g : RGroup) (hq : Represents q g) (s : Scalar) (hs : scVal s < l) :
    Represents (Point.scalarMult q s) (scVal s • g) := by
  rw [represents_iff] at hq ⊢
  exact hq.smul (lt_trans hs (by norm_num [l]))

/-- **C29.** The result is `some`, so no slice index is out of range. -/
theorem C29_publicScalarMult (q : Pt) (P : EPoint) (hq : IsPoint q P) (s : Scalar) (hs : scVal s < 2 ^ 255) :
    ∃ r, Point.publicScalarMult q s = some r ∧ IsPoint r (scVal s • P) := by
  rw [isPoint_iff] at hq
  rw [← bytes_val] at hs ⊢
  obtain ⟨r, h1, h2⟩ := varTimeScalarMult_spec hq _ hs
  exact ⟨r, h1, isPoint_iff.2 h2⟩

theorem C29_agrees (q : Pt) (g : RGroup) (hq : Represents q g) (s : Scalar) (hs : scVal s < l) :
    ∃ r, Point.publicScalarMult q s = some r ∧ Represents r (scVal s • g) ∧
      Point.equals r (Point.scalarMult q s) = true := by
  rw [represents_iff] at hq
  have h1 := hq.smul (lt_trans hs (by norm_num [l]) : scVal s < 2 ^ 254)
  obtain ⟨r, h2, h3⟩ := hq.psmul (lt_trans hs (by norm_num [l]) : scVal s < 2 ^ 255)
  exact ⟨r, h2, represents_iff.2 h3, h3.equals h1 |>.2 rfl⟩

/-- **C30** (the table). -/
theorem C30_compute (q : Pt) (P : EPoint) (hq : IsPoint q P) : IsTableOf (tableCompute q) P := by
  rw [isPoint_iff] at hq
  exact isTableOf_iff.2 (tableCompute_spec hq)

/-- **C30** (multiplication with any correct table). -/
theorem C30_table (t : Table Fe51) (g : RGroup) (ht : TableOf t g) (s : Scalar) (hs : scVal s < 2 ^ 255) :
    Represents (Point.scalarMultTable t s) (scVal s • g) ∧
    ∃ r, Point.publicScalarMultTable t s = some r ∧ Represents r (scVal s • g) := by
  rw [tableOf_iff] at ht
  obtain ⟨r, h1, h2⟩ := ht.psmul hs
  exact ⟨represents_iff.2 (ht.smul hs), r, h1, represents_iff.2 h2⟩

/-- **C30.** -/
theorem C30_compute_mult (q : Pt) (g : RGroup) (hq : Represents q g) (s : Scalar) (hs : scVal s < l) :
    Represents (Point.scalarMultTable (tableCompute q) s) (scVal s • g) ∧
    ∃ r, Point.publicScalarMultTable (tableCompute q) s = some r ∧ Represents r (scVal s • g) :=
  C30_table _ g (tableOf_iff.2 (represents_iff.1 hq).compute) s (lt_trans hs (by norm_num [l]))

/-- **C31** (the 256 entries of the built-in table). -/
theorem C31_table : ∃ P, IsPoint (ExtPt.base : Pt) P ∧ IsTableOf baseTable P :=
  ⟨basePt, isPoint_iff.2 base_spec, isTableOf_iff.2 baseTable_spec⟩

/-- **C31** (multiplication). -/
theorem C31_scalarMultBase (s : Scalar) (hs : scVal s < l) :
    Represents (Point.scalarMultTable baseTable s) (scVal s • baseR) ∧
    (∃ r, Point.publicScalarMultTable baseTable s = some r ∧ Represents r (scVal s • baseR)) ∧
    Point.equals (Point.scalarMultTable baseTable s) (Point.scalarMult ExtPt.base s) = true := by
  have h := C30_table _ _ (tableOf_iff.2 holds_baseTable) s (lt_trans hs (by norm_num [l]))
  exact ⟨h.1, h.2, equals_iff _ _ _ _ h.1 (C28_classes _ _ base_represents s hs) |>.2 rfl⟩

/-- Running the model: 2 B with the built-in table. -/
example : Point.equals (Point.scalarMultTable baseTable #v[2, 0, 0, 0, 0, 0, 0, 0]) (ExtPt.double ExtPt.base) = true := by
  decide +kernel

/-- **C32.** -/
theorem C32_module (a b : Pt) (g h : RGroup) (ha : Represents a g) (hb : Represents b h) (s t : Scalar)
    (hs : scVal s < l) (ht : scVal t < l) :
    Point.equals (Point.scalarMult a (Scalar.add s t))
      (ExtPt.add (Point.scalarMult a s) (Point.scalarMult a t)) = true ∧
    Point.equals (Point.scalarMult (ExtPt.add a b) s)
      (ExtPt.add (Point.scalarMult a s) (Point.scalarMult b s)) = true ∧
    Point.equals (Point.scalarMult a (Scalar.mul s t)) (Point.scalarMult (Point.scalarMult a t) s) = true ∧
    Point.equals (Point.scalarMult a scOne) a = true ∧
    Point.equals (Point.scalarMult a scZero) ExtPt.zero = true := by
  have hl : 0 < l := by norm_num [l]
  have e1 : scVal (Scalar.add s t) = (scVal s + scVal t) % l := add_red (by omega)
  have e2 : scVal (Scalar.mul s t) = scVal s * scVal t % l := mul_spec s t
  have c1 : scVal (Scalar.add s t) < l := e1 ▸ Nat.mod_lt _ hl
  have c2 : scVal (Scalar.mul s t) < l := e2 ▸ Nat.mod_lt _ hl
  have o1 : scVal scOne = 1 := by decide +kernel
  have o0 : scVal scZero = 0 := by decide +kernel
  have as := C28_classes a g ha s hs
  have at' := C28_classes a g ha t ht
  have bs := C28_classes b h hb s hs
  refine ⟨?_, ?_, ?_, ?_, ?_⟩
  · refine (equals_iff _ _ _ _ (C28_classes a g ha _ c1) (C21_classes _ _ _ _ as at').1).2 ?_
    rw [e1, mod_smul, add_nsmul]
  · refine (equals_iff _ _ _ _ (C28_classes _ _ (C21_classes _ _ _ _ ha hb).1 s hs)
      (C21_classes _ _ _ _ as bs).1).2 ?_
    rw [nsmul_add]
  · refine (equals_iff _ _ _ _ (C28_classes a g ha _ c2) (C28_classes _ _ at' s hs)).2 ?_
    rw [e2, mod_smul, mul_nsmul']
  · refine (equals_iff _ _ _ _ (C28_classes a g ha scOne (by rw [o1]; norm_num [l])) ha).2 ?_
    rw [o1, one_nsmul]
  · refine (equals_iff _ _ _ _ (C28_classes a g ha scZero (by rw [o0]; norm_num [l])) zero_represents).2 ?_
    rw [o0, zero_nsmul]

/-- (l-1) B + B = 0. -/
example : Represents (Point.scalarMult (ExtPt.base : Pt)
    #v[0x5cf5d3ec, 0x5812631a, 0xa2f79cd6, 0x14def9de, 0, 0, 0, 0x10000000]) (-baseR) := by
  have h := C28_classes _ _ base_represents
    #v[0x5cf5d3ec, 0x5812631a, 0xa2f79cd6, 0x14def9de, 0, 0, 0, 0x10000000] (by decide +kernel)
  have e : scVal #v[0x5cf5d3ec, 0x5812631a, 0xa2f79cd6, 0x14def9de, 0, 0, 0, 0x10000000] • baseR = -baseR := by
    rw [eq_neg_iff_add_eq_zero, ← succ_nsmul]
    rw [show scVal #v[0x5cf5d3ec, 0x5812631a, 0xa2f79cd6, 0x14def9de, 0, 0, 0, 0x10000000] + 1 = l by decide +kernel]
    exact l_smul _
  rwa [e] at h

/-- **C33.** -/
theorem C33_conditionalSet (q r : Pt) : ExtPt.condSet q r 1 = r ∧ ExtPt.condSet q r 0 = q := by
  have h1 := condSet_spec (q := q) (r := r) True
  have h0 := condSet_spec (q := q) (r := r) False
  simpa [flag] using And.intro h1 h0

example : ExtPt.condSet (ExtPt.zero : Pt) ExtPt.base 1 = ExtPt.base := (C33_conditionalSet _ _).1

end Ristretto.Props
