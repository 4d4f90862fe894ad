import Verif.Proofs.EllInverse

/-!
# The preimages returned by `RistrettoElligator2Inverse`

Outside the neutral class they are exactly the nonnegative field elements mapped to the class,
each returned once.  For the neutral class one preimage is missing.
-/

namespace Ristretto.Proofs
open Model FieldOps LawfulField
set_option autoImplicit false

variable {F : Type} [LawfulField F]

/-- A pair with `s ≠ 0` has at most one nonnegative preimage. -/
theorem ellJac_inj {x y s t : Fp} (hs : s ≠ 0) (hx : ¬ IsNeg x) (hy : ¬ IsNeg y)
    (h : ElligatorJac x s t) (h' : ElligatorJac y s t) : x = y := by
  have hj := onJac_of_elligator h
  obtain ⟨hm, hp⟩ := s4_sub_a2_ne hj hs
  apply eq_of_sq_eq hx hy
  by_cases hn : IsNeg s
  · rw [elligatorJac_neg_iff hj hs hn] at h h'
    apply mul_left_cancel₀ sqrtM1_ne_zero
    exact mul_right_cancel₀ hp (h.trans h'.symm)
  · rw [elligatorJac_pos_iff hj hs hn] at h h'
    apply mul_left_cancel₀ sqrtM1_ne_zero
    exact mul_right_cancel₀ hm (h.trans h'.symm)

theorem xy_ne_of_not_E4 {P : EPoint} (h : P ∉ E4) : P.x * P.y ≠ 0 :=
  fun h0 => h (mem_E4.2 (mul_eq_zero.1 h0))

theorem s_ne_of_ofJac {s t : Fp} {P : EPoint} (h : OfJac s t P) (hx : P.x ≠ 0) : s ≠ 0 := by
  rintro rfl
  have hj := onJac_of_ofJac h hx
  have := h.1
  rw [mul_zero, zero_mul] at this
  exact mul_ne_zero hx (jac_t_ne hj) this

theorem coset_four {P Q : EPoint} (h : Q - P ∈ E4) :
    Q = P ∨ Q = P + torsM ∨ Q = P + -torsI ∨ Q = P + torsI := by
  have hQ : Q = P + (Q - P) := by abel
  rcases mem_E4_cases.1 h with h | h | h | h <;> rw [h] at hQ
  · left; simpa using hQ
  · right; left; exact hQ
  · right; right; right; exact hQ
  · right; right; left; exact hQ

theorem torsM_sub (P : EPoint) : P + torsM - P ∈ E4 := by rw [add_sub_cancel_left]; exact torsM_mem
theorem torsI_sub (P : EPoint) : P + torsI - P ∈ E4 := by rw [add_sub_cancel_left]; exact torsI_mem
theorem neg_torsI_sub (P : EPoint) : P + -torsI - P ∈ E4 := by
  rw [add_sub_cancel_left]; exact E4.neg_mem torsI_mem

/-- Outside the neutral class: the pairs are exactly those belonging to the class, all with
`s ≠ 0` and all different. -/
theorem regular_pairs {q : ExtPt F} {P : EPoint} (h : IsPt q P) (hP : P ∈ Even) (hE : P ∉ E4) :
    ∃ J : List (Fp × Fp),
      List.Forall₂ (fun (j : Fp × Fp) (e : F × Int32) => EllInvResult j.1 j.2 e.1 e.2) J
        (ristrettoElligator2Inverse q) ∧
      (∀ j ∈ J, j.1 ≠ 0 ∧ ∃ Q, Q - P ∈ E4 ∧ OfJac j.1 j.2 Q) ∧
      (∀ s t Q, Q - P ∈ E4 → OfJac s t Q → (s, t) ∈ J) ∧ J.Nodup := by
  have h0 := xy_ne_of_not_E4 hE
  have hx := left_ne_zero_of_mul h0
  have hy := right_ne_zero_of_mul h0
  obtain ⟨s0, t0, s1, t1, s2, t2, s3, t3, i0, o0, i1, o1, i2, o2, i3, o3⟩ := toJacobi_regular h hP h0
  have x1 : (P + torsM).x ≠ 0 := by rw [add_torsM_x]; exact neg_ne_zero.2 hx
  have x2 : (P + -torsI).x ≠ 0 := by
    rw [add_neg_torsI_x]; exact neg_ne_zero.2 (mul_ne_zero sqrtM1_ne_zero hy)
  have x3 : (P + torsI).x ≠ 0 := by
    rw [add_torsI_x]; exact mul_ne_zero sqrtM1_ne_zero hy
  have j0 := onJac_of_ofJac o0 hx
  have j1 := onJac_of_ofJac o1 x1
  have j2 := onJac_of_ofJac o2 x2
  have j3 := onJac_of_ofJac o3 x3
  have n0 := s_ne_of_ofJac o0 hx
  have n1 := s_ne_of_ofJac o1 x1
  have n2 := s_ne_of_ofJac o2 x2
  have n3 := s_ne_of_ofJac o3 x3
  refine ⟨eightPairs (s0, t0) (s1, t1) (s2, t2) (s3, t3), inverse_results i0 j0 i1 j1 i2 j2 i3 j3, ?_, ?_, ?_⟩
  · intro j hj
    unfold eightPairs at hj
    simp only [List.mem_cons, List.not_mem_nil, or_false] at hj
    rcases hj with rfl | rfl | rfl | rfl | rfl | rfl | rfl | rfl
    · exact ⟨n0, _, by rw [sub_self]; exact E4.zero_mem, o0⟩
    · exact ⟨neg_ne_zero.2 n0, _, by rw [sub_self]; exact E4.zero_mem, ofJac_neg o0⟩
    · exact ⟨n1, _, torsM_sub P, o1⟩
    · exact ⟨neg_ne_zero.2 n1, _, torsM_sub P, ofJac_neg o1⟩
    · exact ⟨n2, _, neg_torsI_sub P, o2⟩
    · exact ⟨neg_ne_zero.2 n2, _, neg_torsI_sub P, ofJac_neg o2⟩
    · exact ⟨n3, _, torsI_sub P, o3⟩
    · exact ⟨neg_ne_zero.2 n3, _, torsI_sub P, ofJac_neg o3⟩
  · intro s t Q hQ hO
    unfold eightPairs
    simp only [List.mem_cons, List.not_mem_nil, or_false, Prod.mk.injEq]
    rcases coset_four hQ with rfl | rfl | rfl | rfl
    · rcases ofJac_pm o0 hO hx with h | h <;> simp [h]
    · rcases ofJac_pm o1 hO x1 with h | h <;> simp [h]
    · rcases ofJac_pm o2 hO x2 with h | h <;> simp [h]
    · rcases ofJac_pm o3 hO x3 with h | h <;> simp [h]
  · -- distinct
    have pm : ∀ {s : Fp}, s ≠ 0 → s ≠ -s := by
      intro s hs h
      have : 2 * s = 0 := by linear_combination h
      rcases mul_eq_zero.1 this with h | h
      · exact two_ne_zero' h
      · exact hs h
    have ne : ∀ {s t s' t' : Fp} {A B : EPoint}, OfJac s t A → OfJac s' t' B → OnJac s t → A ≠ B →
        (s, t) ≠ (s', t') := by
      intro s t s' t' A B hA hB hj hne h
      obtain ⟨rfl, rfl⟩ := Prod.mk.inj h
      exact hne (ofJac_unique hj hA hB)
    have d01 : P ≠ P + torsM := by
      intro h; have := congrArg EPoint.x h; rw [add_torsM_x] at this; exact pm hx this
    have eI : ∀ A B : EPoint, A.x * A.y = P.x * P.y → B.x * B.y = -(P.x * P.y) → A ≠ B := by
      rintro A B hA hB rfl
      exact pm h0 (hA.symm.trans hB)
    have pM : (P + torsM).x * (P + torsM).y = P.x * P.y := by
      rw [add_torsM_x, add_torsM_y, neg_mul_neg]
    have pI : (P + torsI).x * (P + torsI).y = -(P.x * P.y) := by
      rw [add_torsI_x, add_torsI_y]; linear_combination (P.x * P.y) * sqrtM1_sq
    have pN : (P + -torsI).x * (P + -torsI).y = -(P.x * P.y) := by
      rw [add_neg_torsI_x, add_neg_torsI_y]; linear_combination (P.x * P.y) * sqrtM1_sq
    have d02 := eI P _ rfl pN
    have d03 := eI P _ rfl pI
    have d12 := eI _ _ pM pN
    have d13 := eI _ _ pM pI
    have d23 : P + -torsI ≠ P + torsI := by
      intro h; have := congrArg EPoint.x h
      rw [add_neg_torsI_x, add_torsI_x] at this
      exact pm (mul_ne_zero sqrtM1_ne_zero hy) this.symm
    have m0 := ofJac_neg o0
    have m1 := ofJac_neg o1
    have m2 := ofJac_neg o2
    have k0 := onJac_neg j0
    have k1 := onJac_neg j1
    have k2 := onJac_neg j2
    have m3 := ofJac_neg o3
    have pp : ∀ {s t : Fp}, s ≠ 0 → (s, t) ≠ (-s, -t) := by
      intro s t hs h; exact pm hs (Prod.mk.inj h).1
    unfold eightPairs
    simp only [List.nodup_cons, List.mem_cons, List.not_mem_nil, or_false, not_or, not_false_eq_true,
      List.nodup_nil, and_true]
    exact ⟨⟨pp n0, ne o0 o1 j0 d01, ne o0 m1 j0 d01, ne o0 o2 j0 d02, ne o0 m2 j0 d02,
        ne o0 o3 j0 d03, ne o0 m3 j0 d03⟩,
      ⟨ne m0 o1 k0 d01, ne m0 m1 k0 d01, ne m0 o2 k0 d02, ne m0 m2 k0 d02,
        ne m0 o3 k0 d03, ne m0 m3 k0 d03⟩,
      ⟨pp n1, ne o1 o2 j1 d12, ne o1 m2 j1 d12, ne o1 o3 j1 d13, ne o1 m3 j1 d13⟩,
      ⟨ne m1 o2 k1 d12, ne m1 m2 k1 d12, ne m1 o3 k1 d13, ne m1 m3 k1 d13⟩,
      ⟨pp n2, ne o2 o3 j2 d23, ne o2 m3 j2 d23⟩,
      ⟨ne m2 o3 k2 d23, ne m2 m3 k2 d23⟩, pp n3⟩

/-- Outside the neutral class the inverse is exact. -/
theorem inverse_exact {q : ExtPt F} {P : EPoint} (h : IsPt q P) (hP : P ∈ Even) (hE : P ∉ E4)
    (x : Fp) : Found (ristrettoElligator2Inverse q) x ↔
      ¬ IsNeg x ∧ ∃ Q, Elligator x Q ∧ Q - P ∈ E4 := by
  obtain ⟨J, hF, h1, h2, -⟩ := regular_pairs h hP hE
  constructor
  · rintro ⟨e, he, he1, rfl⟩
    obtain ⟨j, hj, hr⟩ := forall2_right hF he
    obtain ⟨hs, Q, hQ, hO⟩ := h1 j hj
    obtain ⟨hn, hel, -⟩ := hr.some he1
    exact ⟨hn, Q, ⟨_, _, hel hs, hO⟩, hQ⟩
  · rintro ⟨hn, Q, ⟨s, t, hel, hO⟩, hQ⟩
    obtain ⟨e, he, hr⟩ := forall2_left hF (h2 s t Q hQ hO)
    have hs := (h1 _ (h2 s t Q hQ hO)).1
    simp only at hs
    have he1 : e.2 = 1 := by
      rcases hr.bits with h | h
      · exact absurd hel ((hr.none h).2 x)
      · exact h
    obtain ⟨hn', hel', -⟩ := hr.some he1
    exact ⟨e, he, he1, ellJac_inj hs hn' hn (hel' hs) hel⟩

/-- Outside the neutral class nothing is returned twice. -/
theorem inverse_distinct {q : ExtPt F} {P : EPoint} (h : IsPt q P) (hP : P ∈ Even) (hE : P ∉ E4) :
    (ristrettoElligator2Inverse q).Pairwise fun a b => a.2 = 1 → b.2 = 1 → eval a.1 ≠ eval b.1 := by
  obtain ⟨J, hF, h1, -, hN⟩ := regular_pairs h hP hE
  generalize ristrettoElligator2Inverse q = L at hF
  induction hF with
  | nil => exact List.Pairwise.nil
  | @cons j e J' L' hje hrest ih =>
    rw [List.nodup_cons] at hN
    refine List.Pairwise.cons ?_ (ih (fun j hj => h1 j (List.mem_cons_of_mem _ hj)) hN.2)
    intro b hb he1 hb1 heq
    obtain ⟨j', hj', hr'⟩ := forall2_right hrest hb
    have a1 := (hje.some he1).2.1 (h1 j List.mem_cons_self).1
    have a2 := (hr'.some hb1).2.1 (h1 j' (List.mem_cons_of_mem _ hj')).1
    rw [← heq] at a2
    obtain ⟨e1, e2⟩ := elligatorJac_unique a1 a2
    exact hN.1 (by rw [Prod.ext e1 e2]; exact hj')

/-- The preimage of the neutral class that is never returned. -/
def missed : Fp := absFp (sqrtID / d)

theorem missed_sq : missed * missed * d = sqrtM1 := by
  unfold missed
  rw [absFp_sq, div_mul_div_comm, sqrtID_sq, mul_div_mul_right _ _ d_ne_zero,
    div_mul_cancel₀ _ d_ne_zero]

theorem ofJac_zero (t : Fp) : OfJac 0 t 0 := by
  refine ⟨?_, ?_⟩ <;> simp

theorem onJac_zero_one : OnJac 0 1 := by unfold OnJac; ring

theorem onJac_one : OnJac 1 (2 * sqrtM1 * eC) := by
  unfold OnJac
  linear_combination (4 * (1 + d) * eC ^ 2) * sqrtM1_sq + 4 * eC_sq

theorem onJac_neg_one : OnJac (-1) (2 * sqrtM1 * eC) := by
  unfold OnJac
  linear_combination (4 * (1 + d) * eC ^ 2) * sqrtM1_sq + 4 * eC_sq

theorem i2eC_ne : 2 * sqrtM1 * eC ≠ 0 :=
  mul_ne_zero (mul_ne_zero two_ne_zero' sqrtM1_ne_zero) eC_ne_zero

theorem ofJac_one : OfJac 1 (2 * sqrtM1 * eC) (-torsI) := by
  rw [neg_torsI]
  constructor
  · linear_combination (-2 * eC) * sqrtM1_sq
  · ring

theorem ofJac_neg_one : OfJac (-1) (2 * sqrtM1 * eC) torsI := by
  unfold torsI
  constructor
  · show sqrtM1 * _ = _
    linear_combination (2 * eC) * sqrtM1_sq
  · show (0 : Fp) * _ = _
    ring

/-- All pairs belonging to the neutral class. -/
theorem neutral_pairs {s t : Fp} {Q : EPoint} (hj : OnJac s t) (h : OfJac s t Q) (hQ : Q ∈ E4) :
    (s = 0 ∧ (t = 1 ∨ t = -1)) ∨
    (s = 1 ∧ t = 2 * sqrtM1 * eC) ∨ (s = -1 ∧ t = -(2 * sqrtM1 * eC)) ∨
    (s = -1 ∧ t = 2 * sqrtM1 * eC) ∨ (s = 1 ∧ t = -(2 * sqrtM1 * eC)) := by
  by_cases hx : Q.x = 0
  · left
    have h1 := h.1
    rw [hx, zero_mul] at h1
    have hs : s = 0 := by
      rcases mul_eq_zero.1 h1.symm with h | h
      · exact (mul_eq_zero.1 h).resolve_left two_ne_zero'
      · exact absurd h eC_ne_zero
    exact ⟨hs, jac_zero (hs ▸ hj)⟩
  · right
    rcases mem_E4_cases.1 hQ with rfl | rfl | rfl | rfl
    · exact absurd EPoint.zero_x hx
    · exact absurd rfl hx
    · rcases ofJac_pm ofJac_neg_one h hx with ⟨a, b⟩ | ⟨a, b⟩
      · exact Or.inr (Or.inr (Or.inl ⟨a, b⟩))
      · exact Or.inr (Or.inr (Or.inr ⟨by rw [a, neg_neg], b⟩))
    · rcases ofJac_pm ofJac_one h hx with ⟨a, b⟩ | ⟨a, b⟩
      · exact Or.inl ⟨a, b⟩
      · exact Or.inr (Or.inl ⟨a, b⟩)

theorem neutral_results {q : ExtPt F} {P : EPoint} (h : IsPt q P) (hE : P ∈ E4) :
    List.Forall₂ (fun (j : Fp × Fp) (e : F × Int32) => EllInvResult j.1 j.2 e.1 e.2)
      (eightPairs (0, 1) (0, 1) (1, 2 * sqrtM1 * eC) (-1, 2 * sqrtM1 * eC))
      (ristrettoElligator2Inverse q) := by
  obtain ⟨i0, i1, i2, i3⟩ := toJacobi_neutral h (mul_eq_zero.2 (mem_E4.1 hE))
  exact inverse_results (j0 := (0, 1)) (j1 := (0, 1)) (j2 := (1, _)) (j3 := (-1, _))
    i0 onJac_zero_one i1 onJac_zero_one i2 onJac_one i3 onJac_neg_one

theorem missed_nonneg : ¬ IsNeg missed := absFp_not_neg _

theorem missed_ne_zero : missed ≠ 0 := by
  intro h; have := missed_sq; rw [h] at this; exact sqrtM1_ne_zero (by rw [← this]; ring)

theorem missed_ne_sqrtID : missed ≠ sqrtID := by
  intro h
  have h1 := missed_sq
  rw [h, sqrtID_sq] at h1
  have : sqrtM1 * ((d - 1) * (1 + d)) = 0 := by linear_combination h1
  exact mul_ne_zero sqrtM1_ne_zero (mul_ne_zero d_sub_one_ne_zero onePlusD_ne) this

/-- The neutral class: everything returned is a preimage, and all but one are returned. -/
theorem inverse_neutral {q : ExtPt F} {P : EPoint} (h : IsPt q P) (hE : P ∈ E4) (x : Fp) :
    Found (ristrettoElligator2Inverse q) x ↔
      ¬ IsNeg x ∧ (∃ Q, Elligator x Q ∧ Q - P ∈ E4) ∧ x ≠ missed := by
  have hF := neutral_results h hE
  have hz : (0 : EPoint) - P ∈ E4 := by rw [zero_sub]; exact E4.neg_mem hE
  have hmiss : ElligatorJac missed 0 (-1) :=
    elligatorJac_zero_iff.2 ⟨rfl, Or.inr ((ellD_zero_iff _).2 (Or.inr missed_sq))⟩
  constructor
  · rintro ⟨e, he, he1, rfl⟩
    obtain ⟨j, hj, hr⟩ := forall2_right hF he
    obtain ⟨hn, hel, hz0⟩ := hr.some he1
    refine ⟨hn, ?_⟩
    have case1 : j.1 ≠ 0 → (∃ Q, Q ∈ E4 ∧ OfJac j.1 j.2 Q) →
        (∃ Q, Elligator (eval e.1) Q ∧ Q - P ∈ E4) ∧ eval e.1 ≠ missed := by
      rintro hne ⟨Q, hQ, hO⟩
      refine ⟨⟨Q, ⟨_, _, hel hne, hO⟩, E4.sub_mem hQ hE⟩, ?_⟩
      intro heq
      have := hel hne
      rw [heq] at this
      exact hne (elligatorJac_unique this hmiss).1
    have hc0 : ∀ x : Fp, (x = sqrtID ∨ x = 0) →
        (∃ Q, Elligator x Q ∧ Q - P ∈ E4) ∧ x ≠ missed := by
      rintro x (rfl | rfl)
      · refine ⟨⟨0, ⟨0, -1, elligatorJac_zero_iff.2 ⟨rfl, Or.inr ((ellD_zero_iff _).2 (Or.inl sqrtID_sq))⟩,
          ofJac_zero _⟩, hz⟩, missed_ne_sqrtID.symm⟩
      · exact ⟨⟨0, ⟨0, -1, elligatorJac_zero_iff.2 ⟨rfl, Or.inl rfl⟩, ofJac_zero _⟩, hz⟩,
          missed_ne_zero.symm⟩
    unfold eightPairs at hj
    simp only [List.mem_cons, List.not_mem_nil, or_false, neg_zero] at hj
    have nI : -torsI ∈ E4 := E4.neg_mem torsI_mem
    rcases hj with rfl | rfl | rfl | rfl | rfl | rfl | rfl | rfl
    · exact hc0 _ (Or.inl ((hz0 rfl).1 rfl))
    · exact hc0 _ (Or.inr ((hz0 rfl).2 rfl))
    · exact hc0 _ (Or.inl ((hz0 rfl).1 rfl))
    · exact hc0 _ (Or.inr ((hz0 rfl).2 rfl))
    · exact case1 one_ne_zero ⟨_, nI, ofJac_one⟩
    · exact case1 (neg_ne_zero.2 one_ne_zero) ⟨_, nI, ofJac_neg ofJac_one⟩
    · exact case1 (neg_ne_zero.2 one_ne_zero) ⟨_, torsI_mem, ofJac_neg_one⟩
    · exact case1 (neg_ne_zero.2 (neg_ne_zero.2 one_ne_zero)) ⟨_, torsI_mem, ofJac_neg ofJac_neg_one⟩
  · rintro ⟨hn, ⟨Q, ⟨s, t, hel, hO⟩, hQ⟩, hne⟩
    have hQ4 : Q ∈ E4 := by
      have : Q = (Q - P) + P := by abel
      rw [this]; exact E4.add_mem hQ hE
    have hfin : ∀ j ∈ eightPairs (0, 1) (0, 1) (1, 2 * sqrtM1 * eC) (-1, 2 * sqrtM1 * eC),
        j.1 ≠ 0 → ElligatorJac x j.1 j.2 → Found (ristrettoElligator2Inverse q) x := by
      intro j hj hs hel
      obtain ⟨e, he, hr⟩ := forall2_left hF hj
      have he1 : e.2 = 1 := by
        rcases hr.bits with h | h
        · exact absurd hel ((hr.none h).2 x)
        · exact h
      obtain ⟨hn', hel', -⟩ := hr.some he1
      exact ⟨e, he, he1, ellJac_inj hs hn' hn (hel' hs) hel⟩
    have hfz : ∀ t : Fp, (0, t) ∈ eightPairs (0, 1) (0, 1) (1, 2 * sqrtM1 * eC) (-1, 2 * sqrtM1 * eC) →
        ∃ e ∈ ristrettoElligator2Inverse q, e.2 = 1 ∧
          (t = 1 → eval e.1 = sqrtID) ∧ (t = -1 → eval e.1 = 0) := by
      intro t ht
      obtain ⟨e, he, hr⟩ := forall2_left hF ht
      have he1 : e.2 = 1 := by
        rcases hr.bits with h | h
        · exact absurd rfl (hr.none h).1
        · exact h
      exact ⟨e, he, he1, (hr.some he1).2.2 rfl⟩
    rcases neutral_pairs (onJac_of_elligator hel) hO hQ4 with ⟨rfl, -⟩ | ⟨rfl, rfl⟩ | ⟨rfl, rfl⟩ |
      ⟨rfl, rfl⟩ | ⟨rfl, rfl⟩
    · obtain ⟨-, hx⟩ := elligatorJac_zero_iff.1 hel
      rcases hx with rfl | hD
      · obtain ⟨e, he, he1, -, h⟩ := hfz (-1) (by simp [eightPairs])
        exact ⟨e, he, he1, h rfl⟩
      · rcases (ellD_zero_iff x).1 hD with h | h
        · obtain ⟨e, he, he1, h', -⟩ := hfz 1 (by simp [eightPairs])
          refine ⟨e, he, he1, (h' rfl).trans ?_⟩
          exact eq_of_sq_eq isNeg_neg_sqrtID hn (by rw [sqrtID_sq, h])
        · exfalso
          apply hne
          exact eq_of_sq_eq hn missed_nonneg (mul_right_cancel₀ d_ne_zero (h.trans missed_sq.symm))
    · exact hfin (1, _) (by simp [eightPairs]) one_ne_zero hel
    · exact hfin (-1, _) (by simp [eightPairs]) (neg_ne_zero.2 one_ne_zero) hel
    · exact hfin (-1, _) (by simp [eightPairs]) (neg_ne_zero.2 one_ne_zero) hel
    · exact hfin (1, _) (by simp [eightPairs]) one_ne_zero hel

/-- The missing one. -/
theorem inverse_neutral_incomplete {q : ExtPt F} (h : IsPt q 0) :
    ¬ IsNeg missed ∧ Elligator missed 0 ∧ ¬ Found (ristrettoElligator2Inverse q) missed := by
  refine ⟨missed_nonneg, ⟨0, -1, elligatorJac_zero_iff.2
    ⟨rfl, Or.inr ((ellD_zero_iff _).2 (Or.inr missed_sq))⟩, ofJac_zero _⟩, fun hf => ?_⟩
  exact ((inverse_neutral h E4.zero_mem _).1 hf).2.2 rfl

end Ristretto.Proofs
