import Verif.Props.Cref
import Verif.Proofs.CrefApi

/-!
# C63: all of the C reference implementation

`krun` runs a program over the functions of cref.c (Model/CrefApi.lean), `karun` (Spec/CrefApi.lean) the same program on
mathematical objects: elements of GF(2^255-19), of the Ristretto group and of `ℤ/l`.
-/

namespace Ristretto.Props
open Model Proofs Model.Cref
set_option autoImplicit false

/-! ## Programs -/

/-- **C63**: every program that keeps to the preconditions on the sizes of field elements, and passes neither
`fe25519_triple` nor `group_ge_multiscalarmult` a receiver that is also an operand, returns what the abstract machine
returns. -/
theorem C63_refinement (prog : List KCmd) (h : fits (fun _ => 1) prog = true) :
    (krun CMem.init prog).2 = (karun CState.init prog).2 :=
  (Proofs.Cref.krun_rel prog Proofs.Cref.kRel_init h).2

/-- Programs without calls on field elements always meet the preconditions, as long as the receivers of
`group_ge_multiscalarmult` are not among the operands. -/
theorem C63_fits (prog : List KCmd)
    (h : ∀ c ∈ prog, (goOf c).isSome = true ∨ (∃ r xs, c = .geMultiScalarMult r xs ∧ ∀ s, (r, s) ∉ xs) ∨ (∃ x, c = .geIsNeutral x) ∨
      (∃ x, c = .scBitlen x) ∨ (∃ x pos, c = .scTstbit x pos)) (w : ℕ → ℕ) : fits w prog = true := by
  induction prog generalizing w with
  | nil => rfl
  | cons c cs ih =>
    have ih' := ih (fun c hc => h c (List.mem_cons_of_mem _ hc))
    have hw : weigh w c = some w := by
      rcases h c (by simp) with h | ⟨r, xs, rfl, hx⟩ | ⟨x, rfl⟩ | ⟨x, rfl⟩ | ⟨x, pos, rfl⟩
      · cases c with
        | go c => cases c <;> first | rfl | (simp [goOf] at h)
        | _ => first | rfl | (simp [goOf] at h)
      · have : r ∉ xs.map Prod.fst := by
          intro hm
          obtain ⟨⟨r', s⟩, h1, h2⟩ := List.mem_map.1 hm
          simp only at h2
          subst h2
          exact hx s h1
        simp [weigh, this]
      all_goals rfl
    rw [fits, hw]
    exact ih' w

/-- A program with unreduced sums: `fits` accepts `(2x + y) * x` and refuses a fourth doubling in a row.  The hash of a
field element, its multiple by 2 in two ways, and comparisons. -/
example : fits (fun _ => 1)
    [.go (.feUnpack 0 (leBytes 32 7)), .feDouble 1 0, .feAdd 1 1 0, .feMul 2 1 0, .go (.geElligator 0 2),
     .go (.scUnpack 0 (leBytes 32 2)), .geMultiScalarMult 1 [(0, 0)], .go (.geDouble 2 0), .geEquals 1 2] = true ∧
    fits (fun _ => 1) [.feDouble 0 0, .feDouble 0 0, .feDouble 0 0, .feDouble 0 0] = false := by
  decide +kernel

open Classical in
/-- What the abstract machine says about a multiplication of the base point: `l - 1` times the base point is its negative. -/
example : (krun CMem.init [.scSetOne 0, .scNegate 0 0, .geScalarMultBase 0 0, .geSetBase 1, .go (.geNeg 1 1), .geEquals 0 1,
      .geIsNeutral 0]).2 = [.unit, .unit, .unit, .unit, .unit, .int 1, .int 0] := by
  rw [C63_refinement _ (by decide +kernel)]
  have e1 : (-1 : ZMod l).val = l - 1 := by
    rw [ZMod.neg_val, if_neg one_ne_zero, ZMod.val_one]
  have e2 : (l - 1) • baseR = -baseR := by
    have h : (l - 1) • baseR + baseR = 0 := by
      rw [← succ_nsmul, Nat.sub_add_cancel l_prime.one_le]
      exact l_smul baseR
    exact eq_neg_of_add_eq_zero_left h
  simp only [karun, kaexec, caexec, CState.setSc, CState.setPt, if_true, zero_ne_one, one_ne_zero, if_false, e1, e2, negO, bit,
    Option.map_some, eqO, neg_eq_zero, baseR_ne_zero]

/-! ## The Go package -/

/-- The two abstract machines hold the same scalars and group elements. -/
structure SameSP (c : CState) (a : AState) : Prop where
  pts : ∀ k, c.pts k = a.pts k
  scs : ∀ k, c.scs k = a.scs k

theorem SameSP.setPt {c : CState} {a : AState} (h : SameSP c a) (g : ℕ) {v w : Option RGroup} (e : v = w) :
    SameSP (c.setPt g v) (a.setPt g w) := ⟨fun k => by simp only [CState.setPt, AState.setPt, h.pts k, e], h.scs⟩

theorem SameSP.setSc {c : CState} {a : AState} (h : SameSP c a) (g : ℕ) {v w : ZMod l} (e : v = w) :
    SameSP (c.setSc g v) (a.setSc g w) := ⟨h.pts, fun k => by simp only [CState.setSc, AState.setSc, h.scs k, e]⟩

theorem sameSP_step (sha256 : List UInt8 → Bytes 32) (sha512 : List UInt8 → Bytes 64) {c : CState} {a : AState}
    (h : SameSP c a) (cmd : KCmd) (go : Cmd) (hg : goOf cmd = some go)
    (hp : ∀ g buf, cmd = .go (.geUnpack g buf) → leVal buf < p) :
    ∃ a', aexec sha256 sha512 a go = some (a', seenOf cmd (kaexec c cmd).2) ∧ SameSP (kaexec c cmd).1 a' := by
  cases cmd with
  | go cmd =>
    cases cmd with
    | geUnpack g buf =>
      cases hg
      have e : crefDecode buf = decode buf := by
        unfold crefDecode; rw [feBytes_feOfBytes buf (hp g buf rfl)]
      refine ⟨a.setPt g (decode buf), ?_, h.setPt g e⟩
      simp only [aexec, kaexec, caexec, seenOf, e]
      cases decode buf <;> rfl
    | gePack g => cases hg; exact ⟨a, by simp only [aexec, kaexec, caexec, seenOf, h.pts], h⟩
    | geNeg g x => cases hg; exact ⟨_, rfl, h.setPt g (by rw [h.pts])⟩
    | geAdd g x y => cases hg; exact ⟨_, rfl, h.setPt g (by rw [h.pts, h.pts])⟩
    | geDouble g x => cases hg; exact ⟨_, rfl, h.setPt g (by rw [h.pts])⟩
    | geScalarMult g x s => cases hg; exact ⟨_, rfl, h.setPt g (by rw [h.pts, h.scs])⟩
    | scUnpack s buf => cases hg; exact ⟨_, rfl, h.setSc s rfl⟩
    | scPack s => cases hg; exact ⟨a, by simp only [aexec, kaexec, caexec, seenOf, h.scs], h⟩
    | feUnpack f buf => cases hg
    | fePack f => cases hg
    | geElligator g f => cases hg
  | scSetZero r => cases hg; exact ⟨_, rfl, h.setSc r rfl⟩
  | scSetOne r => cases hg; exact ⟨_, rfl, h.setSc r rfl⟩
  | scAdd r x y => cases hg; exact ⟨_, rfl, h.setSc r (by rw [h.scs, h.scs])⟩
  | scSub r x y => cases hg; exact ⟨_, rfl, h.setSc r (by rw [h.scs, h.scs])⟩
  | scNegate r x => cases hg; exact ⟨_, rfl, h.setSc r (by rw [h.scs])⟩
  | scMul r x y => cases hg; exact ⟨_, rfl, h.setSc r (by rw [h.scs, h.scs])⟩
  | scSquare r x => cases hg; exact ⟨_, rfl, h.setSc r (by rw [h.scs, sq])⟩
  | scInvert r x => cases hg; exact ⟨_, rfl, h.setSc r (by rw [h.scs])⟩
  | scFrom64 r b => cases hg; exact ⟨_, rfl, h.setSc r rfl⟩
  | scIsZero x =>
    cases hg
    refine ⟨a, ?_, h⟩
    simp only [aexec, kaexec, bit, seenOf, h.scs]
    by_cases hx : a.scs x = 0 <;> simp [hx]
  | scEquals x y =>
    cases hg
    refine ⟨a, ?_, h⟩
    simp only [aexec, kaexec, bit, seenOf, h.scs]
  | geSetNeutral r => cases hg; exact ⟨_, rfl, h.setPt r rfl⟩
  | geSetBase r => cases hg; exact ⟨_, rfl, h.setPt r rfl⟩
  | geScalarMultBase r s => cases hg; exact ⟨_, rfl, h.setPt r (by rw [h.scs]; rfl)⟩
  | geEquals x y =>
    cases hg
    refine ⟨a, ?_, h⟩
    simp only [aexec, kaexec, bit, seenOf]
    rw [h.pts x, h.pts y]
  | _ => cases hg

theorem sameSP_run (sha256 : List UInt8 → Bytes 32) (sha512 : List UInt8 → Bytes 64) : ∀ (prog : List (KCmd × Cmd))
    {c : CState} {a : AState}, SameSP c a → (∀ x ∈ prog, goOf x.1 = some x.2) →
    (∀ g buf, KCmd.go (.geUnpack g buf) ∈ prog.map Prod.fst → leVal buf < p) →
    (arun sha256 sha512 a (prog.map Prod.snd)).map Prod.snd =
      some (List.zipWith seenOf (prog.map Prod.fst) (karun c (prog.map Prod.fst)).2)
  | [], _, _, _, _, _ => rfl
  | (cmd, go) :: cs, c, a, h, hg, hp => by
    obtain ⟨a', h1, h2⟩ := sameSP_step sha256 sha512 h cmd go (hg (cmd, go) (by simp))
      (fun g buf e => hp g buf (by simp [e]))
    have ih := sameSP_run sha256 sha512 cs h2 (fun x hx => hg x (by simp [hx]))
      (fun g buf e => hp g buf (by rw [List.map_cons]; exact List.mem_cons_of_mem _ e))
    rw [List.map_cons, List.map_cons, arun, h1]
    cases hr : arun sha256 sha512 a' (cs.map Prod.snd) with
    | none => rw [hr] at ih; cases ih
    | some r =>
      rw [hr] at ih
      simp only [Option.map_some, Option.some.injEq] at ih
      simp [hr, ih, karun]

/-- **C63** (agreement): a program over the functions on scalars and group elements that both implementations have returns
the same in both, provided the buffers given to `group_ge_unpack` are below 2^255-19.  `prog` pairs every call of cref.c
with the method of the Go package. -/
theorem C63_agree (sha512 : List UInt8 → Bytes 64) (prog : List (KCmd × Cmd)) (hg : ∀ x ∈ prog, goOf x.1 = some x.2)
    (hp : ∀ g buf, KCmd.go (.geUnpack g buf) ∈ prog.map Prod.fst → leVal buf < p) :
    (run (goEnv sha512) Mem.init (prog.map Prod.snd)).map Prod.snd =
      some (List.zipWith seenOf (prog.map Prod.fst) (krun CMem.init (prog.map Prod.fst)).2) := by
  rw [C42_refinement, C63_refinement]
  · exact sameSP_run _ _ prog ⟨fun _ => rfl, fun _ => rfl⟩ hg hp
  · refine C63_fits _ (fun c hc => Or.inl ?_) _
    obtain ⟨x, hx, rfl⟩ := List.mem_map.1 hc
    rw [hg x hx]
    rfl

/-- A program that meets the hypotheses. -/
example : ∀ x ∈ [(KCmd.scFrom64 0 (Vector.replicate 64 0xff), Cmd.sSetReduced 0 (Vector.replicate 64 0xff)),
    (.scInvert 1 0, .sInverse 1 0), (.geScalarMultBase 0 1, .pScalarMultBase 0 1),
    (.go (.geUnpack 1 (leBytes 32 0)), .pSetBytes 1 (leBytes 32 0)), (.geEquals 0 1, .pEqualsI 0 1),
    (.go (.gePack 0), .pBytes 0)], goOf x.1 = some x.2 := by
  intro x hx
  simp only [List.mem_cons, List.not_mem_nil, or_false] at hx
  rcases hx with rfl | rfl | rfl | rfl | rfl | rfl <;> rfl

/-! ## Functions on the curve -/

/-- **C63** (multiplication of the base point): for every number below 3 * 2^252 whose digits in radix 256 are given. -/
theorem C63_scalarMultBase (s : Bytes 32) (hs : leVal s < 3 * 2 ^ 252) :
    IsCrefPoint (geScalarMultBase (s.map UInt8.toUInt32)) (leVal s • stdBase) :=
  isCref_iff.2 (Proofs.Cref.scalarMultBase_spec s hs)

example : leVal (leBytes 32 (l - 1)) = l - 1 ∧ l - 1 < 3 * 2 ^ 252 := by decide +kernel

/-- **C63** (the base point): `group_ge_base` is the point stated in RFC 8032, and agrees with the base point of the Go
package as a group element. -/
theorem C63_base : IsCrefPoint geBase stdBase ∧ gePack geBase = encode baseR :=
  ⟨isCref_iff.2 Proofs.Cref.geBase_spec, Proofs.Cref.cPt_pack Proofs.Cref.cPt_base⟩

/-- **C63** (comparisons) of points of the curve: `group_ge_equals` compares classes modulo the points of order dividing 4,
`group_ge_isneutral` recognises the eight points of order dividing 8. -/
theorem C63_compare (q r : ExtPt Fe25) (P Q : EPoint) (hq : IsCrefPoint q P) (hr : IsCrefPoint r Q) :
    (geEquals q r = 1 ∨ geEquals q r = 0) ∧ (geEquals q r = 1 ↔ P - Q ∈ E4) ∧
    (geIsNeutral q = 1 ∨ geIsNeutral q = 0) ∧ (geIsNeutral q = 1 ↔ 8 • P = 0) := by
  classical
  obtain ⟨q', h1, h2⟩ := isCref_iff.1 hq
  obtain ⟨r', h3, h4⟩ := isCref_iff.1 hr
  have e1 : geEquals q r = flag (P - Q ∈ E4) := (h1.equals h3).trans (ristrettoEqualsI_spec h2 h4)
  have e2 : geIsNeutral q = flag (8 • P = 0) := by
    have h := h1.isNeutral
    simp only at h
    rw [Proofs.Cref.fp_isZero, Proofs.Cref.fp_equals, Proofs.Cref.and_flags] at h
    rw [h]
    refine flag_congr ((Proofs.Cref.proj_zero_iff (double_spec (double_spec (double_spec h2))).proj).trans ?_)
    rw [show P + P + (P + P) + (P + P + (P + P)) = 8 • P by simp only [← two_nsmul, ← mul_nsmul]]
  have hf : ∀ c : Prop, [Decidable c] → (flag c = 1 ∨ flag c = 0) ∧ (flag c = 1 ↔ c) := by
    intro c _
    by_cases h : c <;> simp [flag, h]
  rw [e1, e2]
  exact ⟨(hf _).1, (hf _).2, (hf _).1, (hf _).2⟩

/-- The hypotheses are met, with both answers. -/
example : IsCrefPoint geBase stdBase ∧ IsCrefPoint Cref.neutral 0 ∧ 8 • (0 : EPoint) = 0 ∧ 8 • stdBase ≠ 0 ∧
    (0 - 0 : EPoint) ∈ E4 := by
  refine ⟨C63_base.1, isCref_iff.2 ⟨_, .neutral, zero_spec⟩, nsmul_zero _, ?_, by rw [sub_zero]; exact E4.zero_mem⟩
  intro h
  refine baseR_ne_zero ((Proofs.Cref.cls_zero_iff stdBase_even).1 ?_)
  rw [← h]
  simp only [← two_nsmul, ← mul_nsmul]

/-- **C63** (multi-scalar multiplication) of points of the curve by scalars below 2^254: the receiver is the sum. -/
theorem C63_multi (m : CMem) (r : ℕ) (xs : List (ℕ × ℕ)) (P : ℕ → EPoint) (n : ℕ → Bytes 32)
    (hr : ∀ x ∈ xs, x.1 ≠ r ∧ IsCrefPoint (m.pts x.1) (P x.1) ∧ m.scs x.2 = (n x.2).map UInt8.toUInt32 ∧ leVal (n x.2) < 2 ^ 254) :
    IsCrefPoint ((kexec m (.geMultiScalarMult r xs)).1.pts r) (xs.map fun x => leVal (n x.2) • P x.1).sum := by
  have key : ∀ (xs : List (ℕ × ℕ)) (m : CMem) (Q : EPoint), IsCrefPoint (m.pts r) Q →
      (∀ x ∈ xs, x.1 ≠ r ∧ IsCrefPoint (m.pts x.1) (P x.1) ∧ m.scs x.2 = (n x.2).map UInt8.toUInt32 ∧ leVal (n x.2) < 2 ^ 254) →
      IsCrefPoint ((xs.foldl (multiStep r) m).pts r) (Q + (xs.map fun x => leVal (n x.2) • P x.1).sum) := by
    intro xs
    induction xs with
    | nil => intro m Q hQ _; simpa using hQ
    | cons x xs ih =>
      intro m Q hQ h
      obtain ⟨h1, h2, h3, h4⟩ := h x (by simp)
      rw [List.foldl_cons, List.map_cons, List.sum_cons, ← add_assoc]
      refine ih _ _ ?_ (fun y hy => ?_)
      · have := (C54_points _ _ _ _ hQ (C54_scalarMult _ _ h2 _ h4)).1
        unfold multiStep CMem.setPt
        simp only [if_true, h3]
        exact this
      · obtain ⟨g1, g2, g3, g4⟩ := h y (by simp [hy])
        refine ⟨g1, ?_, g3, g4⟩
        unfold multiStep CMem.setPt
        simp only [if_neg g1]
        exact g2
  have h0 := key xs (m.setPt r Cref.neutral) 0 (by
    unfold CMem.setPt
    simp only [if_true]
    exact isCref_iff.2 ⟨_, .neutral, zero_spec⟩) (fun x hx => by
    obtain ⟨g1, g2, g3, g4⟩ := hr x hx
    refine ⟨g1, ?_, g3, g4⟩
    unfold CMem.setPt
    simp only [if_neg g1]
    exact g2)
  rw [zero_add] at h0
  exact h0

/-- Two points and scalars: 2 B + 3 B into a third variable. -/
example : IsCrefPoint ((kexec ⟨fun _ => CrefOps.zero, fun _ => geBase, fun k => (leBytes 32 (k + 2)).map UInt8.toUInt32⟩
    (.geMultiScalarMult 2 [(0, 0), (1, 1)])).1.pts 2) (5 • stdBase) := by
  have h := C63_multi ⟨fun _ => CrefOps.zero, fun _ => geBase, fun k => (leBytes 32 (k + 2)).map UInt8.toUInt32⟩ 2 [(0, 0), (1, 1)]
    (fun _ => stdBase) (fun k => leBytes 32 (k + 2)) (by
      intro x hx
      rcases List.mem_cons.1 hx with rfl | hx
      · exact ⟨by decide, C63_base.1, rfl, by decide +kernel⟩
      · rw [List.mem_singleton] at hx
        subst hx
        exact ⟨by decide, C63_base.1, rfl, by decide +kernel⟩)
  have e : ([(0, 0), (1, 1)].map fun x : ℕ × ℕ => leVal (leBytes 32 (x.2 + 2)) • stdBase).sum = 5 • stdBase := by
    simp only [List.map_cons, List.map_nil, List.sum_cons, List.sum_nil, add_zero]
    rw [show leVal (leBytes 32 (0 + 2)) = 2 by decide +kernel, show leVal (leBytes 32 (1 + 2)) = 3 by decide +kernel,
      ← add_nsmul]
  rwa [e] at h

/-! ## Constants -/

/-- **C63** (constants): the constants of cref.h, and those of the curve. -/
theorem C63_constants :
    feVal25 CrefOps.zero = 0 ∧ feVal25 CrefOps.one = 1 ∧ feVal25 feTwo = 2 ∧ feVal25 CrefOps.m1 = -1 ∧
    feVal25 CrefOps.sqrtm1 = sqrtM1 ∧ feVal25 feMsqrtm1 = -sqrtM1 ∧ feVal25 CrefOps.ecd = d ∧ feVal25 CrefOps.ec2d = 2 * d ∧
    feVal25 CrefOps.magic ^ 2 * (-d - 1) = 1 := by
  refine ⟨?_, ?_, ?_, ?_, ?_, ?_, ?_, ?_, ?_⟩ <;> decide +kernel

/-! ## Comparisons of field elements -/

/-- **C63** (flags): for all field elements with limbs up to three times those of a product (two elements to be compared may
use that up between them), the comparisons return 1 or 0 and say which residue is meant: `fe25519_isnegative` and
`fe25519_getparity` are the parity of the least representative, `fe25519_iszero` is whether the residue is 0, and
`fe25519_iseq` and `fe25519_iseq_vartime` are whether two residues are the same. -/
theorem C63_flags (a b : Fe25) (ha : Limbs25 (3 * 2 ^ 25) (3 * (2 ^ 24 + 2 ^ 16)) a) :
    (isnegative a = if (feVal25 a).val % 2 = 1 then 1 else 0) ∧
    (getparity a = if (feVal25 a).val % 2 = 1 then 1 else 0) ∧
    (iszero a = if feVal25 a = 0 then 1 else 0) ∧
    (∀ m n : ℕ, m + n ≤ 3 → Limbs25 (m * 2 ^ 25) (m * (2 ^ 24 + 2 ^ 16)) a → Limbs25 (n * 2 ^ 25) (n * (2 ^ 24 + 2 ^ 16)) b →
      (iseq a b = if feVal25 a = feVal25 b then 1 else 0) ∧
      (iseqVartime a b = if feVal25 a = feVal25 b then 1 else 0)) := by
  have hR : Proofs.Cref.R 3 a (feVal25 a) := ⟨ha, rfl⟩
  have e1 : isnegative a = if (feVal25 a).val % 2 = 1 then 1 else 0 :=
    hR.isNeg.1.trans (isNegativeI_spec (F := Fp) trivial)
  refine ⟨e1, ?_, ?_, ?_⟩
  · unfold getparity
    rw [e1]
    split <;> rfl
  · rw [hR.isZero.1, isNonZeroI_spec (F := Fp) trivial]
    change 1 - (if feVal25 a ≠ 0 then (1 : Int32) else 0) = _
    by_cases h0 : feVal25 a = 0 <;> simp [h0]
  · intro m n hmn hm hn
    have h1 : Proofs.Cref.R m a (feVal25 a) := ⟨hm, rfl⟩
    have h2 : Proofs.Cref.R n b (feVal25 b) := ⟨hn, rfl⟩
    have e := (h1.equals h2 hmn).1.trans (feEqualsI_spec (F := Fp) trivial trivial)
    exact ⟨e, e⟩

/-- Two representations of 2 with different limbs. -/
example : iseq feTwo (⟨67108847, 33554431, 67108863, 33554431, 67108863, 33554431, 67108863, 33554431, 67108863, 33554431⟩ : Fe25) = 1 := by
  have h := ((C63_flags feTwo ⟨67108847, 33554431, 67108863, 33554431, 67108863, 33554431, 67108863, 33554431, 67108863, 33554431⟩
    (by decide +kernel)).2.2.2 1 2 (by norm_num) (by decide +kernel) (by decide +kernel)).1
  rwa [if_pos (by decide +kernel)] at h

/-! ## Roots -/

/-- **C63** (roots): for every field element with limbs up to three times those of a product.  `fe25519_sqrti` says that 0 is
not a square. -/
theorem C63_roots (a : Fe25) (h : Limbs25 (3 * 2 ^ 25) (3 * (2 ^ 24 + 2 ^ 16)) a) :
    (IsSquare (feVal25 a) → feVal25 (fsqrt a) ^ 2 = feVal25 a) ∧
    (feVal25 a ≠ 0 → IsSquare (feVal25 a) → (fsqrti a).2 = 1 ∧ feVal25 (fsqrti a).1 ^ 2 = feVal25 a) ∧
    (¬ IsSquare (feVal25 a) → (fsqrti a).2 = 0 ∧ feVal25 (fsqrti a).1 ^ 2 = sqrtM1 * feVal25 a) ∧
    (feVal25 a = 0 → (fsqrti a).2 = 0 ∧ feVal25 (fsqrti a).1 = 0) := by
  have hR : Proofs.Cref.R 3 a (feVal25 a) := ⟨h, rfl⟩
  generalize feVal25 a = x at hR
  have h1 : feVal25 (fsqrt a) = invSqrt x * x := hR.fsqrt.2
  have h2 : feVal25 (fsqrti a).1 = (invSqrtI x).1 * (if 1 - (invSqrtI x).2 = 0 then 1 else sqrtM1) * x := hR.fsqrti.1.2
  have h3 : (fsqrti a).2 = (invSqrtI x).2 := hR.fsqrti.2.1
  obtain ⟨-, s0, s1⟩ := invSqrt_spec (F := Fp) (a := x) trivial
  obtain ⟨-, si⟩ := invSqrtI_spec (F := Fp) (a := x) trivial
  rw [h1, h2, h3]
  generalize (invSqrtI x : Fp × Int32) = ub at *
  obtain ⟨u, b⟩ := ub
  generalize invSqrt x = t at *
  change x = 0 → t = 0 at s0
  change x ≠ 0 → IsSquare x → x * (t * t) = 1 at s1
  change (b = 1 ∧ x * (u * u) = 1) ∨ (b = 0 ∧ ¬ IsSquare x ∧ x * (u * u) = -sqrtM1) ∨ (b = 0 ∧ x = 0 ∧ u = 0) at si
  have i2 : (sqrtM1 : Fp) * sqrtM1 = -1 := sqrtM1_sq
  refine ⟨fun hs => ?_, fun h0 hs => ?_, fun hs => ?_, fun h0 => ?_⟩
  · by_cases hx : x = 0
    · rw [hx]; ring
    · have := s1 hx hs
      calc (t * x) ^ 2 = x * (t * t) * x := by ring
        _ = x := by rw [this, one_mul]
  · rcases si with ⟨rfl, e⟩ | ⟨-, hn, -⟩ | ⟨-, hn, -⟩
    · refine ⟨rfl, ?_⟩
      simp only [if_pos (show (1 - 1 : Int32) = 0 from rfl), mul_one]
      calc (u * x) ^ 2 = x * (u * u) * x := by ring
        _ = x := by rw [e, one_mul]
    · exact absurd hs hn
    · exact absurd hn h0
  · rcases si with ⟨rfl, e⟩ | ⟨rfl, hn, e⟩ | ⟨-, hn, -⟩
    · exfalso
      have hu : u ≠ 0 := by rintro rfl; simp at e
      refine hs ⟨u⁻¹, ?_⟩
      field_simp
      linear_combination e
    · refine ⟨rfl, ?_⟩
      simp only [if_neg (show ¬ (1 - 0 : Int32) = 0 by decide)]
      calc (u * sqrtM1 * x) ^ 2 = x * (u * u) * (sqrtM1 * sqrtM1) * x := by ring
        _ = sqrtM1 * x := by rw [e, i2]; ring
    · exact absurd hn (fun h => hs (h ▸ ⟨0, by simp⟩))
  · subst h0
    rcases si with ⟨-, e⟩ | ⟨-, hn, -⟩ | ⟨rfl, -, rfl⟩
    · simp at e
    · exact absurd ⟨0, by simp⟩ hn
    · exact ⟨rfl, by ring⟩

/-- The hypothesis is met by all results of `fe25519_unpack`, and the cases occur. -/
example : (∀ b : Bytes 32, Limbs25 (3 * 2 ^ 25) (3 * (2 ^ 24 + 2 ^ 16)) (Cref.unpack b)) ∧
    (fsqrti (Cref.unpack (leBytes 32 4))).2 = 1 ∧ (fsqrti (Cref.unpack (leBytes 32 2))).2 = 0 ∧
    (fsqrti (Cref.unpack (leBytes 32 0))).2 = 0 := by
  have hl : ∀ b : Bytes 32, Limbs25 (3 * 2 ^ 25) (3 * (2 ^ 24 + 2 ^ 16)) (Cref.unpack b) :=
    fun b => (Proofs.Cref.R.mono (n := 3) (Proofs.Cref.cFe_unpack (F := Fe25) b)).1
  have hv : ∀ n : ℕ, leVal (leBytes 32 n) % 2 ^ 255 = n → feVal25 (Cref.unpack (leBytes 32 n)) = n := by
    intro n hn
    refine ((Proofs.Cref.cFe_unpack (F := Fe25) (leBytes 32 n)).2 : feVal25 (Cref.unpack _) = _).trans ?_
    show ((leVal (leBytes 32 n) % 2 ^ 255 : ℕ) : Fp) = _
    rw [hn]
  refine ⟨hl, ((C63_roots _ (hl _)).2.1 ?_ ?_).1, ((C63_roots _ (hl _)).2.2.1 ?_).1, ((C63_roots _ (hl _)).2.2.2 ?_).1⟩
  · rw [hv 4 (by decide +kernel)]
    decide +kernel
  · rw [hv 4 (by decide +kernel)]
    exact ⟨2, by norm_num⟩
  · rw [hv 2 (by decide +kernel)]
    exact two_nonsquare
  · rw [hv 0 (by decide +kernel)]
    rfl

/-! ## Outside the preconditions -/

/-- **C63** (`fe25519_triple` in place): the result is four times the argument. -/
theorem C63_triple_in_place (m : CMem) (x : ℕ) (h : Limbs25 (2 * 2 ^ 25) (2 * (2 ^ 24 + 2 ^ 16)) (m.fes x)) :
    feVal25 ((kexec m (.feTriple x x)).1.fes x) = 4 * feVal25 (m.fes x) := by
  have hR : Proofs.Cref.R 2 (m.fes x) (feVal25 (m.fes x)) := ⟨h, rfl⟩
  have h2 := hR.add hR
  have h4 := h2.add h2
  have e : (kexec m (.feTriple x x)).1.fes x =
      CrefOps.add (CrefOps.add (m.fes x) (m.fes x)) (CrefOps.add (m.fes x) (m.fes x)) := by
    show (tripleMem m x x).fes x = _
    unfold tripleMem CMem.setFe
    simp only [if_true]
  rw [e, h4.2]
  show feVal25 (m.fes x) + feVal25 (m.fes x) + (feVal25 (m.fes x) + feVal25 (m.fes x)) = _
  ring

example : (krun CMem.init [.feSetOne 0, .feTriple 0 0, .go (.fePack 0), .feSetOne 0, .feTriple 1 0, .go (.fePack 1)]).2 =
    [.unit, .unit, .bytes (leBytes 32 4), .unit, .unit, .bytes (leBytes 32 3)] := by decide +kernel

/-- **C63** (`group_ge_multiscalarmult` with the receiver among the operands): the operand is replaced by the neutral element
before it is read, so one times the base point becomes the neutral element. -/
theorem C63_multi_in_place :
    (krun CMem.init [.geSetBase 0, .scSetOne 0, .geMultiScalarMult 0 [(0, 0)], .geIsNeutral 0]).2 =
      [.unit, .unit, .unit, .int 1] ∧
    (krun CMem.init [.geSetBase 0, .scSetOne 0, .geMultiScalarMult 1 [(0, 0)], .geIsNeutral 1]).2 =
      [.unit, .unit, .unit, .int 0] := by
  classical
  constructor
  · have n0 : Proofs.Cref.CPt (Cref.neutral : ExtPt Fe25) (some 0) := ⟨_, .neutral, holds_zero (F := Fp)⟩
    have h := Proofs.Cref.cPt_isNeutral (Proofs.Cref.cPt_add n0 (Proofs.Cref.cPt_mult n0 Proofs.Cref.cSc_one))
    have e : addO (some (0 : RGroup)) (smulO 1 (some 0)) = some 0 := by
      simp [addO, smulO]
    rw [e] at h
    have h' : bit (eqO (some (0 : RGroup)) (some 0)) = .int 1 := by simp [bit, eqO]
    simp only [krun, kexec, multiMem, List.foldl_cons, List.foldl_nil, multiStep, CMem.setPt, CMem.setSc, if_true]
    rw [h, h']
  · rw [C63_refinement _ (by decide +kernel)]
    have e : addO (some (0 : RGroup)) (smulO 1 (some baseR)) = some baseR := by
      simp [addO, smulO, ZMod.val_one]
    simp only [karun, kaexec, CState.setSc, CState.setPt, if_true, if_false, List.map_cons, List.map_nil,
      List.foldl_cons, List.foldl_nil, e, bit, eqO, baseR_ne_zero]

/-- **C63** (blank group elements, as `var g GroupGe` leaves them): equal to everything, and neutral. -/
theorem C63_blank : (krun CMem.init [.geSetBase 1, .geEquals 0 1, .geEquals 1 0, .geIsNeutral 0]).2 =
    [.unit, .int 1, .int 1, .int 1] := by
  classical
  rw [C63_refinement _ (by decide +kernel)]
  simp [karun, kaexec, CState.setPt, CState.init, bit, eqO]

/-- **C63** (sizes): additions do not reduce.  Seven doublings of 2^25 - 1 overflow a limb (undefined in C; with
wrapping arithmetic the result is wrong), and `fits` refuses the program. -/
theorem C63_overflow :
    let prog := KCmd.go (.feUnpack 0 (leBytes 32 (2 ^ 25 - 1))) :: List.replicate 7 (.feDouble 0 0) ++ [.go (.fePack 0)]
    fits (fun _ => 1) prog = false ∧
    (krun CMem.init prog).2.getLast? = some (.bytes (leBytes 32 (p - 128))) ∧ (2 ^ 25 - 1) * 2 ^ 7 % p ≠ p - 128 := by
  decide +kernel

end Ristretto.Props
