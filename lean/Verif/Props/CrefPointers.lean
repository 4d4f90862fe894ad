import Verif.Proofs.CrefExact
import Verif.Proofs.CrefCheckedSim
import Verif.Props.CrefCoords

/-!
# C75: programs that reach into the coordinates of points

A `*Fe25519` of a client of package `cref` points to a variable or, from an accessor, to a coordinate of a point.  Programs
may write anything to coordinates, so that a `GroupGe` need not hold a point of the curve.  `Spec/CrefExact.lean` reads
cref.c over the field: the same calls, with exact arithmetic modulo 2^255-19 in place of arithmetic on limbs.
-/

namespace Ristretto.Props
open Model Model.Cref
set_option autoImplicit false

/-- **C75** (exact).  Every program, whatever it writes to coordinates, shows its caller what the same program over the field
shows, and every variable and coordinate is congruent to the one over the field. -/
theorem C75_exact (prog : List PtrCmd) :
    (ptrRun CMem.init prog).2 = (ptrRun exactInit prog).2 ∧
    (∀ r, feVal25 ((ptrRun CMem.init prog).1.read r) = (ptrRun exactInit prog).1.read r) ∧
    (∀ k, (ptrRun CMem.init prog).1.scs k = (ptrRun exactInit prog).1.scs k) := by
  obtain ⟨h1, h2⟩ := Proofs.Cref.ptrRun_rel prog Proofs.Cref.xRel_init
  exact ⟨h2, fun r => (h1.read r).2, fun k => (h1.sc k).1.symm⟩

/-- **C75** (no overflow).  No program overflows a signed integer in the field functions: see C74. -/
theorem C75_overflow (junk : Bytes 32) (prog : List PtrCmd) :
    (∀ r, ((ptrRun (Checked.init junk) prog).1.read r).isFine = true) ∧
    (ptrRun (Checked.init junk) prog).2 = (ptrRun CMem.init prog).2 := by
  obtain ⟨h1, h2⟩ := Proofs.Cref.ptrRun_rel prog
    (Proofs.Cref.xRel_initOf (Proofs.Cref.fine_rel (junk := junk) (Proofs.Cref.xRel_init.fe 0)))
  exact ⟨fun r => Proofs.Cref.fine_of (h1.read r), h2.trans (C75_exact prog).1.symm⟩

/-- The four coordinates of variable `g` are extended coordinates of the curve point `P`. -/
def HoldsPoint (m : CMem) (g : ℕ) (P : EPoint) : Prop :=
  Proj P (feVal25 (m.read (.coord g .X))) (feVal25 (m.read (.coord g .Y))) (feVal25 (m.read (.coord g .Z)))
    (feVal25 (m.read (.coord g .T)))

/-- **C75** (points).  After every program, whenever the coordinates of the operands happen to be those of points of the
curve, however they got there, the next call computes with these points. -/
theorem C75_points (prog : List PtrCmd) (k g h s : ℕ) (P Q : EPoint)
    (hg : HoldsPoint (ptrRun CMem.init prog).1 g P) (hh : HoldsPoint (ptrRun CMem.init prog).1 h Q) :
    HoldsPoint (ptrExec (ptrRun CMem.init prog).1 (.call (.geAdd k g h))).1 k (P + Q) ∧
    HoldsPoint (ptrExec (ptrRun CMem.init prog).1 (.call (.geDouble k g))).1 k (P + P) ∧
    HoldsPoint (ptrExec (ptrRun CMem.init prog).1 (.call (.geNeg k g))).1 k (-P) ∧
    HoldsPoint (ptrExec (ptrRun CMem.init prog).1 (.call (.geScalarMult k g s))).1 k
      (leVal (scPack ((ptrRun CMem.init prog).1.scs s)) • P) ∧
    (∀ hP : P ∈ Even, (ptrExec (ptrRun CMem.init prog).1 (.call (.gePack g))).2 = .bytes (encode (cls P hP))) := by
  obtain ⟨h1, -⟩ := Proofs.Cref.ptrRun_rel prog Proofs.Cref.xRel_init
  have tight : ∀ {a : Fe25} {x : Fp}, Proofs.Fe25.R 1 a x → Tight25 a := by
    intro a x ha
    have := ha.1
    unfold Proofs.Fe25.bu at this
    unfold Tight25
    simpa using this
  have cref : ∀ {g P}, HoldsPoint (ptrRun CMem.init prog).1 g P → IsCrefPoint ((ptrRun CMem.init prog).1.pts g) P :=
    fun {g P} hp => ⟨(h1.pt g).X.1, tight (h1.pt g).Y, tight (h1.pt g).Z, tight (h1.pt g).T, hp⟩
  have put : ∀ {q : ExtPt Fe25} {P}, IsCrefPoint q P → HoldsPoint ((ptrRun CMem.init prog).1.setPt k q) k P := by
    intro q P hq
    have e : (CMem.setPt (ptrRun CMem.init prog).1 k q).pts k = q := if_pos rfl
    unfold HoldsPoint
    simp only [CMem.read, Coord.get, e]
    exact hq.proj
  obtain ⟨a1, a2, a3⟩ := C54_points _ _ P Q (cref hg) (cref hh)
  refine ⟨put a1, put a2, put a3, ?_, fun hP => congrArg COut.bytes (C54_pack _ P hP (cref hg))⟩
  obtain ⟨-, b, hb, hlt⟩ := h1.sc s
  have hs := C54_scalarMult _ P (cref hg) b (lt_trans (lt_trans hlt Proofs.Cref.l_lt) (by norm_num))
  have e : ptrExec (ptrRun CMem.init prog).1 (.call (.geScalarMult k g s)) =
    ((ptrRun CMem.init prog).1.setPt k (geScalarMult ((ptrRun CMem.init prog).1.pts g) (Proofs.Cref.ofBytes b)), .unit) := by
    show (CMem.setPt _ k (geScalarMult _ (CMem.scs _ s)), COut.unit) = _
    rw [hb]
  rw [e, hb, Proofs.Cref.scPack_ofBytes]
  exact put hs

/-- Which field elements a call may change: the one under the pointer, or the four coordinates of the receiver. -/
def changes : PtrCmd → FeRef → Prop
  | .unpackAt r _, r' => r' = r
  | .packAt _, _ => False
  | .elligatorAt g _, r' => ∃ c, r' = .coord g c
  | .call (.feUnpack f _), r' => r' = .var f
  | .call (.geUnpack g _), r' | .call (.geElligator g _), r' | .call (.geNeg g _), r' | .call (.geAdd g _ _), r'
  | .call (.geDouble g _), r' | .call (.geScalarMult g _ _), r' => ∃ c, r' = .coord g c
  | .call (.fePack _), _ | .call (.gePack _), _ | .call (.scUnpack _ _), _ | .call (.scPack _), _ => False

theorem read_setPt_ne {F : Type} (m : CMem F) (g : ℕ) (q : ExtPt F) (r : FeRef) (h : ¬ ∃ c, r = .coord g c) :
    (m.setPt g q).read r = m.read r := by
  cases r with
  | var f => rfl
  | coord g' c =>
    have : g' ≠ g := fun e => h ⟨c, by rw [e]⟩
    show c.get (if g' = g then q else m.pts g') = _
    rw [if_neg this]
    rfl

theorem read_setFe_ne {F : Type} (m : CMem F) (f : ℕ) (v : F) (r : FeRef) (h : r ≠ .var f) :
    (m.setFe f v).read r = m.read r := by
  cases r with
  | var f' =>
    have : f' ≠ f := fun e => h (by rw [e])
    show (if f' = f then v else m.fes f') = _
    rw [if_neg this]
    rfl
  | coord g' c => rfl

theorem read_write {F : Type} (m : CMem F) (v : F) (r r' : FeRef) :
    (m.write v r).read r' = if r' = r then v else m.read r' := by
  split
  · next e =>
    subst e
    cases r' with
    | var f => exact if_pos rfl
    | coord g c =>
      show c.get (if g = g then c.set (m.pts g) v else m.pts g) = v
      rw [if_pos rfl]
      cases c <;> rfl
  · next e =>
    cases r with
    | var f => exact read_setFe_ne m f v r' e
    | coord g c =>
      cases r' with
      | var f => rfl
      | coord g' c' =>
        show c'.get (if g' = g then c.set (m.pts g) v else m.pts g') = c'.get (m.pts g')
        split
        · next h =>
          subst h
          have : c' ≠ c := fun h => e (by rw [h])
          cases c <;> cases c' <;> first | rfl | exact absurd rfl this
        · rfl

/-- **C75** (memory).  A call changes nothing but its receiver: no other variable, and no other coordinate. -/
theorem C75_frame (m : CMem) (c : PtrCmd) (r : FeRef) (h : ¬ changes c r) : (ptrExec m c).1.read r = m.read r := by
  cases c with
  | unpackAt r' buf =>
    show (m.write _ r').read r = _
    rw [read_write]
    exact if_neg h
  | packAt r' => rfl
  | elligatorAt g r' => exact read_setPt_ne _ _ _ _ h
  | call c =>
    cases c with
    | feUnpack f buf => exact read_setFe_ne _ _ _ _ h
    | fePack _ => rfl
    | gePack _ => rfl
    | scPack _ => rfl
    | scUnpack _ _ => cases r <;> rfl
    | geUnpack g buf => exact read_setPt_ne _ _ _ _ h
    | geElligator g f => exact read_setPt_ne _ _ _ _ h
    | geNeg g x => exact read_setPt_ne _ _ _ _ h
    | geAdd g x y => exact read_setPt_ne _ _ _ _ h
    | geDouble g x => exact read_setPt_ne _ _ _ _ h
    | geScalarMult g x s => exact read_setPt_ne _ _ _ _ h

/-- **C75** (pointers).  After every program, `Unpack` through a pointer stores the number in the buffer under this pointer,
`Pack` writes the canonical encoding of what is stored there and `Elligator` maps what is stored there, also if it points
into the receiver. -/
theorem C75_pointers (prog : List PtrCmd) (r : FeRef) (g : ℕ) (buf : Bytes 32) :
    feVal25 ((ptrExec (ptrRun CMem.init prog).1 (.unpackAt r buf)).1.read r) = feOfBytes buf ∧
    (ptrExec (ptrRun CMem.init prog).1 (.unpackAt r buf)).2 = .unit ∧
    (ptrExec (ptrRun CMem.init prog).1 (.packAt r)).2 = .bytes (feBytes (feVal25 ((ptrRun CMem.init prog).1.read r))) ∧
    (∃ (P : EPoint) (hP : P ∈ Even), cls P hP = ellMap (feVal25 ((ptrRun CMem.init prog).1.read r)) ∧
      HoldsPoint (ptrExec (ptrRun CMem.init prog).1 (.elligatorAt g r)).1 g P) ∧
    (ptrExec (ptrRun CMem.init prog).1 (.elligatorAt g r)).2 = .unit := by
  obtain ⟨h1, -⟩ := Proofs.Cref.ptrRun_rel prog Proofs.Cref.xRel_init
  have hr := h1.read r
  refine ⟨?_, rfl, ?_, ?_, rfl⟩
  · show feVal25 ((CMem.write _ _ r).read r) = _
    rw [read_write, if_pos rfl]
    exact (Proofs.Cref.rUnpack Fe25 Fp buf).2
  · show COut.bytes _ = COut.bytes _
    rw [hr.2]
    exact congrArg COut.bytes (Proofs.Cref.R.pack (F := Fe25) (G := Fp) hr)
  · obtain ⟨q, h, P, hP, h2, h3⟩ : Proofs.Cref.CPt (geElligator ((ptrRun CMem.init prog).1.read r))
        (some (ellMap ((ptrRun exactInit prog).1.read r))) :=
      ⟨_, Proofs.Cref.geElligator_rel hr, Proofs.ell_holds (F := Fp) trivial⟩
    refine ⟨P, hP, h3.trans (by rw [hr.2]), ?_⟩
    have e : (CMem.setPt (ptrRun CMem.init prog).1 g (geElligator ((ptrRun CMem.init prog).1.read r))).pts g =
      geElligator ((ptrRun CMem.init prog).1.read r) := if_pos rfl
    have hq := (isCref_iff.2 ⟨q, h, h2⟩).proj
    rw [← e] at hq
    exact hq

/-- **C75** (programs).  A program is the sequence of its calls: the last call finds what the others left. -/
theorem C75_sequence (m : CMem) (prog : List PtrCmd) (c : PtrCmd) :
    ptrRun m [] = (m, []) ∧ ptrRun m (prog ++ [c]) =
      ((ptrExec (ptrRun m prog).1 c).1, (ptrRun m prog).2 ++ [(ptrExec (ptrRun m prog).1 c).2]) := by
  refine ⟨rfl, ?_⟩
  induction prog generalizing m with
  | nil => rfl
  | cons c' cs ih =>
    show ((ptrRun (ptrExec m c').1 (cs ++ [c])).1, (ptrExec m c').2 :: (ptrRun (ptrExec m c').1 (cs ++ [c])).2) = _
    rw [ih]
    rfl

/-- Coordinates written one by one, of the neutral element with `Z = 2`. -/
def writeNeutral : List PtrCmd :=
  [.unpackAt (.coord 0 .X) (leBytes 32 0), .unpackAt (.coord 0 .Y) (leBytes 32 2), .unpackAt (.coord 0 .Z) (leBytes 32 2),
    .unpackAt (.coord 0 .T) (leBytes 32 0)]

/-- The hypotheses of `C75_points` are met. -/
example : HoldsPoint (ptrRun CMem.init writeNeutral).1 0 0 := by
  unfold HoldsPoint
  rw [(C75_exact _).2.1, (C75_exact _).2.1, (C75_exact _).2.1, (C75_exact _).2.1]
  have hz : feOfBytes (leBytes 32 0) = 0 := by
    unfold feOfBytes
    rw [show leVal (leBytes 32 0) % 2 ^ 255 = 0 by decide +kernel]
    exact Nat.cast_zero
  have h2 : feOfBytes (leBytes 32 2) = 2 := by
    unfold feOfBytes
    rw [show leVal (leBytes 32 2) % 2 ^ 255 = 2 by decide +kernel]
    rfl
  show Proj 0 (feOfBytes (leBytes 32 0)) (feOfBytes (leBytes 32 2)) (feOfBytes (leBytes 32 2)) (feOfBytes (leBytes 32 0))
  rw [hz, h2]
  exact ⟨by decide +kernel, by simp, by simp, by simp⟩

/-- A `GroupGe` need not hold a point: after a fifth write these coordinates are those of no point of the curve, and
`C75_exact` still says what is read from their sums. -/
theorem C75_off_curve (P : EPoint) :
    ¬ HoldsPoint (ptrRun CMem.init (writeNeutral ++ [.unpackAt (.coord 0 .T) (leBytes 32 1)])).1 0 P := by
  intro h
  unfold HoldsPoint at h
  rw [(C75_exact _).2.1, (C75_exact _).2.1, (C75_exact _).2.1, (C75_exact _).2.1] at h
  have hz : feOfBytes (leBytes 32 0) = 0 := by
    unfold feOfBytes
    rw [show leVal (leBytes 32 0) % 2 ^ 255 = 0 by decide +kernel]
    exact Nat.cast_zero
  have h1 : feOfBytes (leBytes 32 1) = 1 := by
    unfold feOfBytes
    rw [show leVal (leBytes 32 1) % 2 ^ 255 = 1 by decide +kernel]
    exact Nat.cast_one
  have hx : feOfBytes (leBytes 32 0) = P.x * _ := h.x
  have ht : feOfBytes (leBytes 32 1) = P.x * P.y * _ := h.t
  rw [hz] at hx
  have hx := (mul_eq_zero.1 hx.symm).resolve_right h.z
  rw [h1, hx, zero_mul, zero_mul] at ht
  exact one_ne_zero ht

end Ristretto.Props
