import Verif.Proofs.Sim
import Verif.Proofs.Word

/-!
# Comparing two field backends: curve.go, table.go, vartime.go and elligator.go
-/

namespace Ristretto.Proofs.Sim
open Model FieldOps
set_option autoImplicit false

variable {F G : Type} [FieldOps F] [FieldOps G] [L : SimField F G]

/-- Related points, with limbs as a decoded point has them. -/
structure Loose (q : ExtPt F) (r : ExtPt G) : Prop where
  X : R 2 q.X r.X
  Y : R 2 q.Y r.Y
  Z : R 1 q.Z r.Z
  T : R 2 q.T r.T

/-- Related points, of which the first may be the second operand of an addition. -/
structure Good (q : ExtPt F) (r : ExtPt G) : Prop extends Loose q r where
  s1 : S (FieldOps.add q.X q.Y) (FieldOps.add r.X r.Y)
  s2 : S (FieldOps.add q.Y q.X) (FieldOps.add r.Y r.X)
  s3 : S (FieldOps.sub q.Y q.X) (FieldOps.sub r.Y r.X)

/-- Related points with small limbs. -/
structure Tight (q : ExtPt F) (r : ExtPt G) : Prop where
  X : R 1 q.X r.X
  Y : R 1 q.Y r.Y
  Z : R 1 q.Z r.Z
  T : R 1 q.T r.T

structure SC (q : ComplPt F) (r : ComplPt G) : Prop where
  X : R 3 q.X r.X
  Y : R 3 q.Y r.Y
  Z : R 3 q.Z r.Z
  T : R 3 q.T r.T

structure SP (q : ProjPt F) (r : ProjPt G) : Prop where
  X : R 1 q.X r.X
  Y : R 1 q.Y r.Y
  Z : R 1 q.Z r.Z

structure SN (q : NielsPt F) (r : NielsPt G) : Prop where
  P : R 2 q.YPlusX r.YPlusX
  M : R 2 q.YMinusX r.YMinusX
  D : R 2 q.XY2D r.XY2D

section
variable {q q₂ : ExtPt F} {r r₂ : ExtPt G}

theorem Tight.loose (h : Tight q r) : Loose q r := ⟨h.X.mono, h.Y.mono, h.Z, h.T.mono⟩
theorem Tight.good (h : Tight q r) : Good q r :=
  ⟨h.loose, (h.X.add h.Y).toS, (h.Y.add h.X).toS, (h.Y.sub h.X).toS⟩

theorem tight_zero : Tight (ExtPt.zero : ExtPt F) (ExtPt.zero : ExtPt G) := ⟨rZero, rOne, rOne, rZero⟩
theorem tight_blank : Tight (⟨feZero, feZero, feZero, feZero⟩ : ExtPt F) (⟨feZero, feZero, feZero, feZero⟩ : ExtPt G) :=
  ⟨rZero, rZero, rZero, rZero⟩
theorem good_base : Good (ExtPt.base : ExtPt F) (ExtPt.base : ExtPt G) :=
  ⟨⟨L.rBaseX, L.rBaseY, rOne, L.rBaseT⟩, L.baseS.1, L.baseS.2.1, L.baseS.2.2⟩

theorem Loose.neg (h : Loose q r) : Loose q.neg r.neg := ⟨h.X.neg, h.Y, h.Z, h.T.neg⟩
theorem Good.neg (h : Good q r) : Good q.neg r.neg := by
  obtain ⟨h1, h2, h3⟩ := L.negS h.X h.Y h.s1 h.s2 h.s3
  exact ⟨h.toLoose.neg, h1, h2, h3⟩

theorem condSet_zero (q q₂ : ExtPt F) (r r₂ : ExtPt G) : q.condSet q₂ 0 = q ∧ r.condSet r₂ 0 = r := by
  unfold ExtPt.condSet
  rw [(L.cond0_eq q.X q₂.X r.X r₂.X).1, (L.cond0_eq q.Y q₂.Y r.Y r₂.Y).1, (L.cond0_eq q.Z q₂.Z r.Z r₂.Z).1,
    (L.cond0_eq q.T q₂.T r.T r₂.T).1, (L.cond0_eq q.X q₂.X r.X r₂.X).2, (L.cond0_eq q.Y q₂.Y r.Y r₂.Y).2,
    (L.cond0_eq q.Z q₂.Z r.Z r₂.Z).2, (L.cond0_eq q.T q₂.T r.T r₂.T).2]
  exact ⟨rfl, rfl⟩

theorem condSet_one (q q₂ : ExtPt F) (r r₂ : ExtPt G) : q.condSet q₂ 1 = q₂ ∧ r.condSet r₂ 1 = r₂ := by
  unfold ExtPt.condSet
  rw [(L.cond1_eq q.X q₂.X r.X r₂.X).1, (L.cond1_eq q.Y q₂.Y r.Y r₂.Y).1, (L.cond1_eq q.Z q₂.Z r.Z r₂.Z).1,
    (L.cond1_eq q.T q₂.T r.T r₂.T).1, (L.cond1_eq q.X q₂.X r.X r₂.X).2, (L.cond1_eq q.Y q₂.Y r.Y r₂.Y).2,
    (L.cond1_eq q.Z q₂.Z r.Z r₂.Z).2, (L.cond1_eq q.T q₂.T r.T r₂.T).2]
  exact ⟨rfl, rfl⟩

theorem Loose.condSet (h : Loose q r) (h' : Loose q₂ r₂) {c c' : Int32} (hc : F2 c c') :
    Loose (q.condSet q₂ c) (r.condSet r₂ c') :=
  ⟨h.X.cond h'.X hc, h.Y.cond h'.Y hc, h.Z.cond h'.Z hc, h.T.cond h'.T hc⟩

theorem Good.condSet (h : Good q r) (h' : Good q₂ r₂) {c c' : Int32} (hc : F2 c c') :
    Good (q.condSet q₂ c) (r.condSet r₂ c') := by
  obtain ⟨rfl, hc⟩ := hc
  rcases hc with rfl | rfl
  · rw [(condSet_zero q q₂ r r₂).1, (condSet_zero q q₂ r r₂).2]; exact h
  · rw [(condSet_one q q₂ r r₂).1, (condSet_one q q₂ r r₂).2]; exact h'

theorem Loose.addExtended (h : Loose q r) (h' : Good q₂ r₂) :
    SC (ComplPt.addExtended q q₂) (ComplPt.addExtended r r₂) := by
  have a := (h.Y.sub h.X).mulS h'.s3
  have b := (h.X.add h.Y).mulS h'.s1
  have c := (h.T.mul h'.T).mul r2D
  have d := h.Z.mul h'.Z
  have d := d.add d
  exact ⟨(b.sub a).mono, (b.add a).mono, d.add c, d.sub c⟩

theorem Loose.subExtended (h : Loose q r) (h' : Good q₂ r₂) :
    SC (ComplPt.subExtended q q₂) (ComplPt.subExtended r r₂) := by
  have a := (h.Y.sub h.X).mulS h'.s2
  have b := (h.X.add h.Y).mulS h'.s3
  have c := (h.T.mul h'.T).mul r2D
  have d := h.Z.mul h'.Z
  have d := d.add d
  exact ⟨(b.sub a).mono, (b.add a).mono, d.sub c, d.add c⟩

theorem Loose.doubleExtended (h : Loose q r) : SC (ComplPt.doubleExtended q) (ComplPt.doubleExtended r) := by
  have a := h.X.sq
  have b := h.Y.sq
  have c := h.Z.dsq
  have d := a.neg
  have X := (((h.X.add h.Y).sq).sub a).sub b
  have Z := d.add b
  exact ⟨X, (d.sub b).mono, Z.mono, Z.sub c⟩

theorem SP.doubleProjective {q : ProjPt F} {r : ProjPt G} (h : SP q r) :
    SC (ComplPt.doubleProjective q) (ComplPt.doubleProjective r) := by
  have X := h.X.sq
  have Z := h.Y.sq
  have T := h.Z.dsq
  have t0 := (h.X.add h.Y).sq
  have Y := Z.add X
  have Z := Z.sub X
  exact ⟨t0.sub Y, Y.mono, Z.mono, T.sub Z⟩

theorem SC.toExtended {q : ComplPt F} {r : ComplPt G} (h : SC q r) : Tight q.toExtended r.toExtended :=
  ⟨h.X.mul h.T, h.Y.mul h.Z, h.Z.mul h.T, h.X.mul h.Y⟩

theorem SC.toProjective {q : ComplPt F} {r : ComplPt G} (h : SC q r) : SP q.toProjective r.toProjective :=
  ⟨h.X.mul h.T, h.Y.mul h.Z, h.Z.mul h.T⟩

theorem SC.dbl {q : ComplPt F} {r : ComplPt G} (h : SC q r) :
    SC (ComplPt.doubleProjective q.toProjective) (ComplPt.doubleProjective r.toProjective) :=
  h.toProjective.doubleProjective

theorem Loose.add (h : Loose q r) (h' : Good q₂ r₂) : Tight (ExtPt.add q q₂) (ExtPt.add r r₂) :=
  (h.addExtended h').toExtended
theorem Loose.sub (h : Loose q r) (h' : Good q₂ r₂) : Tight (ExtPt.sub q q₂) (ExtPt.sub r r₂) :=
  (h.subExtended h').toExtended
theorem Loose.double (h : Loose q r) : Tight (ExtPt.double q) (ExtPt.double r) := h.doubleExtended.toExtended

theorem Tight.addNiels {n : NielsPt F} {n' : NielsPt G} (h : Tight q r) (h' : SN n n') :
    SC (ComplPt.addExtendedNiels q n) (ComplPt.addExtendedNiels r n') := by
  have X := h.Y.add h.X
  have Y := h.Y.sub h.X
  have Z := X.mul h'.P
  have Y := Y.mul h'.M
  have T := h'.D.mul h.T
  have t0 := h.Z.add h.Z
  exact ⟨(Z.sub Y).mono, (Z.add Y).mono, t0.add T, t0.sub T⟩

theorem Tight.subNiels {n : NielsPt F} {n' : NielsPt G} (h : Tight q r) (h' : SN n n') :
    SC (ComplPt.subExtendedNiels q n) (ComplPt.subExtendedNiels r n') := by
  have X := h.Y.add h.X
  have Y := h.Y.sub h.X
  have Z := X.mul h'.M
  have Y := Y.mul h'.P
  have T := h'.D.mul h.T
  have t0 := h.Z.add h.Z
  exact ⟨(Z.sub Y).mono, (Z.add Y).mono, t0.sub T, t0.add T⟩

theorem Loose.equalsI (h : Loose q r) (h' : Loose q₂ r₂) :
    ExtPt.ristrettoEqualsI q q₂ = ExtPt.ristrettoEqualsI r r₂ := by
  have a := h.X.mul h'.Y
  have b := h'.X.mul h.Y
  have c := h.X.mul h'.X
  have d := h.Y.mul h'.Y
  exact (((a.equals b).not).and (c.equals d).not).not.1

theorem Loose.ristretto (h : Loose q r) : q.ristretto = r.ristretto := by
  have d := h.Z.add h.Y
  have u1 := h.Z.sub h.Y
  have u1 := u1.mul d
  have u2 := h.X.mul h.Y
  have isr := (u2.sq.mul u1).invSqrt
  have i1 := isr.mul u1
  have i2 := isr.mul u2
  have zInv := (i1.mul i2).mul h.T
  have d := zInv.mul h.T
  have nx := h.Y.mul rI
  have ny := h.X.mul rI
  have denInv := rInvSqrtMinusDMinusOne.mul i1
  have b := d.isNeg.not
  have nx := (nx.mono (n := 2)).cond h.X b
  have ny := (ny.mono (n := 2)).cond h.Y b
  have denInv := denInv.cond i2 b
  have b := (nx.mul zInv).isNeg
  have ny := ny.cond ny.neg b
  have s := (h.Z.sub ny).mul denInv
  have b := s.isNeg
  have s := s.touch
  have s := s.cond s.neg b
  exact s.bytes

theorem flag_ctc {n : ℕ} (a b : Bytes n) : Flag (ExtPt.constantTimeCompare a b) := by
  unfold ExtPt.constantTimeCompare
  split
  · exact .inr rfl
  · exact .inl rfl

theorem flag_u8 (b : UInt8) : Flag (b &&& 1).toUInt32.toInt32 := by
  have : ∀ n < 256, (UInt8.ofNat n &&& 1).toUInt32.toInt32 = 0 ∨ (UInt8.ofNat n &&& 1).toUInt32.toInt32 = 1 := by
    decide +kernel
  have h := this b.toNat b.toNat_lt
  rwa [UInt8.ofNat_toNat] at h

variable (F G) in
theorem setRistrettoI (buf : Bytes 32) :
    Loose (ExtPt.setRistrettoI buf : ExtPt F × Int32).1 (ExtPt.setRistrettoI buf : ExtPt G × Int32).1 ∧
    F2 (ExtPt.setRistrettoI buf : ExtPt F × Int32).2 (ExtPt.setRistrettoI buf : ExtPt G × Int32).2 := by
  have s := setBytes F G buf
  have buf2 := s.bytes
  have ret : F2 ((1 - ExtPt.constantTimeCompare buf (FieldOps.bytes (FieldOps.setBytes buf : F)) : Int32) |||
      ((FieldOps.bytes (FieldOps.setBytes buf : F))[0] &&& 1).toUInt32.toInt32)
      ((1 - ExtPt.constantTimeCompare buf (FieldOps.bytes (FieldOps.setBytes buf : G)) : Int32) |||
      ((FieldOps.bytes (FieldOps.setBytes buf : G))[0] &&& 1).toUInt32.toInt32) := by
    rw [buf2]
    exact .refl ((flag_ctc _ _).not.or (flag_u8 _))
  have s := s.touch
  have s2 := s.sq
  have yDen := rOne.add s2
  have yNum := rOne.sub s2
  have yDen2 := yDen.sq
  have xDen2 := (yNum.sq.mul rD)
  have xDen2 := (xDen2.add yDen2).neg
  have t := xDen2.mul yDen2
  have isr := t.invSqrt
  have chk := isr.sq.mul t
  have ret := ret.or chk.isOne.not
  have xDenInv := isr.mul yDen
  have yDenInv := (xDenInv.mul isr).mul xDen2
  have X := s.mul xDenInv
  have X := X.add X
  have b := X.isNeg
  have X := X.touch
  have X := X.cond X.neg b
  have Y := yNum.mul yDenInv
  have T := X.mul Y
  have ret := ret.or T.isNeg
  have T := T.touch
  have ret := ret.or Y.isNonZero.not
  have Y := Y.touch
  exact ⟨⟨X.cond rZero.mono ret, Y.cond rZero.mono ret, rOne.cond rZero ret, T.cond rZero.mono ret⟩, ret⟩

variable (F G) in
theorem setRistretto (buf : Bytes 32) :
    Loose (ExtPt.setRistretto buf : ExtPt F × Bool).1 (ExtPt.setRistretto buf : ExtPt G × Bool).1 ∧
    (ExtPt.setRistretto buf : ExtPt F × Bool).2 = (ExtPt.setRistretto buf : ExtPt G × Bool).2 := by
  obtain ⟨h1, h2, -⟩ := setRistrettoI F G buf
  refine ⟨h1, ?_⟩
  show (_ == _) = (_ == _)
  rw [h2]

end

/-! ScalarMult -/

theorem flag_shr31 (x : UInt32) : Flag (x >>> 31).toInt32 := by
  have h : (x >>> 31).toNat < 2 := by
    rw [UInt32.toNat_shiftRight]
    have := x.toNat_lt
    show x.toNat >>> (31 % 32) < 2
    rw [Nat.shiftRight_eq_div_pow, show 31 % 32 = 31 from rfl]; omega
  have h2 : x >>> 31 = 0 ∨ x >>> 31 = 1 := by
    rcases (by omega : (x >>> 31).toNat = 0 ∨ (x >>> 31).toNat = 1) with h | h
    · left; exact UInt32.toNat_inj.1 h
    · right; exact UInt32.toNat_inj.1 h
  rcases h2 with h | h <;> rw [h]
  · exact .inl rfl
  · exact .inr rfl

theorem flag_equal15 (b c : Int32) : Flag (equal15 b c) := flag_shr31 _
theorem flag_equal30 (b c : Int32) : Flag (equal30 b c) := flag_shr31 _

theorem flag_and1 (x : Int32) : Flag (x &&& 1) := by
  have h : x.toUInt32 &&& 1 = 0 ∨ x.toUInt32 &&& 1 = 1 := by
    have h1 : (x.toUInt32 &&& 1).toNat = x.toUInt32.toNat % 2 := by
      rw [UInt32.toNat_and]; exact Nat.and_one_is_mod _
    rcases Nat.mod_two_eq_zero_or_one x.toUInt32.toNat with h | h
    · left; exact UInt32.toNat_inj.1 (by rw [h1, h]; rfl)
    · right; exact UInt32.toNat_inj.1 (by rw [h1, h]; rfl)
  have e : (x &&& 1).toUInt32 = x.toUInt32 &&& 1 := rfl
  rcases h with h | h
  · left; exact (show ∀ {u v : Int32}, u.toUInt32 = v.toUInt32 → u = v from fun {u v} h => by
      rw [← Int32.toInt32_toUInt32 u, h, Int32.toInt32_toUInt32]) (by rw [e, h]; rfl)
  · right; exact (show ∀ {u v : Int32}, u.toUInt32 = v.toUInt32 → u = v from fun {u v} h => by
      rw [← Int32.toInt32_toUInt32 u, h, Int32.toInt32_toUInt32]) (by rw [e, h]; rfl)

theorem flag_negative (b : Int32) : Flag (negative b) := flag_and1 _

/-- Related lists of points. -/
abbrev GoodL : List (ExtPt F) → List (ExtPt G) → Prop := List.Forall₂ Good

theorem goodL_lut {q : ExtPt F} {r : ExtPt G} (h : Good q r) : GoodL (scalarMultLut q) (scalarMultLut r) := by
  have l2 := h.toLoose.double
  have l3 := l2.loose.add h
  have l4 := l2.loose.double
  have l5 := l4.loose.add h
  have l6 := l3.loose.double
  have l7 := l6.loose.add h
  have l8 := l4.loose.double
  have l9 := l8.loose.add h
  have l10 := l5.loose.double
  have l11 := l10.loose.add h
  have l12 := l6.loose.double
  have l13 := l12.loose.add h
  have l14 := l7.loose.double
  have l15 := l14.loose.add h
  have l16 := l8.loose.double
  exact .cons tight_zero.good (.cons h (.cons l2.good (.cons l3.good (.cons l4.good (.cons l5.good (.cons l6.good
    (.cons l7.good (.cons l8.good (.cons l9.good (.cons l10.good (.cons l11.good (.cons l12.good (.cons l13.good
    (.cons l14.good (.cons l15.good (.cons l16.good .nil))))))))))))))))

theorem good_selectLoop (b : Int32) : ∀ {l : List (ExtPt F)} {l' : List (ExtPt G)}, GoodL l l' →
    ∀ (j : Int32) {t : ExtPt F} {t' : ExtPt G}, Good t t' →
      Good (scalarMultSelectLoop b j l t) (scalarMultSelectLoop b j l' t') := by
  intro l l' h
  induction h with
  | nil => intro j t t' ht; exact ht
  | cons h1 _ ih =>
    intro j t t' ht
    exact ih (j + 1) (ht.condSet h1 (.refl ((flag_equal15 _ _).or (flag_equal15 _ _))))

theorem Good.negIf {t : ExtPt F} {t' : ExtPt G} (h : Good t t') {c : Int32} (hc : Flag c) :
    Good (⟨FieldOps.condSet t.X (FieldOps.neg t.X) c, t.Y, t.Z, FieldOps.condSet t.T (FieldOps.neg t.T) c⟩ : ExtPt F)
      (⟨FieldOps.condSet t'.X (FieldOps.neg t'.X) c, t'.Y, t'.Z, FieldOps.condSet t'.T (FieldOps.neg t'.T) c⟩ : ExtPt G) := by
  rcases hc with rfl | rfl
  · rw [(L.cond0_eq t.X (FieldOps.neg t.X) t'.X (FieldOps.neg t'.X)).1, (L.cond0_eq t.X (FieldOps.neg t.X) t'.X (FieldOps.neg t'.X)).2,
      (L.cond0_eq t.T (FieldOps.neg t.T) t'.T (FieldOps.neg t'.T)).1, (L.cond0_eq t.T (FieldOps.neg t.T) t'.T (FieldOps.neg t'.T)).2]
    exact h
  · rw [(L.cond1_eq t.X (FieldOps.neg t.X) t'.X (FieldOps.neg t'.X)).1, (L.cond1_eq t.X (FieldOps.neg t.X) t'.X (FieldOps.neg t'.X)).2,
      (L.cond1_eq t.T (FieldOps.neg t.T) t'.T (FieldOps.neg t'.T)).1, (L.cond1_eq t.T (FieldOps.neg t.T) t'.T (FieldOps.neg t'.T)).2]
    exact h.neg

theorem good_select {l : List (ExtPt F)} {l' : List (ExtPt G)} (h : GoodL l l') (b : Int32) :
    Good (scalarMultSelect l b) (scalarMultSelect l' b) := by
  have h1 : Good (l.headD ExtPt.zero) (l'.headD ExtPt.zero) := by
    cases h with
    | nil => exact tight_zero.good
    | cons h _ => exact h
  have h2 : GoodL l.tail l'.tail := by
    cases h with
    | nil => exact .nil
    | cons _ h => exact h
  exact (good_selectLoop b h2 1 h1).negIf (flag_negative b)

theorem Tight.step {l : List (ExtPt F)} {l' : List (ExtPt G)} (hl : GoodL l l') {q : ExtPt F} {r : ExtPt G}
    (h : Tight q r) (w : Int8) : Tight (scalarMultStep l q w) (scalarMultStep l' r w) :=
  h.loose.doubleExtended.dbl.dbl.dbl.dbl.toExtended.loose.add (good_select hl _)

theorem Good.scalarMult {q : ExtPt F} {r : ExtPt G} (h : Good q r) (s : Bytes 32) :
    Tight (scalarMult q s) (scalarMult r s) := by
  have hl := goodL_lut h
  have : ∀ (ws : List Int8) {t : ExtPt F} {t' : ExtPt G}, Tight t t' →
      Tight (ws.foldl (scalarMultStep (scalarMultLut q)) t) (ws.foldl (scalarMultStep (scalarMultLut r)) t') := by
    intro ws
    induction ws with
    | nil => intro t t' ht; exact ht
    | cons w ws ih => intro t t' ht; exact ih (ht.step hl w)
  unfold Model.scalarMult
  exact this (computeScalarWindow5 s).reverse tight_zero

/-! VarTimeScalarMult -/

/-- Both fail or both succeed with related results. -/
def OptRel {A B : Type} (P : A → B → Prop) : Option A → Option B → Prop
  | some a, some b => P a b
  | none, none => True
  | _, _ => False

theorem OptRel.imp {A B : Type} {P Q : A → B → Prop} (h : ∀ a b, P a b → Q a b) :
    ∀ {a : Option A} {b : Option B}, OptRel P a b → OptRel Q a b
  | some _, some _, h1 => h _ _ h1
  | none, none, _ => trivial
  | none, some _, h1 => h1.elim
  | some _, none, h1 => h1.elim

theorem OptRel.map {A B C D : Type} {P : A → B → Prop} {Q : C → D → Prop} {f : A → C} {g : B → D}
    (h : ∀ a b, P a b → Q (f a) (g b)) : ∀ {a : Option A} {b : Option B}, OptRel P a b → OptRel Q (a.map f) (b.map g)
  | some _, some _, h1 => h _ _ h1
  | none, none, _ => trivial
  | none, some _, h1 => h1.elim
  | some _, none, h1 => h1.elim

theorem OptRel.bind {A B C D : Type} {P : A → B → Prop} {Q : C → D → Prop} {f : A → Option C} {g : B → Option D}
    (h : ∀ a b, P a b → OptRel Q (f a) (g b)) :
    ∀ {a : Option A} {b : Option B}, OptRel P a b → OptRel Q (a.bind f) (b.bind g)
  | some _, some _, h1 => h _ _ h1
  | none, none, _ => trivial
  | none, some _, h1 => h1.elim
  | some _, none, h1 => h1.elim

theorem forall2_get {A B : Type} {P : A → B → Prop} : ∀ {l : List A} {l' : List B}, List.Forall₂ P l l' → ∀ i : ℕ,
    OptRel P l[i]? l'[i]? := by
  intro l l' h
  induction h with
  | nil => intro i; exact trivial
  | cons h1 _ ih =>
    intro i
    cases i with
    | zero => exact h1
    | succ i => simpa using ih i

theorem goodL_varLut {q : ExtPt F} {r : ExtPt G} (h : Good q r) : GoodL (varTimeLut q) (varTimeLut r) := by
  have hd := h.toLoose.double.good
  have : ∀ (n : ℕ) {c : ExtPt F} {c' : ExtPt G}, Good c c' →
      GoodL (varTimeLutLoop (ExtPt.double q) n c) (varTimeLutLoop (ExtPt.double r) n c') := by
    intro n
    induction n with
    | zero => intro c c' _; exact .nil
    | succ n ih => intro c c' hc; exact .cons hc (ih (hc.toLoose.add hd).good)
  exact this 8 h

theorem lutGet_rel {l : List (ExtPt F)} {l' : List (ExtPt G)} (h : GoodL l l') (k : Int8) :
    OptRel Good (lutGet l k) (lutGet l' k) := by
  unfold lutGet
  split
  · exact trivial
  · exact forall2_get h _

theorem varTimeDigit_rel {l : List (ExtPt F)} {l' : List (ExtPt G)} (hl : GoodL l l') {q : ExtPt F} {r : ExtPt G}
    (h : Tight q r) (d : Int8) : OptRel SC (varTimeDigit d l q) (varTimeDigit d l' r) := by
  unfold varTimeDigit
  split
  · exact (lutGet_rel hl _).map fun _ _ hg => h.loose.addExtended hg
  · exact (lutGet_rel hl _).map fun _ _ hg => h.loose.subExtended hg

theorem nafSkip_rel (naf : ℕ → Int8) : ∀ (i : ℕ) {c : ComplPt F} {c' : ComplPt G}, SC c c' →
    (nafSkip naf i c).1 = (nafSkip naf i c').1 ∧ SC (nafSkip naf i c).2 (nafSkip naf i c').2
  | 0, _, _, h => ⟨rfl, h⟩
  | i + 1, c, c', h => by
    unfold nafSkip
    split
    · exact ⟨rfl, h⟩
    · exact nafSkip_rel naf i h.dbl

theorem varTimeLoop_rel (naf : ℕ → Int8) {l : List (ExtPt F)} {l' : List (ExtPt G)} (hl : GoodL l l') :
    ∀ (fuel i : ℕ) {q : ExtPt F} {r : ExtPt G}, Tight q r →
      OptRel Tight (varTimeLoop naf l fuel i q) (varTimeLoop naf l' fuel i r)
  | 0, _, _, _, _ => trivial
  | fuel + 1, i, q, r, h => by
    unfold varTimeLoop
    refine (varTimeDigit_rel hl h (naf i)).bind ?_
    intro c c' hc
    cases i with
    | zero => exact hc.toExtended
    | succ i =>
      obtain ⟨h1, h2⟩ := nafSkip_rel naf i hc.dbl
      simp only
      rw [h1]
      split
      · exact h2.toExtended
      · exact varTimeLoop_rel naf hl fuel _ h2.toExtended

theorem Good.varTime {q : ExtPt F} {r : ExtPt G} (h : Good q r) (s : Bytes 32) :
    OptRel Tight (varTimeScalarMult q s) (varTimeScalarMult r s) := by
  unfold varTimeScalarMult
  simp only
  cases nafTop (computeScalar5NAF s) 256 with
  | none => exact tight_zero
  | some i => exact varTimeLoop_rel _ (goodL_varLut h) _ _ tight_zero

/-! Tables -/

/-- Related tables. -/
abbrev TabRel : Table F → Table G → Prop := List.Forall₂ (List.Forall₂ SN)

section
variable {n n₂ : NielsPt F} {r r₂ : NielsPt G}

theorem SN.condSet (h : SN n r) (h' : SN n₂ r₂) {c c' : Int32} (hc : F2 c c') :
    SN (n.condSet n₂ c) (r.condSet r₂ c') := ⟨h.P.cond h'.P hc, h.M.cond h'.M hc, h.D.cond h'.D hc⟩
theorem SN.neg (h : SN n r) : SN n.neg r.neg := ⟨h.M, h.P, h.D.neg⟩
theorem sn_zero : SN (NielsPt.zero : NielsPt F) (NielsPt.zero : NielsPt G) := ⟨rOne.mono, rOne.mono, rZero.mono⟩

theorem Tight.niels {q : ExtPt F} {r : ExtPt G} (h : Tight q r) : SN (NielsPt.ofExtended q) (NielsPt.ofExtended r) := by
  have zInv := h.Z.inverse
  have x := h.X.mul zInv
  have y := h.Y.mul zInv
  have xy := x.mul y
  have xy := (xy.feAdd xy).mul rD
  exact ⟨(y.feAdd x).mono, (y.feSub x).mono, xy.mono⟩
end

theorem tableRow_rel {q : ExtPt F} {r : ExtPt G} (h : Good q r) : ∀ (k : ℕ) {c : ExtPt F} {c' : ExtPt G}, Tight c c' →
    List.Forall₂ SN (tableRow q k c).1 (tableRow r k c').1 ∧ Tight (tableRow q k c).2 (tableRow r k c').2
  | 0, _, _, hc => ⟨.nil, hc⟩
  | k + 1, _, _, hc => by
    have h1 := hc.loose.add h
    obtain ⟨h2, h3⟩ := tableRow_rel h k h1
    exact ⟨.cons h1.niels h2, h3⟩

theorem tableLoop_rel : ∀ (k : ℕ) {q : ExtPt F} {r : ExtPt G}, Good q r → TabRel (tableLoop k q) (tableLoop k r)
  | 0, _, _, _ => .nil
  | k + 1, _, _, h => by
    obtain ⟨h1, h2⟩ := tableRow_rel h 8 tight_zero
    exact .cons h1 (tableLoop_rel k h2.loose.doubleExtended.dbl.dbl.dbl.dbl.toExtended.good)

theorem Good.table {q : ExtPt F} {r : ExtPt G} (h : Good q r) : TabRel (tableCompute q) (tableCompute r) :=
  tableLoop_rel 32 h

theorem selectLoop_rel (b : Int32) : ∀ {l : List (NielsPt F)} {l' : List (NielsPt G)}, List.Forall₂ SN l l' →
    ∀ (i : Int32) {t : NielsPt F} {t' : NielsPt G}, SN t t' → SN (selectLoop b i l t) (selectLoop b i l' t') := by
  intro l l' h
  induction h with
  | nil => intro i t t' ht; exact ht
  | cons h1 _ ih => intro i t t' ht; exact ih (i + 1) (ht.condSet h1 (.refl (flag_equal30 _ _)))

theorem selectPoint_rel {l : List (NielsPt F)} {l' : List (NielsPt G)} (h : List.Forall₂ SN l l') (b : Int32) :
    SN (selectPoint l b) (selectPoint l' b) := by
  have := selectLoop_rel (b - (((-negative b) &&& b) <<< 1)) h 0 sn_zero
  exact this.condSet this.neg (.refl (flag_negative b))

theorem tableAddLoop_rel : ∀ {t : Table F} {t' : Table G}, TabRel t t' → ∀ (ws : List Int8) {q : ExtPt F} {r : ExtPt G},
    Tight q r → Tight (tableAddLoop t ws q) (tableAddLoop t' ws r) := by
  intro t t' h
  induction h with
  | nil => intro ws q r hq; exact hq
  | cons h1 _ ih =>
    intro ws q r hq
    cases ws with
    | nil => exact hq
    | cons w ws => exact ih ws (hq.addNiels (selectPoint_rel h1 _)).toExtended

theorem Tight.double4 {q : ExtPt F} {r : ExtPt G} (h : Tight q r) : Tight (Model.double4 q) (Model.double4 r) :=
  h.loose.doubleExtended.dbl.dbl.dbl.toExtended

theorem tableMult_rel {t : Table F} {t' : Table G} (h : TabRel t t') (s : Bytes 32) :
    Tight (tableScalarMult t s) (tableScalarMult t' s) :=
  tableAddLoop_rel h _ (tableAddLoop_rel h _ tight_zero).double4

theorem varTimeSelect_rel {l : List (NielsPt F)} {l' : List (NielsPt G)} (h : List.Forall₂ SN l l') (b : Int32) :
    OptRel SN (varTimeSelectPoint l b) (varTimeSelectPoint l' b) := by
  unfold varTimeSelectPoint
  split
  · exact (forall2_get h _).map fun _ _ hn => hn.neg
  · exact forall2_get h _

theorem tableVarTimeLoop_rel : ∀ {t : Table F} {t' : Table G}, TabRel t t' → ∀ (ws : List Int8) {q : ExtPt F} {r : ExtPt G},
    Tight q r → OptRel Tight (tableVarTimeLoop t ws q) (tableVarTimeLoop t' ws r) := by
  intro t t' h
  induction h with
  | nil => intro ws q r hq; exact hq
  | cons h1 _ ih =>
    intro ws q r hq
    cases ws with
    | nil => exact hq
    | cons w ws =>
      unfold tableVarTimeLoop
      split
      · exact ih ws hq
      · exact OptRel.bind (P := SN) (fun _ _ hn => ih ws (hq.addNiels hn).toExtended) (varTimeSelect_rel h1 _)

theorem tableVarTime_rel {t : Table F} {t' : Table G} (h : TabRel t t') (s : Bytes 32) :
    OptRel Tight (tableVarTimeScalarMult t s) (tableVarTimeScalarMult t' s) :=
  (tableVarTimeLoop_rel h _ tight_zero).bind fun _ _ hq => tableVarTimeLoop_rel h _ hq.double4

/-! elligator.go -/

/-- Related points of the Jacobi quartic. -/
structure SJ (j : JacPt F) (k : JacPt G) : Prop where
  S : R 2 j.S k.S
  T : R 1 j.T k.T

theorem SJ.dual {j : JacPt F} {k : JacPt G} (h : SJ j k) : SJ j.dual k.dual := ⟨h.S.neg, h.T.neg⟩

theorem SJ.recv {j : JacPt F} {k : JacPt G} (h : SJ j k) : SJ (elligator2InverseRecv j) (elligator2InverseRecv k) :=
  ⟨h.S.touch.touch, h.T⟩

theorem Loose.jacobiRecv {q : ExtPt F} {r : ExtPt G} (h : Loose q r) :
    Loose (toJacobiQuarticRistrettoRecv q) (toJacobiQuarticRistrettoRecv r) := ⟨h.X.touch, h.Y.touch, h.Z, h.T⟩

theorem Loose.jacobi {q : ExtPt F} {r : ExtPt G} (h : Loose q r) :
    SJ (toJacobiQuarticRistretto q).1 (toJacobiQuarticRistretto r).1 ∧
    SJ (toJacobiQuarticRistretto q).2.1 (toJacobiQuarticRistretto r).2.1 ∧
    SJ (toJacobiQuarticRistretto q).2.2.1 (toJacobiQuarticRistretto r).2.2.1 ∧
    SJ (toJacobiQuarticRistretto q).2.2.2 (toJacobiQuarticRistretto r).2.2.2 := by
  have X2 := h.X.sq
  have Y2 := h.Y.sq
  have Y4 := Y2.sq
  have Z2 := h.Z.sq
  have ZmY := h.Z.sub h.Y
  have ZpY := h.Z.add h.Y
  have Z2mY2 := Z2.sub Y2
  have gamma := ((Y4.mul X2).mul Z2mY2).invSqrt
  have den := gamma.mul Y2
  have sOverX := den.mul ZmY
  have spOverXp := den.mul ZpY
  have s0 := sOverX.mul h.X
  have s1 := (spOverXp.mul h.X).neg
  have tmp := rDoubleInvSqrtMinusDMinusOne.mul h.Z
  have t0 := tmp.mul sOverX
  have t1 := tmp.mul spOverXp
  have den := (Z2mY2.neg.mul rInvSqrt1pD).mul gamma
  have iZ := rI.mul h.Z
  have iZmX := iZ.sub h.X
  have iZpX := iZ.add h.X
  have sOverY := den.mul iZmX
  have spOverYp := den.mul iZpX
  have s2 := sOverY.mul h.Y
  have s3 := (spOverYp.mul h.Y).neg
  have tmp := rDoubleInvSqrtMinusDMinusOne.mul iZ
  have t2 := tmp.mul sOverY
  have t3 := tmp.mul spOverYp
  have f := (h.X.isNonZero.and h.Y.isNonZero).not
  exact ⟨⟨s0.mono, t0.cond rOne f⟩, ⟨s1.mono, t1.cond rOne f⟩,
    ⟨(s2.cond rOne f).mono, t2.cond rDoubleIInvSqrtMinusDMinusOne f⟩,
    ⟨(s3.cond rMinusOne f).mono, t3.cond rDoubleIInvSqrtMinusDMinusOne f⟩⟩

theorem SJ.inverse {j : JacPt F} {k : JacPt G} (h : SJ j k) :
    R 2 (elligator2Inverse j).1 (elligator2Inverse k).1 ∧ F2 (elligator2Inverse j).2 (elligator2Inverse k).2 := by
  have nz := h.S.isNonZero
  have pS := h.S.touch
  have te := h.T.equals rOne
  have out := (rZero (F := F) (G := G)).cond rSqrtID te
  have a := (h.T.add rOne).mul rDp1OverDm1
  have a2 := a.sq
  have S2 := pS.sq
  have S4 := S2.sq
  obtain ⟨y, sq⟩ := (S4.sub a2).invSqrtI
  have ret := nz.not.or sq.not
  have done := nz.not.or sq
  have S2 := S2.cond S2.neg pS.isNeg
  have x := ((a.add S2).mul y).abs
  exact ⟨(out.mono (n := 2)).cond x done.not, ret⟩

theorem Loose.inverse {q : ExtPt F} {r : ExtPt G} (h : Loose q r) :
    List.Forall₂ (fun (e : F × Int32) (e' : G × Int32) => R 2 e.1 e'.1 ∧ F2 e.2 e'.2)
      (ristrettoElligator2Inverse q) (ristrettoElligator2Inverse r) := by
  obtain ⟨h0, h1, h2, h3⟩ := h.jacobi
  exact .cons h0.inverse (.cons h0.recv.dual.inverse (.cons h1.inverse (.cons h1.recv.dual.inverse
    (.cons h2.inverse (.cons h2.recv.dual.inverse (.cons h3.inverse (.cons h3.recv.dual.inverse .nil)))))))

theorem elligator2Jacobi_rel {r0 : F} {x0 : G} (h : R 1 r0 x0) :
    R 2 (elligator2Jacobi r0).S (elligator2Jacobi x0).S ∧ R 2 (elligator2Jacobi r0).T (elligator2Jacobi x0).T := by
  have r0i := h.mul rI
  have r := h.mul r0i
  have rPlusD := rD.add r
  have D := (((rD.mul r).add rOne).mul rPlusD).neg
  have rPlusOne := r.add rOne
  have N := rOneMinusDSquared.mul rPlusOne
  obtain ⟨sqrt, b⟩ := (N.mul D).invSqrtI
  have sqrt := sqrt.abs
  have twiddle := (rOne (F := F) (G := G)).cond r0i b.not
  have sgn := (rOne (F := F) (G := G)).cond rMinusOne b.not
  have sqrt := sqrt.mul twiddle
  have S := sqrt.mul N
  have T := S.mul (sqrt.mul sgn.neg)
  have T := (rDMinusOneSquared.mul T)
  have T := (r.sub rOne).mul T
  have T := T.sub rOne
  have hs := S.isNeg
  have e : F2 (equal30 (isNegativeI (FieldOps.mul _ _)) _) (equal30 (isNegativeI (FieldOps.mul _ _)) _) :=
    ⟨congrArg₂ equal30 hs.1 b.1, flag_equal30 _ _⟩
  exact ⟨S.touch.cond (S.neg.mono) e, T⟩

theorem setElligator2_rel {r0 : F} {x0 : G} (h : R 1 r0 x0) :
    SC (setRistrettoElligator2 r0) (setRistrettoElligator2 x0) := by
  obtain ⟨hS, hT⟩ := elligator2Jacobi_rel h
  have s2 := hS.sq
  exact ⟨(hS.mul rDoubleInvSqrtMinusDMinusOne).mono, (rOne.sub s2).mono, hT.mono, (rOne.add s2).mono⟩

end Ristretto.Proofs.Sim
