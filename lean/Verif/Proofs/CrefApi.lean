import Verif.Proofs.CrefBase
import Verif.Proofs.CrefMachine
import Verif.Proofs.CrefScalarOps
import Verif.Spec.CrefApi
import Mathlib.GroupTheory.OrderOfElement
import Mathlib.Algebra.Field.ZMod

/-!
# Programs over all of cref.c refine the abstract machine
-/

namespace Ristretto.Proofs.Cref
open Model FieldOps Model.Cref
open Sim (Flag F2)
set_option autoImplicit false

/-! ## Field -/

section
variable {F G : Type} [O : CrefOps F] [FieldOps G] [L : CSim F G]
variable {m n : ℕ} {a b : F} {x y : G}

theorem R.invert (h : R m a x) (hm : m ≤ 3 := by norm_num) : R 1 (Model.Cref.invert a) (feInverse x) := by
  have t0 := h.sq hm
  have t1 := h.mul (t0.sqS 1) hm
  have t0 := t0.mul t1
  have t1 := t1.mul t0.sq
  have t1 := (t1.sqS 4).mul t1
  have t2 := (t1.sqS 9).mul t1
  have t2 := (t2.sqS 19).mul t2
  have t1 := (t2.sqS 9).mul t1
  have t2 := (t1.sqS 49).mul t1
  have t2 := (t2.sqS 99).mul t2
  have t1 := (t2.sqS 49).mul t1
  exact (t1.sqS 4).mul t0

theorem R.fsqrt (h : R m a x) (hm : m ≤ 3 := by norm_num) :
    R 1 (Model.Cref.fsqrt a) (FieldOps.mul (invSqrt x) x) := (h.invsqrt hm).mul h (by norm_num) hm

theorem f2_one_sub {c c' : Int32} (h : F2 c c') : F2 (1 - c) (1 - c') := by
  obtain ⟨rfl, h⟩ := h
  rcases h with rfl | rfl
  · exact ⟨rfl, .inr rfl⟩
  · exact ⟨rfl, .inl rfl⟩

theorem R.fsqrti (h : R m a x) (hm : m ≤ 3 := by norm_num) :
    R 1 (Model.Cref.fsqrti a).1
      (FieldOps.mul (FieldOps.mul (invSqrtI x).1 (condSet feOne feI (1 - (invSqrtI x).2))) x) ∧
    F2 (Model.Cref.fsqrti a).2 (invSqrtI x).2 := by
  obtain ⟨h1, h2⟩ := h.invsqrti hm
  have c := (rOne : R 1 (O.one : F) (feOne : G)).cond rI (f2_one_sub h2)
  exact ⟨(h1.mul c).mul h (by norm_num) hm, h2⟩

/-! ## Comparisons of points -/

theorem f2_or {c c' e e' : Int32} (h : F2 c c') (h' : F2 e e') : c ||| e = 1 - ((1 - c') &&& (1 - e')) := by
  obtain ⟨rfl, h⟩ := h
  obtain ⟨rfl, h'⟩ := h'
  rcases h with rfl | rfl <;> rcases h' with rfl | rfl <;> rfl

theorem CP.equals {q q₂ : ExtPt F} {r r₂ : ExtPt G} (h : CP q r) (h' : CP q₂ r₂) :
    geEquals q q₂ = ExtPt.ristrettoEqualsI r r₂ :=
  f2_or ((h.X.mul h'.Y).equals (h'.X.mul h.Y)) ((h.X.mul h'.X).equals (h.Y.mul h'.Y))

theorem f2_nor {c c' e e' : Int32} (h : F2 c c') (h' : F2 e e') : 1 - ((1 - c) ||| (1 - e)) = c' &&& e' := by
  obtain ⟨rfl, h⟩ := h
  obtain ⟨rfl, h'⟩ := h'
  rcases h with rfl | rfl <;> rcases h' with rfl | rfl <;> rfl

theorem CP.isNeutral {q : ExtPt F} {r : ExtPt G} (h : CP q r) :
    let t := ExtPt.double (ExtPt.double (ExtPt.double r))
    geIsNeutral q = (1 - isNonZeroI t.X) &&& feEqualsI t.Y t.Z := by
  have t := h.double.double.double
  exact f2_nor t.X.isZero (t.Y.equals t.Z)

end

/-- What a predicate returns. -/
theorem bit_of {i : Int32} {c : Prop} [Decidable c] (h1 : c → i = 1) (h0 : ¬ c → i = 0) : COut.int i = bit c := by
  unfold bit
  split
  · rename_i h; rw [h1 h]
  · rename_i h; rw [h0 h]

theorem bit_flag {i : Int32} {c e : Prop} [Decidable c] [Decidable e] (h : i = Proofs.flag c) (hce : c ↔ e) :
    COut.int i = bit e :=
  bit_of (fun he => by rw [h, Proofs.flag, if_pos (hce.2 he)]) (fun he => by rw [h, Proofs.flag, if_neg (fun hc => he (hce.1 hc))])

theorem fp_isZero {x : Fp} : 1 - isNonZeroI x = Proofs.flag (x = 0) := by
  rw [isNonZeroI_spec (F := Fp) (x := x) trivial, one_sub_flag]
  exact flag_congr not_not

theorem fp_equals {x y : Fp} : feEqualsI x y = Proofs.flag (x = y) := feEqualsI_spec (F := Fp) trivial trivial

theorem smul_eq_zero_of_coprime {g : RGroup} {n : ℕ} (hn : Nat.Coprime n l) (h : n • g = 0) : g = 0 := by
  have h1 : addOrderOf g ∣ n := addOrderOf_dvd_of_nsmul_eq_zero h
  have h2 : addOrderOf g ∣ l := card_RGroup ▸ addOrderOf_dvd_natCard g
  have h3 : addOrderOf g ∣ Nat.gcd n l := Nat.dvd_gcd h1 h2
  rw [hn, Nat.dvd_one] at h3
  exact AddMonoid.addOrderOf_eq_one_iff.1 h3

theorem cls_zero_iff {P : EPoint} (hP : P ∈ Even) : P + P + (P + P) + (P + P + (P + P)) = 0 ↔ cls P hP = 0 := by
  have e : P + P + (P + P) + (P + P + (P + P)) = 8 • P := by
    simp only [← two_nsmul, ← mul_nsmul]
  rw [e]
  constructor
  · intro h
    refine smul_eq_zero_of_coprime (n := 8) (by decide +kernel) ?_
    have : cls (8 • P) (Even.nsmul_mem hP 8) = cls 0 Even.zero_mem := by congr 1
    exact this
  · intro h
    have h4 : P ∈ E4 := by
      have := (cls_eq hP Even.zero_mem).1 h
      rwa [sub_zero] at this
    have h1 : Nat.card E4 • (⟨P, h4⟩ : E4) = 0 := card_nsmul_eq_zero'
    rw [card_E4] at h1
    have h2 : 4 • P = 0 := congrArg Subtype.val h1
    rw [show (8 : ℕ) = 4 * 2 from rfl, mul_nsmul, h2, nsmul_zero]

theorem proj_zero_iff {P : EPoint} {X Y Z T : Fp} (h : Proj P X Y Z T) : (X = 0 ∧ Y = Z) ↔ P = 0 := by
  constructor
  · rintro ⟨hx, hy⟩
    have h1 : P.x = 0 := by
      have := h.x
      rw [hx] at this
      exact (mul_eq_zero.1 this.symm).resolve_right h.z
    have h2 : P.y = 1 := by
      have := h.y
      rw [hy] at this
      exact mul_right_cancel₀ h.z (by rw [one_mul]; exact this.symm)
    exact EPoint.ext h1 h2
  · rintro rfl
    exact ⟨by rw [h.x]; exact zero_mul _, by rw [h.y]; exact one_mul _⟩

theorem deg_double_z {q : ExtPt Fp} (h : Deg q) : (ExtPt.double q).Z = 0 := by
  have hx : q.X = 0 := h.x
  have hy : q.Y = 0 := h.y
  show (-(q.X * q.X) + q.Y * q.Y) * _ = (0 : Fp)
  rw [hx, hy]
  simp

theorem and_flags {c e : Prop} [Decidable c] [Decidable e] : Proofs.flag c &&& Proofs.flag e = Proofs.flag (c ∧ e) := by
  unfold Proofs.flag
  by_cases h : c <;> by_cases h' : e <;> simp [h, h']

section
variable {F : Type} [O : CrefOps F] [L : CSim F Fp]

open Classical in
theorem cPt_isNeutral {q : ExtPt F} {g : Option RGroup} : CPt q g →
    COut.int (geIsNeutral q) = bit (eqO g (some 0)) := by
  rintro ⟨r, a, b⟩
  have h := a.isNeutral
  simp only at h
  rw [fp_isZero, fp_equals, and_flags] at h
  refine bit_flag h ?_
  cases g with
  | none =>
    have b : Deg r := b
    refine ⟨fun _ => trivial, fun _ => ?_⟩
    have d := b.double.double
    exact ⟨d.double.x, (d.double.y : _ = (0 : Fp)).trans (deg_double_z d).symm⟩
  | some g =>
    obtain ⟨P, hP, h1, rfl⟩ := b
    exact (proj_zero_iff (double_spec (double_spec (double_spec h1))).proj).trans (cls_zero_iff hP)

open Classical in
theorem cPt_equals {q r : ExtPt F} {g h : Option RGroup} : CPt q g → CPt r h →
    COut.int (geEquals q r) = bit (eqO g h) := by
  rintro ⟨_, a, b⟩ ⟨_, c, d⟩
  rw [a.equals c, b.equalsI d]
  rfl

theorem IsP.cPt {q : ExtPt F} {P : EPoint} (h : IsP q P) (hP : P ∈ Even) : CPt q (some (cls P hP)) := by
  obtain ⟨r, h1, h2⟩ := h
  exact ⟨r, h1, P, hP, h2, rfl⟩

end

/-! ## The base point -/

theorem geBase_spec : IsP geBase stdBase := by
  refine ⟨⟨stdBase.x, stdBase.y, 1, stdBase.x * stdBase.y⟩, ⟨?_, ?_, rOne, ?_⟩, affine_isPt stdBase⟩
  · exact Fe25.R.of_nat (by decide +kernel) (by decide +kernel) rfl
  · exact Fe25.R.of_nat (by decide +kernel) (by decide +kernel) rfl
  · refine Fe25.R.of_nat (n := 15112221349535400772501151409588531511454012693041857206046113283949847762202 *
      46316835694926478169428394003475163141307993866256225615783033603165251855960) (by decide +kernel) (by decide +kernel) ?_
    rw [Nat.cast_mul]
    rfl

/-- The points of `CrefTab` are the ones they have to be. -/
class LawfulTab (F : Type) [CrefOps F] [CSim F Fp] [CrefTab F] : Prop where
  base : IsP (CrefTab.base : ExtPt F) stdBase
  tab : IsMultiples 85 (CrefTab.tab : List (AffPt F)) stdBase

instance : LawfulTab Fe25 := ⟨geBase_spec, baseMultiples_spec⟩

theorem cPt_base {F : Type} [CrefOps F] [CSim F Fp] [CrefTab F] [T : LawfulTab F] :
    CPt (CrefTab.base : ExtPt F) (some baseR) := T.base.cPt stdBase_even

theorem cPt_scalarMultBase {F : Type} [CrefOps F] [CSim F Fp] [CrefTab F] [T : LawfulTab F] {v : Sc} {x : ZMod l} :
    CSc v x → CPt (scalarMultBaseWith (CrefTab.tab : List (AffPt F)) v) (some (x.val • baseR)) := by
  rintro ⟨b, rfl, h⟩
  have hlt : leVal b < 3 * 2 ^ 252 := by
    rw [h]
    exact lt_trans (lt_trans (ZMod.val_lt x) l_lt) (by norm_num)
  have := (scalarMultBaseWith_spec T.tab b hlt).cPt (Even.nsmul_mem stdBase_even _)
  rw [h] at this
  exact this

/-! ## Scalars -/

theorem cSc_iff {v : Sc} {x : ZMod l} : CSc v x ↔ IsNum v x.val := by
  constructor
  · rintro ⟨b, rfl, h⟩
    rw [← h]
    exact isNum_ofBytes b
  · exact isNum_bytes

theorem cSc_of_mod {v : Sc} {n : ℕ} (h : IsNum v (n % l)) : CSc v (n : ZMod l) := by
  rw [cSc_iff, ZMod.val_natCast]
  exact h

section
variable {v w : Sc} {x y : ZMod l}

theorem cSc_add (hv : CSc v x) (hw : CSc w y) : CSc (scAdd v w) (x + y) := by
  have hx := ZMod.val_lt x
  have hy := ZMod.val_lt y
  have h := isNum_add (cSc_iff.1 hv) (cSc_iff.1 hw) (by
    have := l_lt
    calc x.val + y.val < l + l := by omega
      _ < 2 ^ 253 + 2 ^ 253 := by omega
      _ ≤ 2 ^ 256 := by norm_num)
  have e : (if x.val + y.val < l then x.val + y.val else x.val + y.val - l) = (x.val + y.val) % l := by
    split
    · rename_i h; exact (Nat.mod_eq_of_lt h).symm
    · rename_i h
      rw [Nat.mod_eq_sub_mod (by omega), Nat.mod_eq_of_lt (by omega)]
  rw [e] at h
  have := cSc_of_mod h
  rwa [Nat.cast_add, ZMod.natCast_zmod_val, ZMod.natCast_zmod_val] at this

theorem cSc_sub (hv : CSc v x) (hw : CSc w y) : CSc (scSub v w) (x - y) := by
  have hy := ZMod.val_lt y
  have h := cSc_of_mod (isNum_sub (cSc_iff.1 hv) (cSc_iff.1 hw) (ZMod.val_lt x) hy)
  rwa [Nat.cast_add, Nat.cast_sub hy.le, ZMod.natCast_self, ZMod.natCast_zmod_val, ZMod.natCast_zmod_val, zero_sub,
    ← sub_eq_add_neg] at h

theorem cSc_negate (hv : CSc v x) : CSc (scNegate v) (-x) := by
  have hx := ZMod.val_lt x
  have h := cSc_of_mod (isNum_negate (cSc_iff.1 hv) hx)
  rwa [Nat.cast_sub hx.le, ZMod.natCast_self, ZMod.natCast_zmod_val, zero_sub] at h

theorem cSc_mul (hv : CSc v x) (hw : CSc w y) : CSc (scMul v w) (x * y) := by
  have h := cSc_of_mod (isNum_mul (cSc_iff.1 hv) (cSc_iff.1 hw))
  rwa [Nat.cast_mul, ZMod.natCast_zmod_val, ZMod.natCast_zmod_val] at h

theorem cSc_square (hv : CSc v x) : CSc (scSquare v) (x * x) := cSc_mul hv hv

theorem cSc_invert (hv : CSc v x) : CSc (scInvert v) x⁻¹ := by
  have h := cSc_of_mod (isNum_invert_pow (cSc_iff.1 hv))
  have e : ((x.val ^ (l - 2) : ℕ) : ZMod l) = x⁻¹ := by
    rw [Nat.cast_pow, ZMod.natCast_zmod_val]
    have h1 := pow_inv x.val
    have h2 : ((x.val ^ (l - 2) % l * x.val % l : ℕ) : ZMod l) = x ^ (l - 2) * x := by
      rw [ZMod.natCast_mod, Nat.cast_mul, ZMod.natCast_mod, Nat.cast_pow, ZMod.natCast_zmod_val]
    by_cases hx : x = 0
    · rw [hx, inv_zero, zero_pow (by decide +kernel)]
    · rw [h1, if_neg (by
        rw [Nat.mod_eq_of_lt (ZMod.val_lt x), ZMod.val_eq_zero]; exact hx), Nat.cast_one] at h2
      exact eq_inv_of_mul_eq_one_left h2.symm
  rwa [e] at h

theorem cSc_from64 (b : Bytes 64) : CSc (from64bytes b) ((leVal b : ℕ) : ZMod l) := cSc_of_mod (isNum_from64bytes b)

theorem cSc_zero : CSc scSetZero 0 := cSc_iff.2 (by rw [ZMod.val_zero]; exact isNum_zero)

theorem cSc_one : CSc scSetOne 1 := cSc_iff.2 (by rw [ZMod.val_one]; exact isNum_one)

theorem ite_bit {i : Int32} {c e : Prop} [Decidable c] [Decidable e] (h : i = if c then 1 else 0) (hce : c ↔ e) :
    COut.int i = bit e :=
  bit_of (fun he => by rw [h, if_pos (hce.2 he)]) (fun he => by rw [h, if_neg (fun hc => he (hce.1 hc))])

end

/-! ## Programs -/

section
variable {F : Type} [O : CrefOps F] [L : CSim F Fp]

/-- The variables hold what the abstract variables hold, and the field variables have the sizes `w`. -/
structure KRel (w : ℕ → ℕ) (m : CMem F) (a : CState) : Prop where
  fe : ∀ k, R (w k) (m.fes k) (a.fes k)
  le : ∀ k, w k ≤ 10
  pt : ∀ k, CPt (m.pts k) (a.pts k)
  sc : ∀ k, CSc (m.scs k) (a.scs k)

section
variable {w : ℕ → ℕ} {m : CMem F} {a : CState}

theorem KRel.setFe (h : KRel w m a) (f : ℕ) {n : ℕ} {v : F} {x : Fp} (hv : R n v x) (hn : n ≤ 10 := by norm_num) :
    KRel (setW w f n) (m.setFe f v) (a.setFe f x) :=
  ⟨fun k => by unfold CMem.setFe CState.setFe setW; simp only; split; exacts [hv, h.fe k],
   fun k => by unfold setW; split; exacts [hn, h.le k], h.pt, h.sc⟩

theorem KRel.setPt (h : KRel w m a) (f : ℕ) {v : ExtPt F} {x : Option RGroup} (hv : CPt v x) :
    KRel w (m.setPt f v) (a.setPt f x) :=
  ⟨h.fe, h.le, fun k => by unfold CMem.setPt CState.setPt; simp only; split; exacts [hv, h.pt k], h.sc⟩

theorem KRel.setSc (h : KRel w m a) (f : ℕ) {v : Sc} {x : ZMod l} (hv : CSc v x) :
    KRel w (m.setSc f v) (a.setSc f x) :=
  ⟨h.fe, h.le, h.pt, fun k => by unfold CMem.setSc CState.setSc; simp only; split; exacts [hv, h.sc k]⟩

theorem KRel.elligator (h : KRel w m a) (f : ℕ) (hf : w f ≤ 3) : CPt (geElligator (m.fes f)) (some (ellMap (a.fes f))) :=
  ⟨_, geElligator_rel (h.fe f) hf, ell_holds (F := Fp) (fe := a.fes f) trivial⟩

theorem R.fe_abs {n : ℕ} {u : F} {x : Fp} (h : R n u x) (hn : n ≤ 3) :
    R n (Model.Cref.fabs u) (if x.val % 2 = 1 then -x else x) := by
  have e : feAbsSelf x = if x.val % 2 = 1 then -x else x := (feAbsSelf_spec (F := Fp) (x := x) trivial).2
  rw [← e]
  exact h.fabs hn

theorem R.fe_inv {n : ℕ} {u : F} {x : Fp} (h : R n u x) (hn : n ≤ 3) : R 1 (Model.Cref.invert u) x⁻¹ := by
  have e : feInverse x = x⁻¹ := (feInverse_spec (F := Fp) (a := x) trivial).2
  rw [← e]
  exact h.invert hn

theorem R.fe_pow {n : ℕ} {u : F} {x : Fp} (h : R n u x) (hn : n ≤ 3) :
    R 1 (Model.Cref.pow2523 u) (x ^ (2 ^ 252 - 3)) := by
  have e : exp22523 x = x ^ (2 ^ 252 - 3) := (exp22523_pow (F := Fp) (a := x) trivial).2
  rw [← e]
  exact h.pow2523 hn

theorem R.eq {n : ℕ} {u : F} {x y : Fp} (h : R n u x) (e : x = y) : R n u y := e ▸ h

/-- The rounds of `group_ge_multiscalarmult`, when the receiver is not among the operands. -/
theorem multi_rel (r : ℕ) : ∀ (xs : List (ℕ × ℕ)) {m : CMem F} {a : CState} {g : Option RGroup}, KRel w m a → a.pts r = g →
    r ∉ xs.map Prod.fst →
    KRel w (xs.foldl (multiStep r) m)
      (a.setPt r ((xs.map fun xs => smulO (a.scs xs.2) (a.pts xs.1)).foldl addO g))
  | [], m, a, g, h, hg, _ => by
    subst hg
    refine ⟨h.fe, h.le, fun k => ?_, h.sc⟩
    unfold CState.setPt
    simp only [List.foldl_nil, List.map_nil]
    split
    · rename_i hk; rw [hk]; exact h.pt r
    · exact h.pt k
  | (x, s) :: xs, m, a, g, h, hg, hr => by
    rw [List.map_cons, List.mem_cons, not_or] at hr
    subst hg
    have h1 := h.setPt r (cPt_add (h.pt r) (cPt_mult (h.pt x) (h.sc s)))
    have ih := multi_rel r xs h1 rfl hr.2
    have e1 : (a.setPt r (addO (a.pts r) (smulO (a.scs s) (a.pts x)))).pts r =
        addO (a.pts r) (smulO (a.scs s) (a.pts x)) := by unfold CState.setPt; simp
    have e2 : (xs.map fun xs => smulO ((a.setPt r (addO (a.pts r) (smulO (a.scs s) (a.pts x)))).scs xs.2)
        ((a.setPt r (addO (a.pts r) (smulO (a.scs s) (a.pts x)))).pts xs.1)) =
        xs.map fun xs => smulO (a.scs xs.2) (a.pts xs.1) := by
      apply List.map_congr_left
      intro y hy
      have hne : y.1 ≠ r := fun e => hr.2 (List.mem_map.2 ⟨y, hy, e⟩)
      unfold CState.setPt
      simp [hne]
    have e3 : ∀ u v, (a.setPt r u).setPt r v = a.setPt r v := by
      intro u v
      unfold CState.setPt
      congr 1
      funext k
      by_cases hk : k = r <;> simp [hk]
    rw [e1, e2, e3] at ih
    exact ih

theorem kexec_rel [CrefTab F] [LawfulTab F] (h : KRel w m a) (c : KCmd) {w' : ℕ → ℕ} (hw : weigh w c = some w') :
    KRel w' (kexec m c).1 (kaexec a c).1 ∧ (kexec m c).2 = (kaexec a c).2 := by
  cases c with
  | go c =>
    cases c with
    | feUnpack f buf => cases hw; exact ⟨h.setFe f (cFe_unpack buf), rfl⟩
    | fePack f =>
      simp only [weigh, Option.ite_none_right_eq_some] at hw
      obtain ⟨h3, hw⟩ := hw; cases hw
      exact ⟨h, congrArg COut.bytes ((h.fe f).pack h3)⟩
    | geUnpack g buf => cases hw; exact ⟨h.setPt g (cPt_unpack buf).1, congrArg COut.int (cPt_unpack buf).2⟩
    | gePack g => cases hw; exact ⟨h, congrArg COut.bytes (cPt_pack (h.pt g))⟩
    | geElligator g f =>
      simp only [weigh, Option.ite_none_right_eq_some] at hw
      obtain ⟨h3, hw⟩ := hw; cases hw
      exact ⟨h.setPt g (h.elligator f h3), rfl⟩
    | geNeg g x => cases hw; exact ⟨h.setPt g (cPt_neg (h.pt x)), rfl⟩
    | geAdd g x y => cases hw; exact ⟨h.setPt g (cPt_add (h.pt x) (h.pt y)), rfl⟩
    | geDouble g x => cases hw; exact ⟨h.setPt g (cPt_double (h.pt x)), rfl⟩
    | geScalarMult g x s => cases hw; exact ⟨h.setPt g (cPt_mult (h.pt x) (h.sc s)), rfl⟩
    | scUnpack s buf => cases hw; exact ⟨h.setSc s (cSc_unpack buf), rfl⟩
    | scPack s => cases hw; exact ⟨h, congrArg COut.bytes (cSc_pack (h.sc s))⟩
  | scSetZero r => cases hw; exact ⟨h.setSc r cSc_zero, rfl⟩
  | scSetOne r => cases hw; exact ⟨h.setSc r cSc_one, rfl⟩
  | scAdd r x y => cases hw; exact ⟨h.setSc r (cSc_add (h.sc x) (h.sc y)), rfl⟩
  | scSub r x y => cases hw; exact ⟨h.setSc r (cSc_sub (h.sc x) (h.sc y)), rfl⟩
  | scNegate r x => cases hw; exact ⟨h.setSc r (cSc_negate (h.sc x)), rfl⟩
  | scMul r x y => cases hw; exact ⟨h.setSc r (cSc_mul (h.sc x) (h.sc y)), rfl⟩
  | scSquare r x => cases hw; exact ⟨h.setSc r (cSc_square (h.sc x)), rfl⟩
  | scInvert r x => cases hw; exact ⟨h.setSc r (cSc_invert (h.sc x)), rfl⟩
  | scFrom64 r b => cases hw; exact ⟨h.setSc r (cSc_from64 b), rfl⟩
  | scIsOne x =>
    cases hw
    refine ⟨h, ite_bit (scIsOne_spec (cSc_iff.1 (h.sc x))) ?_⟩
    rw [← ZMod.val_one l, ZMod.val_injective l |>.eq_iff]
  | scIsZero x =>
    cases hw
    exact ⟨h, ite_bit (scIsZero_spec (cSc_iff.1 (h.sc x))) (ZMod.val_eq_zero _)⟩
  | scEquals x y =>
    cases hw
    exact ⟨h, ite_bit (scEquals_spec (cSc_iff.1 (h.sc x)) (cSc_iff.1 (h.sc y))) (ZMod.val_injective l).eq_iff⟩
  | scTstbit x pos =>
    cases hw
    refine ⟨h, ite_bit (tstbit_spec (cSc_iff.1 (h.sc x)) pos) ?_⟩
    rw [Nat.testBit_eq_decide_div_mod_eq, decide_eq_true_iff]
  | scBitlen x => cases hw; exact ⟨h, congrArg COut.int (bitlen_spec (cSc_iff.1 (h.sc x)))⟩
  | feSetOne r => cases hw; exact ⟨h.setFe r rOne, rfl⟩
  | feSetZero r => cases hw; exact ⟨h.setFe r rZero, rfl⟩
  | feNeg r x => cases hw; exact ⟨h.setFe r ((h.fe x).neg (h.le x)) (h.le x), rfl⟩
  | feAdd r x y =>
    simp only [weigh, Option.ite_none_right_eq_some] at hw
    obtain ⟨h3, hw⟩ := hw; cases hw
    exact ⟨h.setFe r ((h.fe x).add (h.fe y) h3) h3, rfl⟩
  | feSub r x y =>
    simp only [weigh, Option.ite_none_right_eq_some] at hw
    obtain ⟨h3, hw⟩ := hw; cases hw
    exact ⟨h.setFe r ((h.fe x).sub (h.fe y) h3) h3, rfl⟩
  | feDouble r x =>
    simp only [weigh, Option.ite_none_right_eq_some] at hw
    obtain ⟨h3, hw⟩ := hw; cases hw
    exact ⟨h.setFe r (((h.fe x).add (h.fe x) h3).eq (two_mul (a.fes x)).symm) h3, rfl⟩
  | feTriple r x =>
    simp only [weigh, Option.ite_none_right_eq_some] at hw
    obtain ⟨⟨hne, h3⟩, hw⟩ := hw; cases hw
    have e : tripleMem m r x = m.setFe r (CrefOps.add (CrefOps.add (m.fes x) (m.fes x)) (m.fes x)) := by
      unfold tripleMem CMem.setFe
      simp only [if_true, if_neg (Ne.symm hne)]
      congr 1
      funext k
      split <;> rfl
    refine ⟨?_, rfl⟩
    show KRel _ (tripleMem m r x) _
    rw [e]
    exact h.setFe r ((((h.fe x).add (h.fe x) (by omega)).add (h.fe x) h3).eq (by
      show a.fes x + a.fes x + a.fes x = 3 * a.fes x
      ring)) h3
  | feMul r x y =>
    simp only [weigh, Option.ite_none_right_eq_some] at hw
    obtain ⟨h3, hw⟩ := hw; cases hw
    exact ⟨h.setFe r ((h.fe x).mul (h.fe y) h3.1 h3.2), rfl⟩
  | feSquare r x =>
    simp only [weigh, Option.ite_none_right_eq_some] at hw
    obtain ⟨h3, hw⟩ := hw; cases hw
    exact ⟨h.setFe r (((h.fe x).sq h3).eq (sq (a.fes x)).symm), rfl⟩
  | feSquareDouble r x =>
    simp only [weigh, Option.ite_none_right_eq_some] at hw
    obtain ⟨h3, hw⟩ := hw; cases hw
    exact ⟨h.setFe r (((h.fe x).dsq h3).eq (congrArg (2 * ·) (sq (a.fes x)).symm)), rfl⟩
  | feInvert r x =>
    simp only [weigh, Option.ite_none_right_eq_some] at hw
    obtain ⟨h3, hw⟩ := hw; cases hw
    exact ⟨h.setFe r ((h.fe x).fe_inv h3), rfl⟩
  | fePow2523 r x =>
    simp only [weigh, Option.ite_none_right_eq_some] at hw
    obtain ⟨h3, hw⟩ := hw; cases hw
    exact ⟨h.setFe r ((h.fe x).fe_pow h3), rfl⟩
  | feAbs r x =>
    simp only [weigh, Option.ite_none_right_eq_some] at hw
    obtain ⟨h3, hw⟩ := hw; cases hw
    refine ⟨h.setFe r (((h.fe x).fe_abs h3).eq ?_) (by omega), rfl⟩
    split <;> rfl
  | feCmov r x b =>
    cases hw
    refine ⟨?_, rfl⟩
    have h1 := (h.fe r).mono (n := max (w r) (w x)) (by omega)
    have h2 := (h.fe x).mono (n := max (w r) (w x)) (by omega)
    refine h.setFe r ?_ (by have := h.le r; have := h.le x; omega)
    cases b
    · simp only [Bool.false_eq_true, if_false]
      rw [L.cmov0 h1 h2]; exact h1
    · simp only [if_true]
      rw [L.cmov1 h1 h2]; exact h2
  | feIsZero x =>
    simp only [weigh, Option.ite_none_right_eq_some] at hw
    obtain ⟨h3, hw⟩ := hw; cases hw
    exact ⟨h, bit_flag (((h.fe x).isZero h3).1.trans fp_isZero) Iff.rfl⟩
  | feIsOne x =>
    simp only [weigh, Option.ite_none_right_eq_some] at hw
    obtain ⟨h3, hw⟩ := hw; cases hw
    exact ⟨h, bit_flag (((h.fe x).isOne h3).1.trans (isOneI_spec (F := Fp) trivial)) Iff.rfl⟩
  | feIsNegative x =>
    simp only [weigh, Option.ite_none_right_eq_some] at hw
    obtain ⟨h3, hw⟩ := hw; cases hw
    exact ⟨h, bit_flag (((h.fe x).isNeg h3).1.trans (isNegativeI_spec (F := Fp) trivial)) Iff.rfl⟩
  | feIsEq x y =>
    simp only [weigh, Option.ite_none_right_eq_some] at hw
    obtain ⟨h3, hw⟩ := hw; cases hw
    exact ⟨h, bit_flag (((h.fe x).equals (h.fe y) h3).1.trans fp_equals) Iff.rfl⟩
  | geSetNeutral r => cases hw; exact ⟨h.setPt r ⟨_, CP.neutral, holds_zero (F := Fp)⟩, rfl⟩
  | geSetBase r => cases hw; exact ⟨h.setPt r cPt_base, rfl⟩
  | geScalarMultBase r s => cases hw; exact ⟨h.setPt r (cPt_scalarMultBase (h.sc s)), rfl⟩
  | geMultiScalarMult r xs =>
    simp only [weigh, Option.ite_none_left_eq_some] at hw
    obtain ⟨h3, hw⟩ := hw; cases hw
    refine ⟨?_, rfl⟩
    have h1 := h.setPt r (v := neutral) (x := some 0) ⟨_, CP.neutral, holds_zero (F := Fp)⟩
    have h2 := multi_rel r xs h1 rfl h3
    have e0 : (a.setPt r (some 0)).pts r = some 0 := by unfold CState.setPt; simp
    have e1 : (xs.map fun xs => smulO ((a.setPt r (some 0)).scs xs.2) ((a.setPt r (some 0)).pts xs.1)) =
        xs.map fun xs => smulO (a.scs xs.2) (a.pts xs.1) := by
      apply List.map_congr_left
      intro y hy
      have hne : y.1 ≠ r := fun e => h3 (List.mem_map.2 ⟨y, hy, e⟩)
      unfold CState.setPt
      simp [hne]
    have e2 : ∀ v, (a.setPt r (some 0)).setPt r v = a.setPt r v := by
      intro v
      unfold CState.setPt
      congr 1
      funext k
      by_cases hk : k = r <;> simp [hk]
    rw [e0, e1, e2] at h2
    exact h2
  | geEquals x y => cases hw; exact ⟨h, cPt_equals (h.pt x) (h.pt y)⟩
  | geIsNeutral x => cases hw; exact ⟨h, cPt_isNeutral (h.pt x)⟩

end

theorem krun_rel [CrefTab F] [LawfulTab F] : ∀ (prog : List KCmd) {w : ℕ → ℕ} {m : CMem F} {a : CState}, KRel w m a → fits w prog = true →
    (∃ w', KRel w' (krun m prog).1 (karun a prog).1) ∧ (krun m prog).2 = (karun a prog).2
  | [], w, _, _, h, _ => ⟨⟨w, h⟩, rfl⟩
  | c :: cs, w, _, _, h, hf => by
    rw [fits] at hf
    cases hw : weigh w c with
    | none => rw [hw] at hf; cases hf
    | some w' =>
      rw [hw] at hf
      obtain ⟨h1, h2⟩ := kexec_rel h c hw
      obtain ⟨h3, h4⟩ := krun_rel cs h1 hf
      exact ⟨h3, by simp only [krun, karun, h2, h4]⟩

end

theorem kRel_initOf {F : Type} [CrefOps F] [CSim F Fp] {z : F} (z' : R 1 z (0 : Fp)) :
    KRel (fun _ => 1) (initOf z) CState.init :=
  let h := cRel_initOf z'
  ⟨h.fe, fun _ => by norm_num, h.pt, h.sc⟩

theorem kRel_init : KRel (fun _ => 1) CMem.init CState.init :=
  ⟨cRel_init.fe, fun _ => by norm_num, cRel_init.pt, cRel_init.sc⟩

end Ristretto.Proofs.Cref
