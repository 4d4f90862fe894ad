import Verif.Model.CrefPtr
import Verif.Proofs.CrefLoopsMult

/-!
# The functions of cref.c on memory and on values
-/

set_option autoImplicit false
set_option linter.unusedSimpArgs false
set_option linter.unusedSectionVars false

namespace Ristretto.Proofs.CrefPtr
open Ristretto Ristretto.Model Ristretto.Model.CrefPtr
open Ristretto.Model.Cref (CrefOps CrefTab AffPt Sc toByte cnot Coord FeRef COut CMem)

section
variable {F : Type}

/-- Not one of the local variables below `hi`. -/
def Hi (hi : Nat) (p : Obj) : Prop := ∀ k, k < hi → p ≠ .loc k

theorem Hi.mono {a b : Nat} {p : Obj} (h : Hi b p) (hab : a ≤ b) : Hi a p := fun k hk => h k (by omega)

theorem Hi.all {hi : Nat} {p : Obj} (h : Hi hi p) (k : Nat) (hk : k ≤ hi) : Hi k p := h.mono hk

theorem hi_pt (hi n : Nat) : Hi hi (.pt n) := fun _ _ => by simp
theorem hi_fe (hi n : Nat) : Hi hi (.fe n) := fun _ _ => by simp
theorem hi_loc (hi n : Nat) (h : hi ≤ n) : Hi hi (.loc n) := fun k hk => by simp; omega

/-- Memory is the same except for the local variables below `hi`. -/
def Out (hi : Nat) (m J : PMem F) : Prop := ∀ p, Hi hi p → ∀ o, J ⟨p, o⟩ = m ⟨p, o⟩

theorem Out.refl (hi : Nat) (m : PMem F) : Out hi m m := fun _ _ _ => rfl

theorem Out.mono {a b : Nat} {m J : PMem F} (h : Out a m J) (hab : a ≤ b) : Out b m J := fun p hp o => h p (hp.mono hab) o

theorem Out.trans {a : Nat} {m J K : PMem F} (h : Out a m J) (h' : Out a J K) : Out a m K := fun p hp o => by rw [h' p hp o, h p hp o]

theorem Out.decl {hi : Nat} {m J : PMem F} (h : Out hi m J) (lo k : Nat) (hk : k ≤ hi) : Out hi m (J.decl lo k) := by
  intro p hp o
  unfold PMem.decl
  cases p with
  | loc n =>
    have : ¬ n < hi := fun hn => hp n hn rfl
    simp only
    rw [if_neg (by omega)]
    exact h _ hp o
  | _ => exact h _ hp o

theorem Out.upd {hi : Nat} {m J : PMem F} (h : Out hi m J) (k j : Nat) (v : F) (hk : k < hi) : Out hi m (J.upd ⟨.loc k, j⟩ v) := by
  intro p hp o
  have : (⟨p, o⟩ : Addr) ≠ ⟨.loc k, j⟩ := by
    intro e
    injection e with e
    exact hp k hk e
  simp only [PMem.upd, this, if_false]
  exact h p hp o

theorem upd_at (m : PMem F) (a b : Addr) (v : F) : m.upd a v b = if b = a then some v else m b := rfl

theorem ld_adr (m : PMem F) (a : Addr) : m.ld (.adr a) = m a := rfl
theorem ld_con (m : PMem F) (v : F) : m.ld (.con v) = some v := rfl

theorem decl_loc (m : PMem F) (lo hi k j : Nat) : m.decl lo hi ⟨.loc k, j⟩ = if lo ≤ k ∧ k < hi then none else m ⟨.loc k, j⟩ := rfl

theorem decl_hi (m : PMem F) (lo hi : Nat) (p : Obj) (o : Nat) (h : Hi hi p) : m.decl lo hi ⟨p, o⟩ = m ⟨p, o⟩ :=
  Out.decl (Out.refl hi m) lo hi le_rfl p h o

theorem hi_eq {hi : Nat} {p : Obj} (h : Hi hi p) (k : Nat) (hk : k < hi) : (p = .loc k) = False := eq_false (h k hk)

theorem hi_eq' {hi : Nat} {p : Obj} (h : Hi hi p) (k : Nat) (hk : k < hi) : (.loc k = p) = False := eq_false (fun e => h k hk e.symm)

variable [O : CrefOps F]

theorem squares_iter (r : Addr) (n : Nat) : ∀ (i : Int) (m : PMem F) (v : F),
    Loops.iter 1 (fun _ m => square r r m) n i (m.upd r v) = some (m.upd r (Cref.sqN n v)) := by
  induction n with
  | zero => intros; rfl
  | succ n ih =>
    intro i m v
    have h1 : square (r : Addr) (r : Arg F) (m.upd r v) = some (m.upd r (O.square v)) := by
      simp only [square, op1, PMem.ld, upd_at, if_true, Option.bind_eq_bind, Option.bind_some]
      congr 1
      funext b
      simp only [upd_at]
      split <;> rfl
    rw [Loops.iter, h1]
    simp only [Option.bind_eq_bind, Option.bind_some]
    exact ih _ _ _

theorem squares_eq (n : Nat) (r : Addr) (x : Arg F) (m : PMem F) : squares (n + 1) r x m = op1 (Cref.sqN (n + 1)) r x m := by
  unfold squares square op1
  cases m.ld x with
  | none => rfl
  | some X =>
    simp only [Option.bind_eq_bind, Option.bind_some]
    have hf := CrefLoops.forLt_nat' 1 (n + 1) (by omega) (fun _ m => square (O := O) r r m) (m.upd r (O.square X))
    rw [squares_iter] at hf
    exact hf

theorem squares1 (r : Addr) (x : Arg F) (m : PMem F) : squares 1 r x m = op1 O.square r x m := squares_eq 0 r x m
theorem squares2 (r : Addr) (x : Arg F) (m : PMem F) : squares 2 r x m = op1 (Cref.sqN 2) r x m := squares_eq 1 r x m
theorem squares5 (r : Addr) (x : Arg F) (m : PMem F) : squares 5 r x m = op1 (Cref.sqN 5) r x m := squares_eq 4 r x m
theorem squares10 (r : Addr) (x : Arg F) (m : PMem F) : squares 10 r x m = op1 (Cref.sqN 10) r x m := squares_eq 9 r x m
theorem squares20 (r : Addr) (x : Arg F) (m : PMem F) : squares 20 r x m = op1 (Cref.sqN 20) r x m := squares_eq 19 r x m
theorem squares50 (r : Addr) (x : Arg F) (m : PMem F) : squares 50 r x m = op1 (Cref.sqN 50) r x m := squares_eq 49 r x m
theorem squares100 (r : Addr) (x : Arg F) (m : PMem F) : squares 100 r x m = op1 (Cref.sqN 100) r x m := squares_eq 99 r x m

theorem iseq_eq (x y : Arg F) (m : PMem F) : iseq x y m = ((m.decl 0 1).ld x).bind fun X => ((m.decl 0 1).ld y).bind fun Y =>
    some (Cref.iseq X Y, (m.decl 0 1).upd (lc 0) (O.sub X Y)) := by
  simp only [iseq, sub, op2, iszero, Option.bind_eq_bind]
  cases (m.decl 0 1).ld x with
  | none => rfl
  | some X =>
    cases (m.decl 0 1).ld y with
    | none => rfl
    | some Y =>
      simp only [Option.bind_some, ld_adr, upd_at, if_true]
      rfl

/-! ## Running a function -/

/-- The run ends, in a state with the property. -/
def Wp {α : Type} (o : Option α) (Q : α → Prop) : Prop := ∃ a, o = some a ∧ Q a

/-- The name of a value. -/
def Def (v e : F) : Prop := v = e

theorem wp_some {α : Type} {a : α} {Q : α → Prop} (h : Q a) : Wp (some a) Q := ⟨a, rfl, h⟩

theorem wp_pure {α β : Type} {a : α} {k : α → Option β} {Q : β → Prop} (h : Wp (k a) Q) : Wp ((some a).bind k) Q := h

theorem wp_op1 {β : Type} {f : F → F} {r : Addr} {x : Arg F} {m : PMem F} {X : F} {k : PMem F → Option β} {Q : β → Prop}
    (hx : m.ld x = some X) (h : ∀ v, Def v (f X) → Wp (k (m.upd r v)) Q) : Wp ((op1 f r x m).bind k) Q := by
  unfold op1
  rw [hx]
  exact h _ rfl

theorem wp_op2 {β : Type} {f : F → F → F} {r : Addr} {x y : Arg F} {m : PMem F} {X Y : F} {k : PMem F → Option β} {Q : β → Prop}
    (hx : m.ld x = some X) (hy : m.ld y = some Y) (h : ∀ v, Def v (f X Y) → Wp (k (m.upd r v)) Q) : Wp ((op2 f r x y m).bind k) Q := by
  unfold op2
  rw [hx, hy]
  exact h _ rfl

theorem wp_copy {β : Type} {r : Addr} {x : Arg F} {m : PMem F} {X : F} {k : PMem F → Option β} {Q : β → Prop}
    (hx : m.ld x = some X) (h : Wp (k (m.upd r X)) Q) : Wp ((copy r x m).bind k) Q := by
  unfold copy
  rw [hx]
  exact h

theorem wp_cmov {β : Type} {r : Addr} {x : Arg F} {b : UInt8} {m : PMem F} {R X : F} {k : PMem F → Option β} {Q : β → Prop}
    (hr : m.ld (.adr r) = some R) (hx : m.ld x = some X) (h : ∀ v, Def v (O.cmov R X b) → Wp (k (m.upd r v)) Q) :
    Wp ((cmov r x b m).bind k) Q := by
  unfold cmov
  rw [hr, hx]
  exact h _ rfl

theorem wp_upd {β : Type} {r : Addr} {m : PMem F} {V : F} {k : PMem F → Option β} {Q : β → Prop}
    (h : ∀ v, Def v V → Wp (k (m.upd r v)) Q) : Wp ((some (m.upd r V)).bind k) Q := h _ rfl

theorem wp_isneg {β : Type} {x : Arg F} {m : PMem F} {X : F} {k : Int32 → Option β} {Q : β → Prop}
    (hx : m.ld x = some X) (h : Wp (k (Cref.isnegative X)) Q) : Wp ((isnegative x m).bind k) Q := by
  unfold isnegative
  rw [hx]
  exact h

theorem wp_iszero {β : Type} {x : Arg F} {m : PMem F} {X : F} {k : Int32 → Option β} {Q : β → Prop}
    (hx : m.ld x = some X) (h : Wp (k (Cref.iszero X)) Q) : Wp ((iszero x m).bind k) Q := by
  unfold iszero
  rw [hx]
  exact h

theorem wp_iseq {β : Type} {x y : Arg F} {m : PMem F} {X Y : F} {k : Int32 × PMem F → Option β} {Q : β → Prop}
    (hx : (m.decl 0 1).ld x = some X) (hy : (m.decl 0 1).ld y = some Y)
    (h : ∀ v, Wp (k (Cref.iseq X Y, (m.decl 0 1).upd (lc 0) v)) Q) : Wp ((iseq x y m).bind k) Q := by
  rw [iseq_eq, hx, hy]
  exact h _

/-- A function that writes `w` and, besides, only local variables below `hi`. -/
theorem wp_call {β : Type} {hi : Nat} {f : Option (PMem F)} {w : PMem F} {k : PMem F → Option β} {Q : β → Prop}
    (hf : Wp f (Out hi w)) (h : ∀ M : PMem F, (∀ p, Hi hi p → ∀ o, M ⟨p, o⟩ = w ⟨p, o⟩) → Wp (k M) Q) : Wp (f.bind k) Q := by
  obtain ⟨M, rfl, hM⟩ := hf
  exact h M hM

/-- The same with a result. -/
theorem wp_callI {β : Type} {hi : Nat} {f : Option (Int32 × PMem F)} {i : Int32} {w : PMem F} {k : Int32 × PMem F → Option β} {Q : β → Prop}
    (hf : Wp f (fun a => a.1 = i ∧ Out hi w a.2)) (h : ∀ M : PMem F, (∀ p, Hi hi p → ∀ o, M ⟨p, o⟩ = w ⟨p, o⟩) → Wp (k (i, M)) Q) :
    Wp (f.bind k) Q := by
  obtain ⟨⟨_, M⟩, rfl, rfl, hM⟩ := hf
  exact h M hM

theorem wp_assoc {α β γ : Type} {a : Option α} {k : α → Option β} {k' : β → Option γ} {Q : γ → Prop} (h : Wp (a.bind fun x => (k x).bind k') Q) :
    Wp ((a.bind k).bind k') Q := by
  rw [Option.bind_assoc]
  exact h

theorem wp_last {α : Type} {f : Option α} {Q : α → Prop} (h : Wp (f.bind some) Q) : Wp f Q := by
  cases f with
  | none => obtain ⟨_, h, _⟩ := h; cases h
  | some a => exact h

theorem wp_iteOp2 {β γ : Type} {c : Prop} [Decidable c] {f : F → F → F} {r : Addr} {x y : Arg F} {m : PMem F} {R X Y : F} {k : PMem F → Option β}
    {k' : β → Option γ} {Q : γ → Prop}
    (hr : m.ld (.adr r) = some R) (hx : m.ld x = some X) (hy : m.ld y = some Y) (h : ∀ v, Def v (if c then f X Y else R) → Wp ((k (m.upd r v)).bind k') Q) :
    Wp ((if c then (op2 f r x y m).bind k else (some m).bind k).bind k') Q := by
  have h := h _ rfl
  split at h
  · rw [if_pos ‹_›]
    rw [Option.bind_assoc]
    exact wp_op2 hx hy (fun v hv => by rw [show v = _ from hv]; exact h)
  · rw [if_neg ‹_›]
    have e : m.upd r R = m := by
      funext b
      rw [upd_at]
      split
      · rename_i e
        rw [e]
        exact hr.symm
      · rfl
    rw [e] at h
    exact h

theorem wp_pack {β : Type} {x : Arg F} {m : PMem F} {X : F} {k : Bytes 32 → Option β} {Q : β → Prop}
    (hx : m.ld x = some X) (h : Wp (k (O.pack X)) Q) : Wp ((pack x m).bind k) Q := by
  unfold pack
  rw [hx]
  exact h

attribute [local irreducible] op1 op2 copy cmov isnegative pack iszero iseq PMem.upd PMem.decl PMem.ld Wp Def

/-- Bring the body of a function into the form the rules expect. -/
macro "pbody" : tactic =>
  `(tactic| dsimp only [mul, add, sub, neg, square, squareDouble, double, setone, setzero, unpack, isone, Option.bind_eq_bind])

/-- Read a cell. -/
macro "prd" : tactic =>
  `(tactic| (simp only [ld_adr, ld_con, upd_at, decl_loc, decl_hi, hi_loc, hi_fe, hi_pt, Addr.mk.injEq, Obj.loc.injEq, Nat.reduceEqDiff, Nat.reduceLT, Nat.reduceLeDiff,
    and_true, and_false, true_and, false_and, and_self, if_true, if_false, reduceCtorEq, OfNat.ofNat_ne_zero, zero_ne_one, one_ne_zero, OfNat.zero_ne_ofNat, OfNat.one_ne_ofNat,
    OfNat.ofNat_ne_one, eq_self, setPt, Option.some.injEq, ite_self, *] <;> rfl))

/-- Run a statement. -/
macro "pstp1" : tactic =>
  `(tactic| first
    | (with_reducible apply wp_op2; prd; prd; intro _ _)
    | (with_reducible apply wp_op1; prd; intro _ _)
    | (with_reducible apply wp_copy; prd)
    | (with_reducible apply wp_cmov; prd; prd; intro _ _)
    | (with_reducible apply wp_iteOp2; prd; prd; prd; intro _ _)
    | (with_reducible apply wp_isneg; prd)
    | (with_reducible apply wp_iszero; prd)
    | (with_reducible apply wp_pack; prd)
    | (with_reducible apply wp_iseq; prd; prd; intro _; dsimp only))

/-- Run the next statement. -/
macro "pstp" : tactic => `(tactic| first | (with_reducible apply wp_upd; intro _ _) | with_reducible apply wp_pure | with_reducible apply wp_assoc | pstp1 | (with_reducible apply wp_last; pstp1))

theorem ite_dup {α : Type} (c : Prop) [Decidable c] (a b d : α) : (if c then a else if c then b else d) = if c then a else d := by
  split <;> rfl

/-- Compare the memory at the end with the one that is claimed, and then the values. -/
macro "pfin" h:ident : tactic =>
  `(tactic| (
    intro q hq o
    have hqq := hi_eq hq
    have hqm := hq.all
    simp only [upd_at, Addr.mk.injEq, Obj.loc.injEq, Nat.reduceEqDiff, Nat.reduceLT, Nat.reduceLeDiff, decl_hi,
      and_true, and_false, true_and, false_and, and_self, if_true, if_false, reduceCtorEq, OfNat.ofNat_ne_zero, zero_ne_one, one_ne_zero, OfNat.zero_ne_ofNat,
      OfNat.one_ne_ofNat, OfNat.ofNat_ne_one, setPt, ite_dup, hqq, hqm, *]
    simp only [Def] at *
    subst $h
    subst_vars
    rfl))

/-- The same for a function that writes a coordinate several times. -/
macro "pfinS" h:ident : tactic =>
  `(tactic| (
    intro q hq o
    have hqq := hi_eq hq
    have hqm := hq.all
    simp only [upd_at, Addr.mk.injEq, Obj.loc.injEq, Nat.reduceEqDiff, Nat.reduceLT, Nat.reduceLeDiff, decl_hi,
      and_true, and_false, true_and, false_and, and_self, if_true, if_false, reduceCtorEq, OfNat.ofNat_ne_zero, zero_ne_one, one_ne_zero, OfNat.zero_ne_ofNat,
      OfNat.one_ne_ofNat, OfNat.ofNat_ne_one, setPt, ite_dup, hqq, hqm, *]
    simp only [Def] at *
    subst $h
    subst_vars
    split_ifs <;> rfl))

/-- The same for a function with a result. -/
macro "pfinI" h:ident : tactic =>
  `(tactic| (
    refine ⟨?_, ?_⟩
    · simp only [Def] at *
      subst $h
      subst_vars
      rfl
    · pfin $h))

theorem pow2523_wp (r : Addr) (p : Obj) (o : Nat) (m : PMem F) (X : F) (hx : m ⟨p, o⟩ = some X) (h : Hi 8 p) (V : F) (hV : V = Cref.pow2523 X) :
    Wp (pow2523 r ⟨p, o⟩ m) (Out 8 (m.upd r V)) := by
  have hxx := hi_eq h
  have hxm := h.all
  have hxy := hi_eq' h
  unfold pow2523
  pbody
  simp only [squares1, squares2, squares5, squares10, squares20, squares50, squares100]
  repeat pstp
  apply wp_some
  pfin hV

theorem invert_wp (r : Addr) (p : Obj) (o : Nat) (m : PMem F) (X : F) (hx : m ⟨p, o⟩ = some X) (h : Hi 5 p) (V : F) (hV : V = Cref.invert X) :
    Wp (invert r ⟨p, o⟩ m) (Out 5 (m.upd r V)) := by
  have hxx := hi_eq h
  have hxm := h.all
  have hxy := hi_eq' h
  unfold invert
  pbody
  simp only [squares1, squares2, squares5, squares10, squares20, squares50, squares100]
  repeat pstp
  apply wp_some
  pfin hV

theorem invsqrt_wp (r : Addr) (p : Obj) (o : Nat) (m : PMem F) (X : F) (hx : m ⟨p, o⟩ = some X) (h : Hi 16 p) (V : F) (hV : V = Cref.invsqrt X) :
    Wp (invsqrt r ⟨p, o⟩ m) (Out 16 (m.upd r V)) := by
  have hxx := hi_eq h
  have hxm := h.all
  have hxy := hi_eq' h
  unfold invsqrt
  pbody
  repeat pstp
  apply wp_call (pow2523_wp _ _ _ _ _ (by prd) (hi_loc _ _ (by omega)) _ rfl)
  intro M hM
  repeat pstp
  apply wp_some
  pfin hV

theorem sqrt_wp (r : Addr) (p : Obj) (o : Nat) (m : PMem F) (X : F) (hx : m ⟨p, o⟩ = some X) (h : Hi 17 p) (V : F) (hV : V = Cref.fsqrt X) :
    Wp (sqrt r ⟨p, o⟩ m) (Out 17 (m.upd r V)) := by
  have hxx := hi_eq h
  have hxm := h.all
  have hxy := hi_eq' h
  unfold sqrt
  pbody
  apply wp_call (invsqrt_wp _ _ _ _ X (by prd) (hxm _ (by omega)) _ rfl)
  intro M hM
  repeat pstp
  apply wp_some
  pfin hV

theorem invsqrti_wp (r : Addr) (p : Obj) (o : Nat) (m : PMem F) (X : F) (hx : m ⟨p, o⟩ = some X) (h : Hi 27 p) (V : F) (i : Int32)
    (hV : V = (Cref.invsqrti X).1) (hi : i = (Cref.invsqrti X).2) :
    Wp (invsqrti r ⟨p, o⟩ m) (fun a => a.1 = i ∧ Out 27 (m.upd r V) a.2) := by
  have hxx := hi_eq h
  have hxm := h.all
  have hxy := hi_eq' h
  unfold invsqrti
  pbody
  repeat pstp
  apply wp_call (pow2523_wp _ _ _ _ _ (by prd) (hi_loc _ _ (by omega)) _ rfl)
  intro M hM
  repeat pstp
  apply wp_some
  subst hi
  pfinI hV

theorem abs_wp (r : Addr) (p : Obj) (o : Nat) (m : PMem F) (X : F) (hx : m ⟨p, o⟩ = some X) (h : Hi 28 p) (hr : Hi 28 r.obj) (V : F) (hV : V = Cref.fabs X) :
    Wp (CrefPtr.abs r ⟨p, o⟩ m) (Out 28 (m.upd r V)) := by
  obtain ⟨q, o'⟩ := r
  dsimp only at hr
  have hxx := hi_eq h
  have hxm := h.all
  have hxy := hi_eq' h
  have hrr := hi_eq hr
  have hrm := hr.all
  have hry := hi_eq' hr
  unfold CrefPtr.abs
  pbody
  repeat pstp
  apply wp_some
  pfin hV

theorem sqrti_wp (r : Addr) (p : Obj) (o : Nat) (m : PMem F) (X : F) (hx : m ⟨p, o⟩ = some X) (h : Hi 30 p) (V : F) (i : Int32)
    (hV : V = (Cref.fsqrti X).1) (hi : i = (Cref.fsqrti X).2) :
    Wp (sqrti r ⟨p, o⟩ m) (fun a => a.1 = i ∧ Out 30 (m.upd r V) a.2) := by
  have hxx := hi_eq h
  have hxm := h.all
  have hxy := hi_eq' h
  unfold sqrti
  pbody
  apply wp_callI (invsqrti_wp _ _ _ _ X (by prd) (hxm _ (by omega)) _ _ rfl rfl)
  intro M hM
  dsimp only
  repeat pstp
  apply wp_some
  subst hi
  pfinI hV

end

end Ristretto.Proofs.CrefPtr
