import Verif.Proofs.Conc

/-!
# The programs of `Verif.Model.Conc`, run alone

Each of them does what `exec` (Verif.Model.Machine) says.
-/

namespace Ristretto.Proofs.Conc
open Model Model.Conc FieldOps
set_option autoImplicit false
set_option linter.unusedSectionVars false

/-- The words of a field element determine it, and `BytesInto` on the words of a field element does
what the functional model says. -/
class LawfulWords (F : Type) [FieldOps F] [Words F] : Prop where
  len : ∀ x : F, (Words.words x).length = Words.num F
  of_words : ∀ x : F, Words.ofWords (Words.words x) = x
  bytesP : ∀ m : Nat → Words.W F, ∃ m' : Nat → Words.W F,
    (Words.bytesP (F := F)).run m =
      some (bytes (Words.ofWords ((List.range (Words.num F)).map m) : F), m') ∧
    (Words.ofWords ((List.range (Words.num F)).map m') : F) =
      touch (Words.ofWords ((List.range (Words.num F)).map m))

variable {F : Type} [FieldOps F] [Words F]

/-- On every memory that holds the contents `v`, the program has the outcome `r`: new contents and
result, or `none` for a panic. -/
def SpecAt {α : Type} (v : Mem F) (P : M F α) (r : Option (Mem F × α)) : Prop :=
  ∀ m, view m = v → (P.run m).map (fun x => (view x.2, x.1)) = r

section
variable {α β : Type}

theorem SpecAt.congr {v : Mem F} {P : M F α} {r r' : Option (Mem F × α)} (h : SpecAt v P r) (e : r = r') :
    SpecAt v P r' := e ▸ h

theorem SpecAt.ret (v : Mem F) (a : α) : SpecAt v (.ret a) (some (v, a)) := by
  intro m hm; simp [Prog.run, hm]

theorem SpecAt.pure (v : Mem F) (a : α) : SpecAt v (pure a : M F α) (some (v, a)) := SpecAt.ret v a

theorem SpecAt.fail (v : Mem F) : SpecAt v (.fail : M F α) none := by
  intro m _; rfl

theorem SpecAt.bind {v v' : Mem F} {P : M F α} {K : α → M F β} {a : α} {r : Option (Mem F × β)}
    (hP : SpecAt v P (some (v', a))) (hK : SpecAt v' (K a) r) : SpecAt v (P >>= K) r := by
  intro m hm
  have h := hP m hm
  rw [bind_eq, run_bind]
  cases hr : P.run m with
  | none => rw [hr] at h; cases h
  | some x =>
    rw [hr] at h
    simp only [Option.map_some, Option.some.injEq, Prod.mk.injEq] at h
    rw [Option.bind_some, h.2]
    exact hK x.2 h.1

theorem SpecAt.bind_none {v : Mem F} {P : M F α} {K : α → M F β} (hP : SpecAt v P none) :
    SpecAt v (P >>= K) none := by
  intro m hm
  have h := hP m hm
  rw [bind_eq, run_bind]
  cases hr : P.run m with
  | none => rfl
  | some x => rw [hr] at h; cases h

theorem SpecAt.ofOption (v : Mem F) (o : Option α) : SpecAt v (ofOption o) (o.map fun a => (v, a)) := by
  cases o
  · exact .fail v
  · exact .ret v _

/-- The general form. -/
theorem SpecAt.bind' {v : Mem F} {P : M F α} {K : α → M F β} {o : Option (Mem F × α)}
    {h : Mem F × α → Option (Mem F × β)}
    (hP : SpecAt v P o) (hK : ∀ x, o = some x → SpecAt x.1 (K x.2) (h x)) :
    SpecAt v (P >>= K) (o.bind h) := by
  cases o with
  | none => exact hP.bind_none
  | some x => exact hP.bind (hK x rfl)

end

/-! ## Loads and stores -/

theorem run_ldWs_pt (m : Memory (Val F)) (p fld : Nat) : ∀ n i,
    (ldWs (fun i => .ld (.pt p fld i) fun w => .ret w) i n : M F _).run m =
      some ((List.range' i n).map fun k => m (.pt p fld k), m)
  | 0, i => rfl
  | n + 1, i => by
    unfold ldWs
    rw [bind_eq, run_bind]
    simp only [Prog.run, Option.bind_some]
    rw [bind_eq, run_bind, run_ldWs_pt m p fld n (i + 1)]
    rfl

theorem run_ldWs_tab (m : Memory (Val F)) (t r j fld : Nat) : ∀ n i,
    (ldWs (fun i => .ld (.tab t r j fld i) fun w => .ret w) i n : M F _).run m =
      some ((List.range' i n).map fun k => m (.tab t r j fld k), m)
  | 0, i => rfl
  | n + 1, i => by
    unfold ldWs
    rw [bind_eq, run_bind]
    simp only [Prog.run, Option.bind_some]
    rw [bind_eq, run_bind, run_ldWs_tab m t r j fld n (i + 1)]
    rfl

theorem run_ldFe (m : Memory (Val F)) (p fld : Nat) :
    (ldFe p fld : M F F).run m = some (feAt m p fld, m) := by
  unfold ldFe
  rw [bind_eq, run_bind, run_ldWs_pt]
  unfold feAt
  rw [List.range_eq_range']; rfl

theorem run_ldTab (m : Memory (Val F)) (t r j fld : Nat) :
    (ldTab t r j fld : M F F).run m = some (tabAt m t r j fld, m) := by
  unfold ldTab
  rw [bind_eq, run_bind, run_ldWs_tab]
  unfold tabAt
  rw [List.range_eq_range']; rfl

theorem run_stWs_pt (p fld : Nat) : ∀ (ws : List (Words.W F)) (i : Nat) (m : Memory (Val F)), ∃ m',
    (stWs (fun i w => .st (.pt p fld i) w (.ret ())) i ws : M F Unit).run m = some ((), m') ∧
    ((List.range' i ws.length).map fun k => m' (.pt p fld k)) = ws ∧
    ∀ l, (∀ k, i ≤ k → l ≠ .pt p fld k) → m' l = m l
  | [], i, m => ⟨m, rfl, rfl, fun _ _ => rfl⟩
  | w :: ws, i, m => by
    obtain ⟨m', h1, h2, h3⟩ := run_stWs_pt p fld ws (i + 1) (Function.update m (.pt p fld i) w)
    refine ⟨m', ?_, ?_, fun l hl => ?_⟩
    · unfold stWs
      rw [bind_eq, run_bind]
      exact h1
    · rw [List.length_cons, List.range'_succ]
      refine congrArg₂ List.cons ?_ h2
      exact (h3 (.pt p fld i) (fun k hk e => by injection e; omega)).trans
        (Function.update_self (β := Val F) (Loc.pt p fld i) w m)
    · rw [h3 l fun k hk => hl k (by omega)]
      exact Function.update_of_ne (hl i (Nat.le_refl i)) _ _

theorem run_stWs_tab (t r j fld : Nat) : ∀ (ws : List (Words.W F)) (i : Nat) (m : Memory (Val F)), ∃ m',
    (stWs (fun i w => .st (.tab t r j fld i) w (.ret ())) i ws : M F Unit).run m = some ((), m') ∧
    ((List.range' i ws.length).map fun k => m' (.tab t r j fld k)) = ws ∧
    ∀ l, (∀ k, i ≤ k → l ≠ .tab t r j fld k) → m' l = m l
  | [], i, m => ⟨m, rfl, rfl, fun _ _ => rfl⟩
  | w :: ws, i, m => by
    obtain ⟨m', h1, h2, h3⟩ := run_stWs_tab t r j fld ws (i + 1) (Function.update m (.tab t r j fld i) w)
    refine ⟨m', ?_, ?_, fun l hl => ?_⟩
    · unfold stWs
      rw [bind_eq, run_bind]
      exact h1
    · rw [List.length_cons, List.range'_succ]
      refine congrArg₂ List.cons ?_ h2
      exact (h3 (.tab t r j fld i) (fun k hk e => by injection e; omega)).trans
        (Function.update_self (β := Val F) (Loc.tab t r j fld i) w m)
    · rw [h3 l fun k hk => hl k (by omega)]
      exact Function.update_of_ne (hl i (Nat.le_refl i)) _ _

/-- A point with one coordinate replaced. -/
def setF (x : ExtPt F) (fld : Nat) (v : F) : ExtPt F :=
  match fld with
  | 0 => ⟨v, x.Y, x.Z, x.T⟩
  | 1 => ⟨x.X, v, x.Z, x.T⟩
  | 2 => ⟨x.X, x.Y, v, x.T⟩
  | _ => ⟨x.X, x.Y, x.Z, v⟩

theorem Mem.ext' {m m' : Mem F} (h1 : m.pts = m'.pts) (h2 : m.scs = m'.scs) (h3 : m.tabs = m'.tabs) :
    m = m' := by cases m; cases m'; cases h1; cases h2; cases h3; rfl

theorem setPt_setPt (v : Mem F) (p : Nat) (x y : ExtPt F) : (v.setPt p x).setPt p y = v.setPt p y := by
  refine Mem.ext' ?_ rfl rfl
  funext k; simp only [Mem.setPt]; split <;> rfl

theorem pts_setPt (v : Mem F) (p : Nat) (x : ExtPt F) : (v.setPt p x).pts p = x := if_pos rfl

theorem tabs_setPt (v : Mem F) (p : Nat) (x : ExtPt F) : (v.setPt p x).tabs = v.tabs := rfl
theorem scs_setPt (v : Mem F) (p : Nat) (x : ExtPt F) : (v.setPt p x).scs = v.scs := rfl

theorem pts_setPt' (v : Mem F) (p q : Nat) (x : ExtPt F) :
    (v.setPt p x).pts q = if q = p then x else v.pts q := rfl

theorem setPt_self (v : Mem F) (p : Nat) : v.setPt p (v.pts p) = v := by
  refine Mem.ext' ?_ rfl rfl
  funext k; simp only [Mem.setPt]; split
  · subst_vars; rfl
  · rfl

/-- What one field element holds after a store. -/
theorem view_pt (m m' : Memory (Val F)) (p fld : Nat) (hf : fld < 4) (x : F) (hx : feAt m' p fld = x)
    (h : ∀ l, (∀ k, l ≠ .pt p fld k) → m' l = m l) :
    view m' = (view m).setPt p (setF ((view m).pts p) fld x) := by
  have hfe : ∀ q g, (q ≠ p ∨ g ≠ fld) → feAt m' q g = feAt m q g := by
    intro q g hne
    unfold feAt
    congr 1
    refine List.map_congr_left fun k _ => ?_
    apply h
    rintro k' e
    injection e with e1 e2
    rcases hne with h | h
    · exact h e1
    · exact h e2
  have hsc : ∀ s i, m' (.sc s i) = m (.sc s i) := fun s i => h _ fun k e => by cases e
  have htab : ∀ t r j g, tabAt m' t r j g = tabAt m t r j g := by
    intro t r j g
    unfold tabAt
    congr 1
    refine List.map_congr_left fun k _ => ?_
    exact h _ fun k e => by cases e
  refine Mem.ext' ?_ ?_ ?_
  · funext q
    rw [pts_setPt']
    by_cases hq : q = p
    · subst hq
      simp only [view, if_true]
      have h4 : fld = 0 ∨ fld = 1 ∨ fld = 2 ∨ fld = 3 := by omega
      rcases h4 with rfl | rfl | rfl | rfl <;> simp only [setF, hx] <;>
        simp [hfe]
    · simp only [view, hq, if_false, hfe _ _ (.inl hq)]
  · funext s
    simp only [view, Mem.setPt, hsc]
  · funext t
    simp only [view, Mem.setPt, htab]

variable [LawfulWords F]

theorem spec_stFe (v : Mem F) (p fld : Nat) (hf : fld < 4) (x : F) :
    SpecAt v (stFe p fld x) (some (v.setPt p (setF (v.pts p) fld x), ())) := by
  intro m hm
  obtain ⟨m', h1, h2, h3⟩ := run_stWs_pt p fld (Words.words x) 0 m
  unfold stFe
  rw [h1, Option.map_some, ← hm]
  rw [LawfulWords.len, ← List.range_eq_range'] at h2
  have hx : feAt m' p fld = x := by
    unfold feAt; exact (congrArg Words.ofWords h2).trans (LawfulWords.of_words x)
  rw [view_pt m m' p fld hf x hx fun l hl => h3 l fun k _ => hl k]

theorem fldOf_view (m : Memory (Val F)) (p fld : Nat) (hf : fld < 4) :
    fldOf ((view m).pts p) fld = feAt m p fld := by
  have h4 : fld = 0 ∨ fld = 1 ∨ fld = 2 ∨ fld = 3 := by omega
  rcases h4 with rfl | rfl | rfl | rfl <;> rfl

theorem spec_ldFe (v : Mem F) (p fld : Nat) (hf : fld < 4) :
    SpecAt v (ldFe p fld) (some (v, fldOf (v.pts p) fld)) := by
  intro m hm
  rw [run_ldFe, ← hm, fldOf_view m p fld hf]; rfl

theorem run_atFe {α : Type} (p fld : Nat) (P : Prog (fun _ : Nat => Words.W F) α) :
    ∀ (m : Memory (Val F)) (w : Nat → Words.W F), (∀ k, m (.pt p fld k) = w k) →
    match P.run w with
    | none => (atFe p fld P : M F α).run m = none
    | some (a, w') => ∃ m', (atFe p fld P : M F α).run m = some (a, m') ∧
        (∀ k, m' (.pt p fld k) = w' k) ∧ ∀ l, (∀ k, l ≠ .pt p fld k) → m' l = m l := by
  induction P with
  | ret a => intro m w h; exact ⟨m, rfl, h, fun _ _ => rfl⟩
  | fail => intro m w h; rfl
  | ld i k ih =>
    intro m w h
    have := ih (w i) m w h
    simp only [Prog.run, atFe]
    rw [h i]; exact this
  | st i x k ih =>
    intro m w h
    have := ih (Function.update m (.pt p fld i) x) (Function.update w i x) ?_
    · simp only [Prog.run, atFe]
      revert this
      cases k.run (Function.update w i x) with
      | none => exact id
      | some r =>
        rintro ⟨m', h1, h2, h3⟩
        exact ⟨m', h1, h2, fun l hl => (h3 l hl).trans (Function.update_of_ne (hl i) _ _)⟩
    · intro j
      by_cases e : j = i
      · subst e
        exact (Function.update_self (β := Val F) (Loc.pt p fld j) x m).trans (Function.update_self j x w).symm
      · rw [Function.update_of_ne e, Function.update_of_ne (by intro h; injection h; contradiction)]
        exact h j

theorem spec_bytes (v : Mem F) (p fld : Nat) (hf : fld < 4) :
    SpecAt v (atFe p fld (Words.bytesP (F := F)))
      (some (v.setPt p (setF (v.pts p) fld (touch (fldOf (v.pts p) fld))), bytes (fldOf (v.pts p) fld))) := by
  intro m hm
  obtain ⟨w', h1, h2⟩ := LawfulWords.bytesP (F := F) (fun k => m (.pt p fld k))
  have := run_atFe p fld (Words.bytesP (F := F)) m (fun k => m (.pt p fld k)) (fun _ => rfl)
  rw [h1] at this
  obtain ⟨m', e1, e2, e3⟩ := this
  rw [e1, Option.map_some, ← hm]
  have hfe : feAt m p fld = fldOf ((view m).pts p) fld := (fldOf_view m p fld hf).symm
  have hx : feAt m' p fld = touch (fldOf ((view m).pts p) fld) := by
    rw [← hfe]
    unfold feAt
    rw [← h2]
    congr 1
    exact List.map_congr_left fun k _ => e2 k
  rw [view_pt m m' p fld hf _ hx e3]
  rw [← hfe]; rfl

theorem negOfBytes_bytes (x : F) : negOfBytes (bytes x) = isNegativeI x := rfl
theorem nonZeroOfBytes_bytes (x : F) : nonZeroOfBytes (bytes x) = isNonZeroI x := rfl

theorem spec_isNeg (v : Mem F) (p fld : Nat) (hf : fld < 4) :
    SpecAt v (isNegP p fld)
      (some (v.setPt p (setF (v.pts p) fld (touch (fldOf (v.pts p) fld))),
        isNegativeI (fldOf (v.pts p) fld))) :=
  (spec_bytes v p fld hf).bind (.pure _ _)

theorem spec_isNonZero (v : Mem F) (p fld : Nat) (hf : fld < 4) :
    SpecAt v (isNonZeroP p fld)
      (some (v.setPt p (setF (v.pts p) fld (touch (fldOf (v.pts p) fld))),
        isNonZeroI (fldOf (v.pts p) fld))) :=
  (spec_bytes v p fld hf).bind (.pure _ _)

/-! ## Points -/

/-- The reader delivers the coordinates of `x`. -/
def RdAt (v : Mem F) (r : Rd F) (x : ExtPt F) : Prop :=
  ∀ fld, fld < 4 → SpecAt v (r fld) (some (v, fldOf x fld))

theorem rd_var (v : Mem F) (q : Nat) : RdAt v (var q) (v.pts q) := fun fld hf => spec_ldFe v q fld hf
theorem rd_loc (v : Mem F) (x : ExtPt F) : RdAt v (loc x) x := fun _ _ => .ret _ _

section

theorem spec_addExtended {v : Mem F} {q r : Rd F} {x y : ExtPt F} (hq : RdAt v q x) (hr : RdAt v r y) :
    SpecAt v (addExtendedP q r) (some (v, ComplPt.addExtended x y)) := by
  unfold addExtendedP
  refine (hq 1 (by decide)).bind ?_
  refine (hq 0 (by decide)).bind ?_
  refine (hr 1 (by decide)).bind ?_
  refine (hr 0 (by decide)).bind ?_
  refine (hq 0 (by decide)).bind ?_
  refine (hq 1 (by decide)).bind ?_
  refine (hr 0 (by decide)).bind ?_
  refine (hr 1 (by decide)).bind ?_
  refine (hq 3 (by decide)).bind ?_
  refine (hr 3 (by decide)).bind ?_
  refine (hq 2 (by decide)).bind ?_
  refine (hr 2 (by decide)).bind ?_
  exact .pure _ _

theorem spec_subExtended {v : Mem F} {q r : Rd F} {x y : ExtPt F} (hq : RdAt v q x) (hr : RdAt v r y) :
    SpecAt v (subExtendedP q r) (some (v, ComplPt.subExtended x y)) := by
  unfold subExtendedP
  refine (hq 1 (by decide)).bind ?_
  refine (hq 0 (by decide)).bind ?_
  refine (hr 1 (by decide)).bind ?_
  refine (hr 0 (by decide)).bind ?_
  refine (hq 0 (by decide)).bind ?_
  refine (hq 1 (by decide)).bind ?_
  refine (hr 1 (by decide)).bind ?_
  refine (hr 0 (by decide)).bind ?_
  refine (hq 3 (by decide)).bind ?_
  refine (hr 3 (by decide)).bind ?_
  refine (hq 2 (by decide)).bind ?_
  refine (hr 2 (by decide)).bind ?_
  exact .pure _ _

theorem spec_doubleExtended {v : Mem F} {q : Rd F} {x : ExtPt F} (hq : RdAt v q x) :
    SpecAt v (doubleExtendedP q) (some (v, ComplPt.doubleExtended x)) := by
  unfold doubleExtendedP
  refine (hq 0 (by decide)).bind ?_
  refine (hq 1 (by decide)).bind ?_
  refine (hq 2 (by decide)).bind ?_
  refine (hq 0 (by decide)).bind ?_
  refine (hq 1 (by decide)).bind ?_
  exact .pure _ _

theorem spec_addExtendedNiels {v : Mem F} {q : Rd F} {x : ExtPt F} (hq : RdAt v q x) (y : NielsPt F) :
    SpecAt v (addExtendedNielsP q y) (some (v, ComplPt.addExtendedNiels x y)) := by
  unfold addExtendedNielsP
  refine (hq 1 (by decide)).bind ?_
  refine (hq 0 (by decide)).bind ?_
  refine (hq 1 (by decide)).bind ?_
  refine (hq 0 (by decide)).bind ?_
  refine (hq 3 (by decide)).bind ?_
  refine (hq 2 (by decide)).bind ?_
  refine (hq 2 (by decide)).bind ?_
  exact .pure _ _

theorem spec_get {v : Mem F} {q : Rd F} {x : ExtPt F} (hq : RdAt v q x) :
    SpecAt v (getP q) (some (v, x)) := by
  unfold getP
  refine (hq 0 (by decide)).bind ?_
  refine (hq 1 (by decide)).bind ?_
  refine (hq 2 (by decide)).bind ?_
  refine (hq 3 (by decide)).bind ?_
  exact .pure _ _

theorem spec_add {v : Mem F} {q r : Rd F} {x y : ExtPt F} (hq : RdAt v q x) (hr : RdAt v r y) :
    SpecAt v (addP q r) (some (v, ExtPt.add x y)) := (spec_addExtended hq hr).bind (.pure _ _)

theorem spec_equalsI {v : Mem F} {q r : Rd F} {x y : ExtPt F} (hq : RdAt v q x) (hr : RdAt v r y) :
    SpecAt v (equalsIP q r) (some (v, ExtPt.ristrettoEqualsI x y)) := by
  unfold equalsIP
  refine (hq 0 (by decide)).bind ?_
  refine (hr 1 (by decide)).bind ?_
  refine (hr 0 (by decide)).bind ?_
  refine (hq 1 (by decide)).bind ?_
  refine (hq 0 (by decide)).bind ?_
  refine (hr 0 (by decide)).bind ?_
  refine (hq 1 (by decide)).bind ?_
  refine (hr 1 (by decide)).bind ?_
  exact .pure _ _

theorem spec_ristretto {v : Mem F} {q : Rd F} {x : ExtPt F} (hq : RdAt v q x) :
    SpecAt v (ristrettoP q) (some (v, x.ristretto)) := by
  unfold ristrettoP
  refine (hq 2 (by decide)).bind ?_
  refine (hq 1 (by decide)).bind ?_
  refine (hq 2 (by decide)).bind ?_
  refine (hq 1 (by decide)).bind ?_
  refine (hq 0 (by decide)).bind ?_
  refine (hq 1 (by decide)).bind ?_
  refine (hq 3 (by decide)).bind ?_
  refine (hq 3 (by decide)).bind ?_
  refine (hq 1 (by decide)).bind ?_
  refine (hq 0 (by decide)).bind ?_
  refine (hq 0 (by decide)).bind ?_
  refine (hq 1 (by decide)).bind ?_
  refine (hq 2 (by decide)).bind ?_
  exact .pure _ _

end

/-- Four stores. -/
theorem spec_store4 (v : Mem F) (p : Nat) (a b c d : F) :
    SpecAt v (do stFe p 0 a; stFe p 1 b; stFe p 2 c; stFe p 3 d) (some (v.setPt p ⟨a, b, c, d⟩, ())) := by
  refine .congr ((spec_stFe _ p 0 (by decide) _).bind ((spec_stFe _ p 1 (by decide) _).bind
    ((spec_stFe _ p 2 (by decide) _).bind (spec_stFe _ p 3 (by decide) _)))) ?_
  simp only [setPt_setPt, pts_setPt, setF]

theorem spec_zero (v : Mem F) (p : Nat) : SpecAt v (zeroP p) (some (v.setPt p ExtPt.zero, ())) :=
  spec_store4 v p _ _ _ _

theorem spec_setCompleted (v : Mem F) (p : Nat) (c : ComplPt F) :
    SpecAt v (setCompletedP p c) (some (v.setPt p c.toExtended, ())) := spec_store4 v p _ _ _ _

/-- A coordinate other than the one stored. -/
theorem fldOf_set (v : Mem F) (p q fld fld' : Nat) (hf : fld < 4) (hf' : fld' < 4) (hne : fld' ≠ fld) (x : F) :
    fldOf ((v.setPt p (setF (v.pts p) fld x)).pts q) fld' = fldOf (v.pts q) fld' := by
  rw [pts_setPt']
  split
  · subst_vars
    have h4 : fld = 0 ∨ fld = 1 ∨ fld = 2 ∨ fld = 3 := by omega
    have h4' : fld' = 0 ∨ fld' = 1 ∨ fld' = 2 ∨ fld' = 3 := by omega
    rcases h4 with rfl | rfl | rfl | rfl <;> rcases h4' with rfl | rfl | rfl | rfl <;>
      first | rfl | exact absurd rfl hne
  · rfl

theorem spec_ldFe_set (v : Mem F) (p q fld fld' : Nat) (hf : fld < 4) (hf' : fld' < 4) (hne : fld' ≠ fld)
    (x : F) (w : F) (h : fldOf (v.pts q) fld' = w) :
    fldOf ((v.setPt p (setF (v.pts p) fld x)).pts q) fld' = w := (fldOf_set v p q fld fld' hf hf' hne x).trans h

theorem spec_set_var (v : Mem F) (p q : Nat) :
    SpecAt v (setP p (var q)) (some (v.setPt p (v.pts q), ())) := by
  unfold setP
  refine .congr ((rd_var _ q 0 (by decide)).bind ((spec_stFe _ p 0 (by decide) _).bind
    ((rd_var _ q 1 (by decide)).bind ((spec_stFe _ p 1 (by decide) _).bind
    ((rd_var _ q 2 (by decide)).bind ((spec_stFe _ p 2 (by decide) _).bind
    ((rd_var _ q 3 (by decide)).bind (spec_stFe _ p 3 (by decide) _)))))))) ?_
  rw [fldOf_set _ p q 2 3 (by decide) (by decide) (by decide), fldOf_set _ p q 1 3 (by decide) (by decide) (by decide),
    fldOf_set _ p q 0 3 (by decide) (by decide) (by decide), fldOf_set _ p q 1 2 (by decide) (by decide) (by decide),
    fldOf_set _ p q 0 2 (by decide) (by decide) (by decide), fldOf_set _ p q 0 1 (by decide) (by decide) (by decide)]
  simp only [setPt_setPt, pts_setPt, setF]
  rfl

theorem spec_set_loc (v : Mem F) (p : Nat) (x : ExtPt F) :
    SpecAt v (setP p (loc x)) (some (v.setPt p x, ())) := by
  unfold setP
  refine .congr ((rd_loc _ x 0 (by decide)).bind ((spec_stFe _ p 0 (by decide) _).bind
    ((rd_loc _ x 1 (by decide)).bind ((spec_stFe _ p 1 (by decide) _).bind
    ((rd_loc _ x 2 (by decide)).bind ((spec_stFe _ p 2 (by decide) _).bind
    ((rd_loc _ x 3 (by decide)).bind (spec_stFe _ p 3 (by decide) _)))))))) ?_
  simp only [setPt_setPt, pts_setPt, setF]
  rfl

theorem spec_neg (v : Mem F) (p q : Nat) :
    SpecAt v (negP p (var q)) (some (v.setPt p (v.pts q).neg, ())) := by
  unfold negP
  refine .congr ((rd_var _ q 0 (by decide)).bind ((spec_stFe _ p 0 (by decide) _).bind
    ((rd_var _ q 1 (by decide)).bind ((spec_stFe _ p 1 (by decide) _).bind
    ((rd_var _ q 2 (by decide)).bind ((spec_stFe _ p 2 (by decide) _).bind
    ((rd_var _ q 3 (by decide)).bind (spec_stFe _ p 3 (by decide) _)))))))) ?_
  rw [fldOf_set _ p q 2 3 (by decide) (by decide) (by decide), fldOf_set _ p q 1 3 (by decide) (by decide) (by decide),
    fldOf_set _ p q 0 3 (by decide) (by decide) (by decide), fldOf_set _ p q 1 2 (by decide) (by decide) (by decide),
    fldOf_set _ p q 0 2 (by decide) (by decide) (by decide), fldOf_set _ p q 0 1 (by decide) (by decide) (by decide)]
  simp only [setPt_setPt, pts_setPt, setF]
  rfl

theorem spec_condSet (v : Mem F) (p q : Nat) (b : Int32) :
    SpecAt v (condSetP p (var q) b) (some (v.setPt p ((v.pts p).condSet (v.pts q) b), ())) := by
  unfold condSetP
  refine .congr ((spec_ldFe _ p 0 (by decide)).bind ((rd_var _ q 0 (by decide)).bind
    ((spec_stFe _ p 0 (by decide) _).bind
    ((spec_ldFe _ p 1 (by decide)).bind ((rd_var _ q 1 (by decide)).bind ((spec_stFe _ p 1 (by decide) _).bind
    ((spec_ldFe _ p 2 (by decide)).bind ((rd_var _ q 2 (by decide)).bind ((spec_stFe _ p 2 (by decide) _).bind
    ((spec_ldFe _ p 3 (by decide)).bind ((rd_var _ q 3 (by decide)).bind
      (spec_stFe _ p 3 (by decide) _)))))))))))) ?_
  rw [fldOf_set _ p q 2 3 (by decide) (by decide) (by decide), fldOf_set _ p q 1 3 (by decide) (by decide) (by decide),
    fldOf_set _ p q 0 3 (by decide) (by decide) (by decide), fldOf_set _ p q 1 2 (by decide) (by decide) (by decide),
    fldOf_set _ p q 0 2 (by decide) (by decide) (by decide), fldOf_set _ p q 0 1 (by decide) (by decide) (by decide)]
  simp only [setPt_setPt, pts_setPt, setF]
  rfl

end Ristretto.Proofs.Conc
