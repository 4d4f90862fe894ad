import Verif.Proofs.ConcSpec

/-!
# Every call, run alone, does what `exec` says
-/

namespace Ristretto.Proofs.Conc
open Model Model.Conc FieldOps
set_option autoImplicit false
set_option linter.unusedSectionVars false

variable {F : Type} [FieldOps F] [Words F] [LawfulWords F]

theorem spec_setRistretto (v : Mem F) (p : Nat) (buf : Bytes 32) :
    SpecAt v (setRistrettoP p buf)
      (some (v.setPt p (ExtPt.setRistretto buf).1, (ExtPt.setRistretto buf : ExtPt F × Bool).2)) := by
  unfold setRistrettoP
  refine .congr ((spec_stFe _ p 0 (by decide) _).bind <|
    (spec_ldFe _ p 0 (by decide)).bind <| (spec_ldFe _ p 0 (by decide)).bind <|
    (spec_stFe _ p 0 (by decide) _).bind <| (spec_isNeg _ p 0 (by decide)).bind <|
    (spec_ldFe _ p 0 (by decide)).bind <| (spec_ldFe _ p 0 (by decide)).bind <|
    (spec_stFe _ p 0 (by decide) _).bind <|
    (spec_stFe _ p 1 (by decide) _).bind <| (spec_stFe _ p 2 (by decide) _).bind <|
    (spec_ldFe _ p 0 (by decide)).bind <| (spec_ldFe _ p 1 (by decide)).bind <|
    (spec_stFe _ p 3 (by decide) _).bind <|
    (spec_isNeg _ p 3 (by decide)).bind <| (spec_isNonZero _ p 1 (by decide)).bind <|
    (spec_ldFe _ p 0 (by decide)).bind <| (spec_stFe _ p 0 (by decide) _).bind <|
    (spec_ldFe _ p 1 (by decide)).bind <| (spec_stFe _ p 1 (by decide) _).bind <|
    (spec_ldFe _ p 2 (by decide)).bind <| (spec_stFe _ p 2 (by decide) _).bind <|
    (spec_ldFe _ p 3 (by decide)).bind <| (spec_stFe _ p 3 (by decide) _).bind <| .pure _ _) ?_
  simp only [setPt_setPt, pts_setPt, setF, fldOf]
  rfl

theorem spec_scalarMultLut {v : Mem F} {q : Rd F} {x : ExtPt F} (hq : RdAt v q x) :
    SpecAt v (scalarMultLutP q) (some (v, scalarMultLut x)) := by
  unfold scalarMultLutP
  refine (spec_get hq).bind ?_
  refine (spec_add (rd_loc _ _) hq).bind ?_
  refine (spec_add (rd_loc _ _) hq).bind ?_
  refine (spec_add (rd_loc _ _) hq).bind ?_
  refine (spec_add (rd_loc _ _) hq).bind ?_
  refine (spec_add (rd_loc _ _) hq).bind ?_
  refine (spec_add (rd_loc _ _) hq).bind ?_
  refine (spec_add (rd_loc _ _) hq).bind ?_
  exact .pure _ _

theorem spec_scalarMultStep (lut : List (ExtPt F)) (v : Mem F) (p : Nat) (w : Int8) :
    SpecAt v (scalarMultStepP lut p w) (some (v.setPt p (scalarMultStep lut (v.pts p) w), ())) := by
  unfold scalarMultStepP
  refine .congr ((spec_doubleExtended (rd_var v p)).bind <| (spec_setCompleted _ p _).bind <|
    (spec_addExtended (rd_var _ p) (rd_loc _ _)).bind <| spec_setCompleted _ p _) ?_
  simp only [setPt_setPt, pts_setPt]
  rfl

theorem spec_scalarMultLoop (lut : List (ExtPt F)) (p : Nat) : ∀ (ws : List Int8) (v : Mem F),
    SpecAt v (loopP (scalarMultStepP lut p) ws)
      (some (v.setPt p (ws.foldl (scalarMultStep lut) (v.pts p)), ()))
  | [], v => by
    refine .congr (.ret v ()) ?_
    rw [List.foldl_nil, setPt_self]
  | w :: ws, v => by
    unfold loopP
    refine .congr ((spec_scalarMultStep lut v p w).bind (spec_scalarMultLoop lut p ws _)) ?_
    simp only [setPt_setPt, pts_setPt, List.foldl_cons]

theorem spec_scalarMult (v : Mem F) (p q : Nat) (s : Bytes 32) :
    SpecAt v (scalarMultP p (var q) s) (some (v.setPt p (Model.scalarMult (v.pts q) s), ())) := by
  unfold scalarMultP
  refine .congr ((spec_scalarMultLut (rd_var v q)).bind <| (spec_zero _ p).bind <|
    spec_scalarMultLoop _ p _ _) ?_
  simp only [setPt_setPt, pts_setPt]
  rfl

theorem spec_varTimeDigit (v : Mem F) (d : Int8) (lut : List (ExtPt F)) (p : Nat) :
    SpecAt v (varTimeDigitP d lut p) ((varTimeDigit d lut (v.pts p)).map fun c => (v, c)) := by
  unfold varTimeDigitP varTimeDigit
  by_cases h : d > 0
  · rw [if_pos h, if_pos h]
    cases e : lutGet lut ((d + 1) / 2 - 1) with
    | none => exact (SpecAt.fail v).bind_none
    | some y => exact (SpecAt.ret v y).bind (spec_addExtended (rd_var v p) (rd_loc v y))
  · rw [if_neg h, if_neg h]
    cases e : lutGet lut ((1 - d) / 2 - 1) with
    | none => exact (SpecAt.fail v).bind_none
    | some y => exact (SpecAt.ret v y).bind (spec_subExtended (rd_var v p) (rd_loc v y))

theorem spec_varTimeLoop (naf : Nat → Int8) (lut : List (ExtPt F)) (p : Nat) : ∀ (fuel i : Nat) (v : Mem F),
    SpecAt v (varTimeLoopP naf lut p fuel i)
      ((varTimeLoop naf lut fuel i (v.pts p)).map fun x => (v.setPt p x, ()))
  | 0, i, v => .fail v
  | fuel + 1, i, v => by
    unfold varTimeLoopP varTimeLoop
    have hd := spec_varTimeDigit v (naf i) lut p
    cases e : varTimeDigit (naf i) lut (v.pts p) with
    | none => rw [e] at hd; exact hd.bind_none
    | some cp =>
      rw [e] at hd
      refine hd.bind ?_
      cases i with
      | zero => exact spec_setCompleted v p cp
      | succ i' =>
        simp only [Option.bind_eq_bind, Option.bind_some]
        generalize nafSkip naf i' (ComplPt.doubleProjective cp.toProjective) = r
        refine (spec_setCompleted v p r.2).bind ?_
        by_cases h : naf r.1 = 0
        · simp only [h, if_true]
          exact .ret _ _
        · simp only [h, if_false]
          refine .congr (spec_varTimeLoop naf lut p fuel r.1 _) ?_
          simp only [pts_setPt, setPt_setPt]

theorem spec_varTimeScalarMult (v : Mem F) (p q : Nat) (s : Bytes 32) :
    SpecAt v (varTimeScalarMultP p (var q) s)
      ((varTimeScalarMult (v.pts q) s).map fun x => (v.setPt p x, ())) := by
  unfold varTimeScalarMultP varTimeScalarMult
  refine (spec_doubleExtended (rd_var v q)).bind ((spec_get (rd_var v q)).bind ((spec_zero v p).bind ?_))
  cases e : nafTop (computeScalar5NAF s) 256 with
  | none => simp only [e]; exact .ret _ _
  | some i =>
    simp only [e]
    refine .congr (spec_varTimeLoop (computeScalar5NAF s) _ p (i + 1) i _) ?_
    simp only [pts_setPt, setPt_setPt]
    rfl

/-! ## Tables -/

/-- The loaders deliver the entries of `T`, on every contents with the same tables. -/
def RowAt (T0 : Nat → Table F) (R : List (M F (NielsPt F))) (T : List (NielsPt F)) : Prop :=
  List.Forall₂ (fun E x => ∀ v : Mem F, v.tabs = T0 → SpecAt v E (some (v, x))) R T

theorem spec_selectLoop {T0 : Nat → Table F} (bAbs : Int32) {R : List (M F (NielsPt F))} {T : List (NielsPt F)}
    (h : RowAt T0 R T) : ∀ (i : Int32) (x : NielsPt F) (v : Mem F), v.tabs = T0 →
    SpecAt v (selectLoopP bAbs i R x) (some (v, selectLoop bAbs i T x)) := by
  induction h with
  | nil => intro i x v _; exact .ret v x
  | cons he _ ih =>
    intro i x v hv
    unfold selectLoopP selectLoop
    exact (he v hv).bind (ih _ _ v hv)

theorem spec_selectPoint {T0 : Nat → Table F} {R : List (M F (NielsPt F))} {T : List (NielsPt F)}
    (h : RowAt T0 R T) (b : Int32) (v : Mem F) (hv : v.tabs = T0) :
    SpecAt v (selectPointP R b) (some (v, selectPoint T b)) :=
  (spec_selectLoop _ h _ _ v hv).bind (.pure _ _)

theorem spec_tableAddLoop {T0 : Nat → Table F} (p : Nat) {R : TabRd F} {T : Table F}
    (h : List.Forall₂ (RowAt T0) R T) : ∀ (ws : List Int8) (v : Mem F), v.tabs = T0 →
    SpecAt v (tableAddLoopP p R ws) (some (v.setPt p (tableAddLoop T ws (v.pts p)), ())) := by
  induction h with
  | nil =>
    intro ws v _
    refine .congr (r := some (v, ())) ?_ ?_
    · cases ws <;> exact .ret v ()
    · cases ws <;> simp only [tableAddLoop, setPt_self]
  | cons hr _ ih =>
    intro ws v hv
    cases ws with
    | nil =>
      refine .congr (r := some (v, ())) (.ret v ()) ?_
      simp only [tableAddLoop, setPt_self]
    | cons w ws =>
      unfold tableAddLoopP tableAddLoop
      refine .congr ((spec_selectPoint hr w.toInt32 v hv).bind
        ((spec_addExtendedNiels (rd_var v p) _).bind ((spec_setCompleted v p _).bind (ih ws _ hv)))) ?_
      simp only [pts_setPt, setPt_setPt]

theorem spec_double4 (v : Mem F) (p : Nat) :
    SpecAt v (double4P p) (some (v.setPt p (double4 (v.pts p)), ())) :=
  (spec_doubleExtended (rd_var v p)).bind (spec_setCompleted v p _)

theorem spec_tableScalarMult {T0 : Nat → Table F} (p : Nat) {R : TabRd F} {T : Table F}
    (h : List.Forall₂ (RowAt T0) R T) (s : Bytes 32) (v : Mem F) (hv : v.tabs = T0) :
    SpecAt v (tableScalarMultP p R s) (some (v.setPt p (tableScalarMult T s), ())) := by
  unfold tableScalarMultP
  refine .congr ((spec_zero v p).bind <| (spec_tableAddLoop p h _ (v.setPt p ExtPt.zero) hv).bind <|
    (spec_double4 _ p).bind <| spec_tableAddLoop p h _ _ (by exact hv)) ?_
  simp only [pts_setPt, setPt_setPt]
  rfl

theorem row_get {T0 : Nat → Table F} {R : List (M F (NielsPt F))} {T : List (NielsPt F)} (h : RowAt T0 R T) :
    ∀ i : Nat, (R[i]? = none ∧ T[i]? = none) ∨ ∃ E x, R[i]? = some E ∧ T[i]? = some x ∧
      ∀ v : Mem F, v.tabs = T0 → SpecAt v E (some (v, x)) := by
  induction h with
  | nil => intro i; exact .inl ⟨rfl, rfl⟩
  | cons he _ ih =>
    intro i
    cases i with
    | zero => exact .inr ⟨_, _, rfl, rfl, he⟩
    | succ i => simpa using ih i

theorem spec_varTimeSelectPoint {T0 : Nat → Table F} {R : List (M F (NielsPt F))} {T : List (NielsPt F)}
    (h : RowAt T0 R T) (b : Int32) (v : Mem F) (hv : v.tabs = T0) :
    SpecAt v (varTimeSelectPointP R b) ((varTimeSelectPoint T b).map fun x => (v, x)) := by
  unfold varTimeSelectPointP varTimeSelectPoint
  by_cases hb : b < 0
  · rw [if_pos hb, if_pos hb]
    rcases row_get h (-b - 1).toInt.toNat with ⟨h1, h2⟩ | ⟨E, x, h1, h2, h3⟩
    · rw [h1, h2]; exact (SpecAt.fail v).bind_none
    · rw [h1, h2]
      exact (SpecAt.ret v E).bind ((h3 v hv).bind (.pure _ _))
  · rw [if_neg hb, if_neg hb]
    rcases row_get h (b - 1).toInt.toNat with ⟨h1, h2⟩ | ⟨E, x, h1, h2, h3⟩
    · rw [h1, h2]; exact (SpecAt.fail v).bind_none
    · rw [h1, h2]
      exact (SpecAt.ret v E).bind (h3 v hv)

theorem spec_tableVarTimeLoop {T0 : Nat → Table F} (p : Nat) {R : TabRd F} {T : Table F}
    (h : List.Forall₂ (RowAt T0) R T) : ∀ (ws : List Int8) (v : Mem F), v.tabs = T0 →
    SpecAt v (tableVarTimeLoopP p R ws)
      ((tableVarTimeLoop T ws (v.pts p)).map fun x => (v.setPt p x, ())) := by
  induction h with
  | nil =>
    intro ws v _
    refine .congr (r := some (v, ())) ?_ ?_
    · cases ws <;> exact .ret v ()
    · cases ws <;> simp only [tableVarTimeLoop, setPt_self, Option.map_some]
  | @cons row trow rows trows hr _ ih =>
    intro ws v hv
    cases ws with
    | nil =>
      refine .congr (r := some (v, ())) (.ret v ()) ?_
      simp only [tableVarTimeLoop, setPt_self, Option.map_some]
    | cons w ws =>
      unfold tableVarTimeLoopP tableVarTimeLoop
      by_cases h0 : w.toInt32 = 0
      · rw [if_pos h0, if_pos h0]; exact ih ws v hv
      · rw [if_neg h0, if_neg h0]
        have hs := spec_varTimeSelectPoint hr w.toInt32 v hv
        revert hs
        generalize varTimeSelectPoint trow w.toInt32 = o
        intro hs
        cases o with
        | none => exact hs.bind_none
        | some np =>
          refine .congr (hs.bind
            ((spec_addExtendedNiels (rd_var v p) _).bind ((spec_setCompleted v p _).bind (ih ws _ hv)))) ?_
          simp only [pts_setPt, setPt_setPt]
          rfl

theorem spec_tableVarTimeScalarMult {T0 : Nat → Table F} (p : Nat) {R : TabRd F} {T : Table F}
    (h : List.Forall₂ (RowAt T0) R T) (s : Bytes 32) (v : Mem F) (hv : v.tabs = T0) :
    SpecAt v (tableVarTimeScalarMultP p R s)
      ((tableVarTimeScalarMult T s).map fun x => (v.setPt p x, ())) := by
  unfold tableVarTimeScalarMultP tableVarTimeScalarMult
  dsimp only
  refine (spec_zero v p).bind ?_
  have h1 := spec_tableVarTimeLoop p h (odds (computeScalarWindow4 s)) (v.setPt p ExtPt.zero) hv
  rw [pts_setPt] at h1
  revert h1
  generalize tableVarTimeLoop T (odds (computeScalarWindow4 s)) ExtPt.zero = o
  intro h1
  cases o with
  | none => exact h1.bind_none
  | some x =>
    refine h1.bind ((spec_double4 _ p).bind ?_)
    refine .congr (spec_tableVarTimeLoop p h _ _ (by exact hv)) ?_
    simp only [pts_setPt, setPt_setPt]
    rfl

theorem tabConst_at (T0 : Nat → Table F) (T : Table F) : List.Forall₂ (RowAt T0) (tabConst T) T := by
  unfold tabConst
  induction T with
  | nil => exact .nil
  | cons row T ih =>
    refine .cons ?_ ih
    clear ih
    induction row with
    | nil => exact .nil
    | cons x row ih => exact .cons (fun v _ => .ret v x) ih

theorem forall2_map {α β γ : Type} {P : β → γ → Prop} {f : α → β} {g : α → γ} :
    ∀ l : List α, (∀ a ∈ l, P (f a) (g a)) → List.Forall₂ P (l.map f) (l.map g)
  | [], _ => .nil
  | a :: l, h => .cons (h a (by simp)) (forall2_map l fun b hb => h b (by simp [hb]))

theorem run_ldNiels (m : Memory (Val F)) (t r j : Nat) :
    (ldNiels t r j : M F _).run m = some (⟨tabAt m t r j 0, tabAt m t r j 1, tabAt m t r j 2⟩, m) := by
  unfold ldNiels
  rw [bind_eq, run_bind, run_ldTab, Option.bind_some, bind_eq, run_bind, run_ldTab, Option.bind_some, bind_eq,
    run_bind, run_ldTab]
  rfl

theorem tabVar_at (m0 : Memory (Val F)) (t : Nat) :
    List.Forall₂ (RowAt (view m0).tabs) (tabVar t) ((view m0).tabs t) := by
  show List.Forall₂ (RowAt (view m0).tabs)
    ((List.range 32).map fun r => (List.range 8).map fun j => ldNiels t r j)
    ((List.range 32).map fun r => (List.range 8).map fun j =>
      ⟨tabAt m0 t r j 0, tabAt m0 t r j 1, tabAt m0 t r j 2⟩)
  refine forall2_map _ fun r hr => forall2_map _ fun j hj => ?_
  intro v hv m hm
  rw [run_ldNiels, Option.map_some]
  subst hm
  have h1 : (view m).tabs t = (view m0).tabs t := by rw [hv]
  have h2 : ∀ r ∈ List.range 32, ∀ j ∈ List.range 8,
      (⟨tabAt m t r j 0, tabAt m t r j 1, tabAt m t r j 2⟩ : NielsPt F) =
        ⟨tabAt m0 t r j 0, tabAt m0 t r j 1, tabAt m0 t r j 2⟩ := by
    have h3 : ((List.range 32).map fun r => (List.range 8).map fun j =>
        (⟨tabAt m t r j 0, tabAt m t r j 1, tabAt m t r j 2⟩ : NielsPt F)) =
      ((List.range 32).map fun r => (List.range 8).map fun j =>
        ⟨tabAt m0 t r j 0, tabAt m0 t r j 1, tabAt m0 t r j 2⟩) := h1
    exact fun r hr => List.map_inj_left.1 (List.map_inj_left.1 h3 r hr)
  rw [h2 r hr j hj]

/-! ## `ScalarMultTable.Compute` -/

/-- An entry of a table variable. -/
def TE (m : Memory (Val F)) (t r j : Nat) : NielsPt F := ⟨tabAt m t r j 0, tabAt m t r j 1, tabAt m t r j 2⟩

/-- Nothing outside the tables differs. -/
def OnlyTabs (m m' : Memory (Val F)) : Prop := ∀ l, (∀ t r j f i, l ≠ .tab t r j f i) → m' l = m l

theorem run_stTab (m : Memory (Val F)) (t r j f : Nat) (x : F) : ∃ m',
    (stTab t r j f x : M F Unit).run m = some ((), m') ∧ tabAt m' t r j f = x ∧
    (∀ t' r' j' f', ¬(t' = t ∧ r' = r ∧ j' = j ∧ f' = f) → tabAt m' t' r' j' f' = tabAt m t' r' j' f') ∧
    OnlyTabs m m' := by
  obtain ⟨m', h1, h2, h3⟩ := run_stWs_tab t r j f (Words.words x) 0 m
  refine ⟨m', h1, ?_, ?_, ?_⟩
  · rw [LawfulWords.len, ← List.range_eq_range'] at h2
    exact (congrArg Words.ofWords h2).trans (LawfulWords.of_words x)
  · intro t' r' j' f' hne
    unfold tabAt
    congr 1
    refine List.map_congr_left fun k _ => h3 _ fun k' _ e => ?_
    injection e with e1 e2 e3 e4
    exact hne ⟨e1, e2, e3, e4⟩
  · exact fun l hl => h3 l fun k _ => hl t r j f k

theorem run_stNiels (m : Memory (Val F)) (t r j : Nat) (x : NielsPt F) : ∃ m',
    (stNiels t r j x : M F Unit).run m = some ((), m') ∧ TE m' t r j = x ∧
    (∀ t' r' j', ¬(t' = t ∧ r' = r ∧ j' = j) → TE m' t' r' j' = TE m t' r' j') ∧ OnlyTabs m m' := by
  obtain ⟨m1, a1, a2, a3, a4⟩ := run_stTab m t r j 0 x.YPlusX
  obtain ⟨m2, b1, b2, b3, b4⟩ := run_stTab m1 t r j 1 x.YMinusX
  obtain ⟨m3, c1, c2, c3, c4⟩ := run_stTab m2 t r j 2 x.XY2D
  refine ⟨m3, ?_, ?_, ?_, ?_⟩
  · unfold stNiels
    rw [bind_eq, run_bind, a1, Option.bind_some, bind_eq, run_bind, b1, Option.bind_some, c1]
  · unfold TE
    rw [c2, c3 t r j 1 (by simp), b2, c3 t r j 0 (by simp), b3 t r j 0 (by simp), a2]
  · intro t' r' j' hne
    have h : ∀ f f' : Nat, ¬(t' = t ∧ r' = r ∧ j' = j ∧ f' = f) := fun f f' h => hne ⟨h.1, h.2.1, h.2.2.1⟩
    unfold TE
    simp only [c3 _ _ _ _ (h _ _), b3 _ _ _ _ (h _ _), a3 _ _ _ _ (h _ _)]
  · exact fun l hl => (c4 l hl).trans ((b4 l hl).trans (a4 l hl))

theorem run_tableRow (t r : Nat) (cp : ExtPt F) : ∀ (n w : Nat) (c : ExtPt F) (m : Memory (Val F)), ∃ m',
    (tableRowP t r cp n w c).run m = some ((tableRow cp n c).2, m') ∧
    (∀ k x, (tableRow cp n c).1[k]? = some x → TE m' t r (w + k) = x) ∧
    (∀ t' r' j', (t' ≠ t ∨ r' ≠ r ∨ j' < w) → TE m' t' r' j' = TE m t' r' j') ∧ OnlyTabs m m'
  | 0, w, c, m => ⟨m, rfl, fun k x h => by simp [tableRow] at h, fun _ _ _ _ => rfl, fun _ _ => rfl⟩
  | n + 1, w, c, m => by
    obtain ⟨m1, a1, a2, a3, a4⟩ := run_stNiels m t r w (NielsPt.ofExtended (ExtPt.add c cp))
    obtain ⟨m2, b1, b2, b3, b4⟩ := run_tableRow t r cp n (w + 1) (ExtPt.add c cp) m1
    refine ⟨m2, ?_, ?_, ?_, fun l hl => (b4 l hl).trans (a4 l hl)⟩
    · unfold tableRowP tableRow
      rw [bind_eq, run_bind, a1, Option.bind_some, b1]
    · intro k x hx
      unfold tableRow at hx
      cases k with
      | zero =>
        rw [Nat.add_zero, b3 t r w (by omega), a2]
        simpa using hx
      | succ k =>
        have := b2 k x (by simpa using hx)
        rwa [Nat.add_right_comm] at this
    · intro t' r' j' h
      rw [b3 t' r' j' (by omega), a3 t' r' j' (by omega)]

theorem run_tableLoop (t : Nat) : ∀ (n i : Nat) (cp : ExtPt F) (m : Memory (Val F)), ∃ m',
    (tableLoopP t n i cp).run m = some ((), m') ∧
    (∀ k row, (tableLoop n cp)[k]? = some row → ∀ j x, row[j]? = some x → TE m' t (i + k) j = x) ∧
    (∀ t' r' j', (t' ≠ t ∨ r' < i) → TE m' t' r' j' = TE m t' r' j') ∧ OnlyTabs m m'
  | 0, i, cp, m => ⟨m, rfl, fun k x h => by simp [tableLoop] at h, fun _ _ _ _ => rfl, fun _ _ => rfl⟩
  | n + 1, i, cp, m => by
    obtain ⟨m1, a1, a2, a3, a4⟩ := run_tableRow t i cp 8 0 ExtPt.zero m
    obtain ⟨m2, b1, b2, b3, b4⟩ := run_tableLoop t n (i + 1)
      (ComplPt.doubleProjective (ComplPt.doubleProjective (ComplPt.doubleProjective (ComplPt.doubleProjective
        (ComplPt.doubleExtended (tableRow cp 8 ExtPt.zero).2).toProjective).toProjective).toProjective).toProjective
        ).toExtended m1
    refine ⟨m2, ?_, ?_, ?_, fun l hl => (b4 l hl).trans (a4 l hl)⟩
    · unfold tableLoopP
      rw [bind_eq, run_bind, a1, Option.bind_some]
      exact b1
    · intro k row hk j x hj
      unfold tableLoop at hk
      cases k with
      | zero =>
        rw [Nat.add_zero, b3 t i j (by omega)]
        have e : (tableRow cp 8 ExtPt.zero).1 = row := by simpa using hk
        have := a2 j x (e ▸ hj)
        rwa [Nat.zero_add] at this
      | succ k =>
        have := b2 k row (by simpa using hk) j x hj
        rwa [Nat.add_right_comm] at this
    · intro t' r' j' h
      rw [b3 t' r' j' (by omega), a3 t' r' j' (by omega)]

theorem tableRow_length (cp : ExtPt F) : ∀ n c, (tableRow cp n c).1.length = n
  | 0, _ => rfl
  | n + 1, c => by simp [tableRow, tableRow_length cp n]

theorem tableLoop_shape : ∀ n (cp : ExtPt F), (tableLoop n cp).length = n ∧ ∀ row ∈ tableLoop n cp, row.length = 8
  | 0, _ => ⟨rfl, fun _ h => by simp [tableLoop] at h⟩
  | n + 1, cp => by
    have := tableLoop_shape n
    refine ⟨by simp [tableLoop, (this _).1], fun row h => ?_⟩
    simp only [tableLoop, List.mem_cons] at h
    rcases h with rfl | h
    · exact tableRow_length cp 8 _
    · exact (this _).2 row h

theorem spec_tableCompute (v : Mem F) (t p : Nat) :
    SpecAt v (tableComputeP t (var p)) (some (v.setTab t (tableCompute (v.pts p)), ())) := by
  refine (spec_get (rd_var v p)).bind ?_
  intro m hm
  obtain ⟨m', a1, a2, a3, a4⟩ := run_tableLoop t 32 0 (v.pts p) m
  rw [a1, Option.map_some]
  refine congrArg some (Prod.ext ?_ rfl)
  have hv : ∀ m : Memory (Val F), ∀ t, (view m).tabs t = (List.range 32).map fun r => (List.range 8).map fun j => TE m t r j :=
    fun _ _ => rfl
  refine Mem.ext' ?_ ?_ ?_
  · rw [← hm]
    funext q
    have : ∀ f, feAt m' q f = feAt m q f := by
      intro f
      unfold feAt
      congr 1
      exact List.map_congr_left fun k _ => a4 _ (by intros; intro h; cases h)
    simp only [view, Mem.setTab, this]
  · rw [← hm]
    funext q
    have : ∀ i, m' (.sc q i) = m (.sc q i) := fun i => a4 _ (by intros; intro h; cases h)
    simp only [view, Mem.setTab, this]
  · funext t'
    show (view m').tabs t' = if t' = t then tableCompute (v.pts p) else v.tabs t'
    by_cases h : t' = t
    · subst h
      rw [if_pos rfl, hv]
      obtain ⟨l1, l2⟩ := tableLoop_shape 32 (v.pts p)
      unfold tableCompute
      refine List.ext_getElem (by simp [l1]) fun r h1 h2 => ?_
      simp only [List.getElem_map, List.getElem_range]
      have l3 := l2 _ (List.getElem_mem h2)
      refine List.ext_getElem (by simp [l3]) fun j h3 h4 => ?_
      simp only [List.getElem_map, List.getElem_range]
      have := a2 r _ (List.getElem?_eq_getElem h2) j _ (List.getElem?_eq_getElem h4)
      rwa [Nat.zero_add] at this
    · rw [if_neg h, ← hm, hv, hv]
      refine List.map_congr_left fun r _ => List.map_congr_left fun j _ => a3 t' r j (.inl h)

/-! ## Lizard -/

theorem spec_toJacobi (v : Mem F) (p : Nat) :
    SpecAt v (toJacobiP p)
      (some (v.setPt p (toJacobiQuarticRistrettoRecv (v.pts p)), toJacobiQuarticRistretto (v.pts p))) := by
  unfold toJacobiP
  refine .congr ((spec_ldFe _ p 0 (by decide)).bind <| (spec_ldFe _ p 1 (by decide)).bind <|
    (spec_ldFe _ p 2 (by decide)).bind <| (spec_ldFe _ p 2 (by decide)).bind <|
    (spec_ldFe _ p 1 (by decide)).bind <| (spec_ldFe _ p 2 (by decide)).bind <|
    (spec_ldFe _ p 1 (by decide)).bind <| (spec_ldFe _ p 0 (by decide)).bind <|
    (spec_ldFe _ p 0 (by decide)).bind <| (spec_ldFe _ p 2 (by decide)).bind <|
    (spec_ldFe _ p 2 (by decide)).bind <| (spec_ldFe _ p 0 (by decide)).bind <|
    (spec_ldFe _ p 0 (by decide)).bind <| (spec_ldFe _ p 1 (by decide)).bind <|
    (spec_ldFe _ p 1 (by decide)).bind <|
    (spec_isNonZero _ p 0 (by decide)).bind <| (spec_isNonZero _ p 1 (by decide)).bind <| .pure _ _) ?_
  simp only [setPt_setPt, pts_setPt, setF, fldOf]
  rfl

/-! ## Scalars -/

theorem setSc_setSc (v : Mem F) (s : Nat) (x y : Scalar) : (v.setSc s x).setSc s y = v.setSc s y := by
  refine Mem.ext' rfl ?_ rfl
  funext k; simp only [Mem.setSc]; split <;> rfl

theorem scs_setSc (v : Mem F) (s : Nat) (x : Scalar) : (v.setSc s x).scs s = x := if_pos rfl

theorem setSc_self (v : Mem F) (s : Nat) : v.setSc s (v.scs s) = v := by
  refine Mem.ext' rfl ?_ rfl
  funext k; simp only [Mem.setSc]; split
  · subst_vars; rfl
  · rfl

theorem view_sc (m : Memory (Val F)) (s i : Nat) (hi : i < 8) : ((view m).scs s)[i] = m (.sc s i) := by
  have h : i = 0 ∨ i = 1 ∨ i = 2 ∨ i = 3 ∨ i = 4 ∨ i = 5 ∨ i = 6 ∨ i = 7 := by omega
  rcases h with rfl | rfl | rfl | rfl | rfl | rfl | rfl | rfl <;> rfl

theorem spec_ldS (v : Mem F) (s i : Nat) (hi : i < 8) : SpecAt v (ldS s i) (some (v, (v.scs s)[i])) := by
  intro m hm
  subst hm
  rw [view_sc m s i hi]; rfl

theorem spec_stS (v : Mem F) (s i : Nat) (hi : i < 8) (x : UInt32) :
    SpecAt v (stS s i x) (some (v.setSc s ((v.scs s).set i x), ())) := by
  intro m hm
  subst hm
  refine congrArg some (Prod.ext ?_ rfl)
  show view (Function.update m (.sc s i) x) = _
  refine Mem.ext' ?_ ?_ ?_
  · funext q
    have : ∀ f, feAt (Function.update m (.sc s i) x) q f = feAt m q f := by
      intro f
      unfold feAt
      exact congrArg _ (List.map_congr_left fun k _ => Function.update_of_ne (by intro h; cases h) _ _)
    simp only [view, Mem.setSc, this]
  · funext q
    refine Vector.ext fun j hj => ?_
    rw [view_sc _ q j hj]
    show _ = (if q = s then ((view m).scs s).set i x else (view m).scs q)[j]
    by_cases hq : q = s
    · subst hq
      simp only [if_true]
      rw [Vector.getElem_set]
      by_cases hij : i = j
      · subst hij
        rw [if_pos rfl]
        exact Function.update_self (β := Val F) (Loc.sc q i) x m
      · rw [if_neg hij, view_sc _ q j hj]
        exact Function.update_of_ne (by intro h; injection h with _ h; exact hij h.symm) _ _
    · simp only [hq, if_false]
      rw [view_sc _ q j hj]
      exact Function.update_of_ne (by intro h; injection h with h _; exact hq h) _ _
  · funext q
    have : ∀ r j f, tabAt (Function.update m (.sc s i) x) q r j f = tabAt m q r j f := by
      intro r j f
      unfold tabAt
      exact congrArg _ (List.map_congr_left fun k _ => Function.update_of_ne (by intro h; cases h) _ _)
    simp only [view, Mem.setSc, this]

theorem vec8 (x : Scalar) : #v[x[0], x[1], x[2], x[3], x[4], x[5], x[6], x[7]] = x := by
  refine Vector.ext fun i hi => ?_
  have h : i = 0 ∨ i = 1 ∨ i = 2 ∨ i = 3 ∨ i = 4 ∨ i = 5 ∨ i = 6 ∨ i = 7 := by omega
  rcases h with rfl | rfl | rfl | rfl | rfl | rfl | rfl | rfl <;> rfl

theorem set8 (u : Scalar) (a b c d e f g h : UInt32) :
    (((((((u.set 0 a).set 1 b).set 2 c).set 3 d).set 4 e).set 5 f).set 6 g).set 7 h =
      #v[a, b, c, d, e, f, g, h] := by
  refine Vector.ext fun i hi => ?_
  have h : i = 0 ∨ i = 1 ∨ i = 2 ∨ i = 3 ∨ i = 4 ∨ i = 5 ∨ i = 6 ∨ i = 7 := by omega
  rcases h with rfl | rfl | rfl | rfl | rfl | rfl | rfl | rfl <;> simp

theorem spec_ldSc (v : Mem F) (s : Nat) : SpecAt v (ldSc s) (some (v, v.scs s)) := by
  unfold ldSc
  refine .congr ((spec_ldS v s 0 (by decide)).bind <| (spec_ldS v s 1 (by decide)).bind <|
    (spec_ldS v s 2 (by decide)).bind <| (spec_ldS v s 3 (by decide)).bind <|
    (spec_ldS v s 4 (by decide)).bind <| (spec_ldS v s 5 (by decide)).bind <|
    (spec_ldS v s 6 (by decide)).bind <| (spec_ldS v s 7 (by decide)).bind <| .pure _ _) ?_
  rw [vec8]

/-- A store after others. -/
theorem spec_stS' (v : Mem F) (s : Nat) (u : Scalar) (i : Nat) (hi : i < 8) (x : UInt32) :
    SpecAt (v.setSc s u) (stS s i x) (some (v.setSc s (u.set i x), ())) := by
  refine .congr (spec_stS _ s i hi x) ?_
  rw [setSc_setSc, scs_setSc]

/-- A load after stores to words before it. -/
theorem spec_ldS' (v : Mem F) (s a : Nat) (u : Scalar) (i : Nat) (hi : i < 8) (h : u[i] = (v.scs s)[i]) :
    SpecAt (v.setSc s u) (ldS a i) (some (v.setSc s u, (v.scs a)[i])) := by
  refine .congr (spec_ldS _ a i hi) ?_
  have : ((v.setSc s u).scs a)[i] = (v.scs a)[i] := by
    show (if a = s then u else v.scs a)[i] = _
    by_cases e : a = s
    · subst e; simpa using h
    · simp [e]
  rw [this]

theorem spec_stSc (v : Mem F) (s : Nat) (x : Scalar) : SpecAt v (stSc s x) (some (v.setSc s x, ())) := by
  unfold stSc
  refine .congr ((spec_stS v s 0 (by decide) _).bind <| (spec_stS' v s _ 1 (by decide) _).bind <|
    (spec_stS' v s _ 2 (by decide) _).bind <| (spec_stS' v s _ 3 (by decide) _).bind <|
    (spec_stS' v s _ 4 (by decide) _).bind <| (spec_stS' v s _ 5 (by decide) _).bind <|
    (spec_stS' v s _ 6 (by decide) _).bind <| spec_stS' v s _ 7 (by decide) _) ?_
  rw [set8, vec8]

theorem spec_sAdd (v : Mem F) (s a b : Nat) :
    SpecAt v (sAddP s a b) (some (v.setSc s (Scalar.add (v.scs a) (v.scs b)), ())) := by
  unfold sAddP
  refine .congr ((spec_ldS v a 0 (by decide)).bind <| (spec_ldS v b 0 (by decide)).bind <|
    (spec_stS v s 0 (by decide) _).bind <|
    (spec_ldS' v s a _ 1 (by decide) ?_).bind <| (spec_ldS' v s b _ 1 (by decide) ?_).bind <|
    (spec_stS' v s _ 1 (by decide) _).bind <|
    (spec_ldS' v s a _ 2 (by decide) ?_).bind <| (spec_ldS' v s b _ 2 (by decide) ?_).bind <|
    (spec_stS' v s _ 2 (by decide) _).bind <|
    (spec_ldS' v s a _ 3 (by decide) ?_).bind <| (spec_ldS' v s b _ 3 (by decide) ?_).bind <|
    (spec_stS' v s _ 3 (by decide) _).bind <|
    (spec_ldS' v s a _ 4 (by decide) ?_).bind <| (spec_ldS' v s b _ 4 (by decide) ?_).bind <|
    (spec_stS' v s _ 4 (by decide) _).bind <|
    (spec_ldS' v s a _ 5 (by decide) ?_).bind <| (spec_ldS' v s b _ 5 (by decide) ?_).bind <|
    (spec_stS' v s _ 5 (by decide) _).bind <|
    (spec_ldS' v s a _ 6 (by decide) ?_).bind <| (spec_ldS' v s b _ 6 (by decide) ?_).bind <|
    (spec_stS' v s _ 6 (by decide) _).bind <|
    (spec_ldS' v s a _ 7 (by decide) ?_).bind <| (spec_ldS' v s b _ 7 (by decide) ?_).bind <|
    (spec_stS' v s _ 7 (by decide) _).bind <|
    (spec_ldSc _ s).bind <| spec_stSc _ s _) ?_
  case refine_15 =>
    rw [set8, scs_setSc, setSc_setSc]
    rfl
  all_goals simp

theorem spec_sCondWord (v : Mem F) (s t : Nat) (m : UInt32) (u : Scalar) (i : Nat) (hi : i < 8)
    (h : u[i] = (v.scs s)[i]) :
    SpecAt (v.setSc s u) (sCondWordP s t m i)
      (some (v.setSc s (u.set i ((v.scs s)[i] ^^^ (m &&& ((v.scs s)[i] ^^^ (v.scs t)[i])))), ())) :=
  (spec_ldS' v s s u i hi h).bind <| (spec_ldS' v s t u i hi h).bind <| spec_stS' v s u i hi _

theorem spec_sCondSet (v : Mem F) (s t : Nat) (b : Int32) :
    SpecAt v (sCondSetP s t b) (some (v.setSc s (Scalar.condSet (v.scs s) (v.scs t) b), ())) := by
  have h0 := spec_sCondWord v s t (-b).toUInt32 (v.scs s) 0 (by decide) rfl
  rw [setSc_self] at h0
  unfold sCondSetP
  refine .congr (h0.bind <| (spec_sCondWord v s t _ _ 1 (by decide) ?_).bind <|
    (spec_sCondWord v s t _ _ 2 (by decide) ?_).bind <| (spec_sCondWord v s t _ _ 3 (by decide) ?_).bind <|
    (spec_sCondWord v s t _ _ 4 (by decide) ?_).bind <| (spec_sCondWord v s t _ _ 5 (by decide) ?_).bind <|
    (spec_sCondWord v s t _ _ 6 (by decide) ?_).bind <| spec_sCondWord v s t _ _ 7 (by decide) ?_) ?_
  case refine_8 => rw [set8]; rfl
  all_goals simp

theorem spec_sSetBytes (v : Mem F) (s : Nat) (x : Bytes 32) :
    SpecAt v (sSetBytesP s x) (some (v.setSc s (Scalar.setBytes x), ())) := by
  unfold sSetBytesP
  refine .congr ((spec_stSc v s _).bind <| (spec_ldSc _ s).bind <| spec_stSc _ s _) ?_
  rw [setSc_setSc, scs_setSc]; rfl

theorem spec_sSetBytesStrict (v : Mem F) (s : Nat) (x : Bytes 32) :
    SpecAt v (sSetBytesStrictP s x)
      (some (v.setSc s (Scalar.setBytesStrict (v.scs s) x).1, (Scalar.setBytesStrict (v.scs s) x).2)) := by
  unfold sSetBytesStrictP Scalar.setBytesStrict
  by_cases h : Scalar.sub (Scalar.words x) scL = Scalar.words x
  · simp only [h, ne_eq, not_true_eq_false, if_false]
    exact (spec_stSc v s _).bind (.pure _ _)
  · simp only [h, ne_eq, not_false_eq_true, if_true]
    rw [setSc_self]
    exact .pure _ _

/-! ## Calls -/

/-- Every call does what `exec` says. -/
theorem spec_call (e : Env F) (v : Mem F) (c : Cmd) : SpecAt v (callP e c) (exec e v c) := by
  cases c with
  | pZero p => exact (spec_zero v p).bind (.pure _ _)
  | pBase p => exact (spec_set_loc v p _).bind (.pure _ _)
  | pSet p q => exact (spec_set_var v p q).bind (.pure _ _)
  | pAdd p q r =>
    exact (spec_addExtended (rd_var v q) (rd_var v r)).bind ((spec_setCompleted v p _).bind (.pure _ _))
  | pDouble p q => exact (spec_doubleExtended (rd_var v q)).bind ((spec_setCompleted v p _).bind (.pure _ _))
  | pSub p q r =>
    exact (spec_subExtended (rd_var v q) (rd_var v r)).bind ((spec_setCompleted v p _).bind (.pure _ _))
  | pNeg p q => exact (spec_neg v p q).bind (.pure _ _)
  | pBytes p => exact (spec_ristretto (rd_var v p)).bind (.pure _ _)
  | pSetBytes p buf => exact (spec_setRistretto v p buf).bind (.pure _ _)
  | pSetElligator p buf => exact (spec_setCompleted v p _).bind (.pure _ _)
  | pRand p buf => exact (spec_setCompleted v p _).bind (.pure _ _)
  | pDerive p data => exact (spec_setCompleted v p _).bind (.pure _ _)
  | pDeriveDalek p data =>
    refine .congr ((spec_setCompleted v p _).bind ((spec_addExtended (rd_var _ p) (rd_loc _ _)).bind
      ((spec_setCompleted _ p _).bind (.pure _ _)))) ?_
    simp only [pts_setPt, setPt_setPt]
    rfl
  | pSetLizard p data => exact (spec_setCompleted v p _).bind (.pure _ _)
  | pLizard p => exact (spec_toJacobi v p).bind (.pure _ _)
  | pLizardInto p buf => exact (spec_toJacobi v p).bind (.pure _ _)
  | pEqualsI p q => exact (spec_equalsI (rd_var v p) (rd_var v q)).bind (.pure _ _)
  | pEquals p q => exact (spec_equalsI (rd_var v p) (rd_var v q)).bind (.pure _ _)
  | pCondSet p q b => exact (spec_condSet v p q _).bind (.pure _ _)
  | pUnmarshalBinary p data =>
    simp only [callP, exec, Point.unmarshalBinary]
    by_cases h : data.length = 32
    · simp only [h, ne_eq, not_true_eq_false, if_false]
      exact (spec_setRistretto v p _).bind (.pure _ _)
    · simp only [h, ne_eq, not_false_eq_true, if_true, setPt_self]
      exact .pure _ _
  | pMarshalText p => exact (spec_ristretto (rd_var v p)).bind (.pure _ _)
  | pUnmarshalText p txt =>
    simp only [callP, exec, Point.unmarshalText]
    cases textToBuf txt with
    | panic => exact .fail v
    | err =>
      refine .congr (.pure v (Out.bool false)) ?_
      simp only [Option.bind_eq_bind, Option.bind_some, setPt_self]
    | ok buf => exact (spec_setRistretto v p _).bind (.pure _ _)
  | pScalarMult p q s => exact (spec_ldSc v s).bind ((spec_scalarMult v p q _).bind (.pure _ _))
  | pPublicScalarMult p q s =>
    have h := spec_varTimeScalarMult v p q (v.scs s).bytes
    refine (spec_ldSc v s).bind ?_
    simp only [exec, Point.publicScalarMult]
    revert h
    generalize varTimeScalarMult (v.pts q) (v.scs s).bytes = o
    intro h
    cases o with
    | none => exact h.bind_none
    | some x => exact h.bind (.pure _ _)
  | pScalarMultBase p s =>
    exact (spec_ldSc v s).bind ((spec_tableScalarMult p (tabConst_at v.tabs _) _ v rfl).bind (.pure _ _))
  | pPublicScalarMultBase p s =>
    have h := spec_tableVarTimeScalarMult p (tabConst_at v.tabs e.baseTab) (v.scs s).bytes v rfl
    refine (spec_ldSc v s).bind ?_
    simp only [exec, Point.publicScalarMultTable]
    revert h
    generalize tableVarTimeScalarMult e.baseTab (v.scs s).bytes = o
    intro h
    cases o with
    | none => exact h.bind_none
    | some x => exact h.bind (.pure _ _)
  | pScalarMultTable p t s =>
    intro m hm
    subst hm
    have h : SpecAt (view m) (callP e (.pScalarMultTable p t s)) (exec e (view m) (.pScalarMultTable p t s)) :=
      (spec_ldSc _ s).bind ((spec_tableScalarMult p (tabVar_at m t) _ _ rfl).bind (.pure _ _))
    exact h m rfl
  | pPublicScalarMultTable p t s =>
    intro m hm
    subst hm
    have h := spec_tableVarTimeScalarMult p (tabVar_at m t) ((view m).scs s).bytes (view m) rfl
    refine ((spec_ldSc _ s).bind ?_) m rfl
    simp only [exec, Point.publicScalarMultTable]
    revert h
    generalize tableVarTimeScalarMult ((view m).tabs t) ((view m).scs s).bytes = o
    intro h
    cases o with
    | none => exact h.bind_none
    | some x => exact h.bind (.pure _ _)
  | tCompute t p => exact (spec_tableCompute v t p).bind (.pure _ _)
  | sZero s => exact (spec_stSc v s _).bind (.pure _ _)
  | sOne s => exact (spec_stSc v s _).bind (.pure _ _)
  | sSet s a => exact (spec_ldSc v a).bind ((spec_stSc v s _).bind (.pure _ _))
  | sAdd s a b => exact (spec_sAdd v s a b).bind (.pure _ _)
  | sSub s a b => exact (spec_ldSc v a).bind ((spec_ldSc v b).bind ((spec_stSc v s _).bind (.pure _ _)))
  | sNeg s a => exact (spec_ldSc v a).bind ((spec_stSc v s _).bind (.pure _ _))
  | sMul s a b => exact (spec_ldSc v a).bind ((spec_ldSc v b).bind ((spec_stSc v s _).bind (.pure _ _)))
  | sSquare s a => exact (spec_ldSc v a).bind ((spec_stSc v s _).bind (.pure _ _))
  | sMulAdd s a b c =>
    exact (spec_ldSc v a).bind ((spec_ldSc v b).bind ((spec_ldSc v c).bind ((spec_stSc v s _).bind (.pure _ _))))
  | sMulSub s a b c =>
    exact (spec_ldSc v a).bind ((spec_ldSc v b).bind ((spec_ldSc v c).bind ((spec_stSc v s _).bind (.pure _ _))))
  | sInverse s a => exact (spec_ldSc v a).bind ((spec_stSc v s _).bind (.pure _ _))
  | sCondSet s a b => exact (spec_sCondSet v s a _).bind (.pure _ _)
  | sSetBytes s buf => exact (spec_sSetBytes v s buf).bind (.pure _ _)
  | sSetBytesStrict s buf => exact (spec_sSetBytesStrict v s buf).bind (.pure _ _)
  | sSetReduced s buf => exact (spec_stSc v s _).bind (.pure _ _)
  | sRand s buf => exact (spec_stSc v s _).bind (.pure _ _)
  | sDerive s data => exact (spec_stSc v s _).bind (.pure _ _)
  | sDeriveShort s data => exact (spec_stSc v s _).bind (.pure _ _)
  | sSetBigInt s x => exact (spec_stSc v s _).bind (.pure _ _)
  | sSetUint64 s x => exact (spec_stSc v s _).bind (.pure _ _)
  | sUnmarshalBinary s data =>
    simp only [callP, exec, Scalar.unmarshalBinary]
    by_cases h : data.length = 32
    · simp only [h, if_true, dif_pos]
      have e : (⟨data.toArray, by simpa using h⟩ : Bytes 32) = toBytes 32 data := by
        refine Vector.ext fun i hi => ?_
        simp [toBytes, h, hi]
      rw [e]
      exact (spec_sSetBytes v s _).bind (.pure _ _)
    · simp only [h, if_false, dif_neg, not_false_eq_true, setSc_self]
      exact .pure _ _
  | sUnmarshalText s txt =>
    simp only [callP, exec, Scalar.unmarshalText]
    cases b64Decode 32 txt with
    | panic => exact .fail v
    | err =>
      refine .congr (.pure v (Out.bool false)) ?_
      simp only [Option.bind_eq_bind, Option.bind_some, setSc_self]
    | ok out =>
      by_cases h : out.length = 32
      · simp only [h, ne_eq, not_true_eq_false, if_false]
        exact (spec_sSetBytes v s _).bind (.pure _ _)
      · simp only [h, ne_eq, not_false_eq_true, if_true, Option.bind_eq_bind, Option.bind_some, setSc_self]
        exact .pure _ _
  | sBytes s => exact (spec_ldSc v s).bind (.pure _ _)
  | sMarshalText s => exact (spec_ldSc v s).bind (.pure _ _)
  | sBigInt s => exact (spec_ldSc v s).bind (.pure _ _)
  | sIsNonZeroI s => exact (spec_ldSc v s).bind (.pure _ _)
  | sEqualsI s a => exact (spec_ldSc v s).bind ((spec_ldSc v a).bind (.pure _ _))
  | sEquals s a => exact (spec_ldSc v s).bind ((spec_ldSc v a).bind (.pure _ _))

/-- A goroutine that runs alone does what `run` says. -/
theorem spec_go (e : Env F) : ∀ (cs : List Cmd) (v : Mem F), SpecAt v (goP e cs) (Model.run e v cs)
  | [], v => .ret v []
  | c :: cs, v => by
    unfold goP Model.run
    refine .congr ((spec_call e v c).bind' fun x _ => (spec_go e cs x.1).bind' fun y _ => .pure _ _) ?_
    cases exec e v c with
    | none => rfl
    | some x =>
      simp only [Option.bind_eq_bind, Option.bind_some]

end Ristretto.Proofs.Conc
