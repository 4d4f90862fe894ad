import Verif.Proofs.Words
import Verif.Proofs.ConcCall
import Verif.Spec.RecoverWords

/-!
# What a panic leaves in the variables when scalars hold arbitrary words
-/

namespace Ristretto.Proofs.Conc
open Model Model.Conc FieldOps LawfulField Spec.EdRange Ristretto.Words
set_option autoImplicit false
set_option linter.unusedSectionVars false

section
variable {L : Type} {V : L → Type} {α β : Type} [DecidableEq L]

theorem runKeep_bind_some (f : α → Prog V β) : ∀ (P : Prog V α) (m : Memory V) (x : α × Memory V),
    P.run m = some x → (P.bind f).runKeep m = (f x.1).runKeep x.2
  | .ret a, m, x, h => by cases h; rfl
  | .fail, m, x, h => by cases h
  | .ld l k, m, x, h => runKeep_bind_some f (k (m l)) m x h
  | .st l v k, m, x, h => runKeep_bind_some f k _ x h

theorem runKeep_bind_none (f : α → Prog V β) : ∀ (P : Prog V α) (m m' : Memory V),
    P.runKeep m = (none, m') → (P.bind f).runKeep m = (none, m')
  | .ret a, m, x, h => by cases h
  | .fail, m, x, h => by cases h; rfl
  | .ld l k, m, x, h => runKeep_bind_none f (k (m l)) m x h
  | .st l v k, m, x, h => runKeep_bind_none f k _ x h
end

section
variable {F : Type} [FieldOps F] [Words F] {α β : Type}

/-- From contents `v` the program panics, leaving contents `v'`. -/
def KeepAt (v : Mem F) (P : M F α) (v' : Mem F) : Prop :=
  ∀ m, view m = v → ∃ m', P.runKeep m = (none, m') ∧ view m' = v'

theorem KeepAt.fail (v : Mem F) : KeepAt v (.fail : M F α) v := fun m hm => ⟨m, rfl, hm⟩

theorem KeepAt.left {v v' : Mem F} {P : M F α} {K : α → M F β} (h : KeepAt v P v') : KeepAt v (P >>= K) v' := by
  intro m hm
  obtain ⟨m', h1, h2⟩ := h m hm
  exact ⟨m', runKeep_bind_none K P m m' h1, h2⟩

theorem KeepAt.right {v v' v'' : Mem F} {P : M F α} {K : α → M F β} {a : α} (hP : SpecAt v P (some (v', a)))
    (h : KeepAt v' (K a) v'') : KeepAt v (P >>= K) v'' := by
  intro m hm
  obtain ⟨x, hx, hy⟩ := Option.map_eq_some_iff.1 (hP m hm)
  obtain ⟨m', h1, h2⟩ := h x.2 (congrArg Prod.fst hy)
  refine ⟨m', ?_, h2⟩
  have e : x.1 = a := congrArg Prod.snd hy
  show (Prog.bind P K).runKeep m = _
  rw [runKeep_bind_some K P m x hx, e, h1]

variable [LawfulWords F]

/-- The loop panics on the last digit, after the additions for the others. -/
theorem keep_loop {T0 : Nat → Table F} (p : Nat) {R : TabRd F} {T : Table F} (h : List.Forall₂ (RowAt T0) R T)
    {lastR : List (M F (NielsPt F))} {lastT : List (NielsPt F)} (hl : RowAt T0 lastR lastT) (hl8 : lastT.length = 8) (w : Int8)
    (hw : 8 < w.toInt) (hw' : w.toInt ≤ 16) : ∀ (ws : List Int8) (v : Mem F) (x : ExtPt F), v.tabs = T0 → T.length = ws.length →
    tableVarTimeLoop T ws (v.pts p) = some x →
    KeepAt v (tableVarTimeLoopP p (R ++ [lastR]) (ws ++ [w])) (v.setPt p x) := by
  induction h with
  | nil =>
    intro ws v x hv hlen hx
    have hws : ws = [] := List.length_eq_zero_iff.1 hlen.symm
    subst hws
    have hx' : v.pts p = x := Option.some.inj hx
    rw [← hx', setPt_self]
    have h8 : ∀ w : Int8, 8 < w.toInt → w.toInt ≤ 16 → w.toInt32 ≠ 0 ∧ ¬ w.toInt32 < 0 ∧
        8 ≤ (w.toInt32 - 1).toInt.toNat := int8_forall (by decide +kernel)
    obtain ⟨w1, w2, w3⟩ := h8 w hw hw'
    show KeepAt v (tableVarTimeLoopP p [lastR] [w]) v
    unfold tableVarTimeLoopP
    rw [if_neg w1]
    refine KeepAt.left ?_
    unfold varTimeSelectPointP
    rw [if_neg w2]
    have hn : lastR[(w.toInt32 - 1).toInt.toNat]? = none := by
      apply List.getElem?_eq_none
      rw [List.Forall₂.length_eq hl, hl8]
      exact w3
    rw [hn]
    exact (KeepAt.fail v).left
  | @cons row trow rows trows hr _ ih =>
    intro ws v x hv hlen hx
    cases ws with
    | nil => simp at hlen
    | cons d ws =>
      have hlen' : trows.length = ws.length := by simpa using hlen
      show KeepAt v (tableVarTimeLoopP p (row :: (rows ++ [lastR])) (d :: (ws ++ [w]))) (v.setPt p x)
      unfold tableVarTimeLoopP
      unfold tableVarTimeLoop at hx
      by_cases h0 : d.toInt32 = 0
      · rw [if_pos h0] at hx ⊢; exact ih ws v x hv hlen' hx
      · rw [if_neg h0] at hx ⊢
        have hs := spec_varTimeSelectPoint hr d.toInt32 v hv
        revert hs hx
        generalize varTimeSelectPoint trow d.toInt32 = o
        intro hx hs
        cases o with
        | none => cases hx
        | some np =>
          simp only [Option.bind_eq_bind, Option.bind_some] at hx
          have := ih ws (v.setPt p (ComplPt.addExtendedNiels (v.pts p) np).toExtended) x hv hlen' (by rw [pts_setPt]; exact hx)
          rw [setPt_setPt] at this
          exact KeepAt.right hs (KeepAt.right (spec_addExtendedNiels (rd_var v p) _) (KeepAt.right (spec_setCompleted v p _) this))

/-- `VarTimeScalarMult` with a table whose rows have eight entries, when the top digit is too large. -/
theorem keep_tableVarTime {T0 : Nat → Table F} (p : Nat) {R : TabRd F} {T : Table F} (h : List.Forall₂ (RowAt T0) R T)
    (hT : T.length = 32) (hr : ∀ row ∈ T, row.length = 8) (s : Bytes 32) (v : Mem F) (hv : v.tabs = T0) (ds : List Int8)
    (w : Int8) (hw : 8 < w.toInt) (hw' : w.toInt ≤ 16) (hds : ds.length = 63) (hs : computeScalarWindow4 s = ds ++ [w])
    (x : ExtPt F) (hx : tableVarTimeLoop (T.take 31) (odds ds) ExtPt.zero = some x) :
    KeepAt v (tableVarTimeScalarMultP p R s) (v.setPt p x) := by
  obtain ⟨-, s2, -, s4⟩ := Proofs.Ed.snoc_split ds w 31 hds
  obtain ⟨T', lastT, rfl⟩ := Proofs.Ed.snoc_of_length hT
  have hT' : T'.length = 31 := by simpa using hT
  obtain ⟨R', lastR, rfl⟩ := Proofs.Ed.snoc_of_length ((List.Forall₂.length_eq h).trans hT)
  have hR' : R'.length = T'.length := by have := List.Forall₂.length_eq h; simpa using this
  have h1 : List.Forall₂ (RowAt T0) R' T' := by
    have := List.forall₂_take 31 h
    rwa [List.take_left' (hR'.trans hT'), List.take_left' hT'] at this
  have h2 : RowAt T0 lastR lastT := by
    have := List.forall₂_drop 31 h
    rw [List.drop_left' (hR'.trans hT'), List.drop_left' hT'] at this
    cases this with
    | cons a _ => exact a
  rw [List.take_left' hT'] at hx
  unfold tableVarTimeScalarMultP
  dsimp only
  rw [hs, s2]
  refine KeepAt.right (spec_zero v p) (KeepAt.left ?_)
  have := keep_loop p h1 h2 (hr lastT (by simp)) w hw hw' (odds ds) (v.setPt p ExtPt.zero) x hv (by rw [hT', s4])
    (by rw [pts_setPt]; exact hx)
  rwa [setPt_setPt] at this

end

/-! ## The digits -/

theorem topDigit_of (k n : ℕ) (ds : List Int8) (hk : ds.length = k) (h : ∀ w ∈ ds, -8 ≤ w.toInt ∧ w.toInt ≤ 7) (T : ℤ)
    (hv : digitsVal 16 ds + 16 ^ k * T = n) : (topDigit 16 k n : ℤ) = T := by
  obtain ⟨r1, r2⟩ := Proofs.Ed.digitsVal_range 8 (by norm_num) ds (by simpa using h)
  norm_num at r1 r2
  rw [hk] at r1 r2
  have hg := Proofs.Ed.geom 16 k (by norm_num)
  unfold topDigit
  norm_num at hg ⊢
  generalize (16 ^ k - 1) / 15 = R at *
  have hgz : 15 * (R : ℤ) + 1 = 16 ^ k := by exact_mod_cast hg
  rw [← hv, ← hgz]
  rw [← hgz] at r1 r2
  generalize digitsVal 16 ds = v at *
  rw [show (15 * (R : ℤ) + 1 - 1) / 15 = R by omega,
    show v + (15 * (R : ℤ) + 1) * T + 8 * R = (v + 8 * R) + (15 * R + 1) * T by ring]
  rw [Int.add_mul_ediv_left _ _ (by omega), Int.ediv_eq_zero_of_lt (by omega) (by omega), zero_add]

theorem digit_eq (n : ℕ) (pre suf : List Int8) (d : Int8) (h : ∀ w ∈ pre ++ [d], -8 ≤ w.toInt ∧ w.toInt ≤ 7)
    (hv : digitsVal 16 (pre ++ d :: suf) = n) : d.toInt = signedDigit n pre.length := by
  have e1 : digitsVal 16 pre + 16 ^ pre.length * (d.toInt + 16 * digitsVal 16 suf) = n := by
    rw [← hv, digitsVal_append]; rfl
  have e2 : digitsVal 16 (pre ++ [d]) + 16 ^ (pre.length + 1) * digitsVal 16 suf = n := by
    rw [← e1, digitsVal_append]
    simp only [digitsVal]
    ring
  have t1 := topDigit_of pre.length n pre rfl (fun w hw => h w (by simp [hw])) _ e1
  have t2 := topDigit_of (pre.length + 1) n (pre ++ [d]) (by simp) h _ e2
  unfold signedDigit
  rw [t1, t2]
  ring

theorem odds_sum (f : ℕ → ℤ) (ds : List Int8) : ∀ (i k : ℕ), ds.length = 2 * k + 1 →
    (∀ j (hj : j < ds.length), (ds[j]).toInt = f (i + j)) →
    digitsVal 256 (odds ds) = ∑ j ∈ Finset.range k, 256 ^ j * f (i + (2 * j + 1)) := by
  induction ds using evens.induct with
  | case1 a b rest ih =>
    intro i k hk h
    simp only [List.length_cons] at hk
    obtain ⟨k, rfl⟩ : ∃ k', k = k' + 1 := ⟨k - 1, by omega⟩
    have ih' := ih (i + 2) k (by omega) (fun j hj => by
      have := h (j + 2) (by simp only [List.length_cons]; omega)
      rw [show i + 2 + j = i + (j + 2) by ring, ← this]
      rfl)
    have hb : b.toInt = f (i + 1) := h 1 (by simp only [List.length_cons]; omega)
    simp only [odds, digitsVal]
    rw [ih', Finset.sum_range_succ', hb, Finset.mul_sum, add_comm]
    congr 1
    · apply Finset.sum_congr rfl
      intro j _
      rw [show i + (2 * (j + 1) + 1) = i + 2 + (2 * j + 1) by ring]
      ring
    · simp
  | case2 a =>
    intro i k hk _
    simp at hk
    subst hk
    rfl
  | case3 => intro i k hk; simp at hk

theorem oddPart_eq (n : ℕ) (ds : List Int8) (w : Int8) (hds : ds.length = 63) (h : ∀ w ∈ ds, -8 ≤ w.toInt ∧ w.toInt ≤ 7)
    (hv : digitsVal 16 ds + 16 ^ 63 * w.toInt = n) : digitsVal 256 (odds ds) = oddPart n := by
  have hv' : digitsVal 16 (ds ++ [w]) = n := by rw [← hv, digitsVal_append, hds]; simp [digitsVal]
  rw [odds_sum (signedDigit n) ds 0 31 hds]
  · unfold oddPart
    apply Finset.sum_congr rfl
    intro j _
    rw [zero_add]
  · intro j hj
    rw [zero_add]
    have e : ds ++ [w] = ds.take j ++ ds[j] :: (ds.drop (j + 1) ++ [w]) := by
      rw [← List.cons_append, ← List.drop_eq_getElem_cons hj, ← List.append_assoc, List.take_append_drop]
    have := digit_eq n (ds.take j) (ds.drop (j + 1) ++ [w]) ds[j] (fun u hu => by
      rcases List.mem_append.1 hu with hu | hu
      · exact h u (List.mem_of_mem_take hu)
      · rw [List.mem_singleton.1 hu]; exact h _ (List.getElem_mem hj)) (by rw [← e]; exact hv')
    rw [this, List.length_take, Nat.min_eq_left hj.le]

/-! ## The receiver after the panic -/

section
variable {F : Type} [LawfulField F] [Words F] [LawfulWords F]

omit [Words F] [LawfulWords F] in
theorem panic_point {T : Table F} {g : Option RGroup} (hT : TabRel T g) (ds : List Int8) (hds : ds.length = 63)
    (h : ∀ w ∈ ds, -8 ≤ w.toInt ∧ w.toInt ≤ 7) (w : Int8) :
    ∃ x, tableVarTimeLoop (T.take 31) (odds ds) ExtPt.zero = some x ∧ PtRel x (zmulO (digitsVal 256 (odds ds)) g) := by
  obtain ⟨-, -, -, s4⟩ := Proofs.Ed.snoc_split ds w 31 hds
  have hs := Proofs.Words.tabRel_shape hT
  have hl : (T.take 31).length = (odds ds).length := by rw [s4, List.length_take, hs.1]; rfl
  have ho : ∀ w ∈ odds ds, -8 ≤ w.toInt ∧ w.toInt ≤ 8 := fun u hu => by have := h u (odds_mem _ u hu); omega
  cases g with
  | none =>
    obtain ⟨r, e, hz⟩ := tableVarTimeLoop_zp (T.take 31) (odds ds) False ExtPt.zero
      (fun row hr => hT.2 row (List.mem_of_mem_take hr)) hl ho zp_zero
    refine ⟨r, e, Proofs.Words.zp_zmul (hz.congr ?_)⟩
    constructor
    · rintro (h | ⟨u, hu, hne⟩)
      · exact h.elim
      · intro h0
        exact hne (Proofs.Ed.digitsVal_eq_zero 256 (by norm_num) _ (fun u hu => by have := ho u hu; omega) h0 u hu)
    · intro h0
      by_contra hn
      push Not at hn
      apply h0
      have : ∀ ws : List Int8, (∀ u ∈ ws, u.toInt = 0) → digitsVal 256 ws = 0 := by
        intro ws
        induction ws with
        | nil => intro _; rfl
        | cons a ws ih =>
          intro hz
          simp only [digitsVal]
          rw [hz a (by simp), ih (fun u hu => hz u (by simp [hu]))]
          rfl
      exact this _ hn.2
  | some g =>
    obtain ⟨P, hP, h1, -, rfl⟩ := hT
    have h1' : IsTable (T.take 31) P := Proofs.Ed.isTable_left _ (by rw [List.take_append_drop]; exact h1)
    obtain ⟨r, e, hr⟩ := tableVarTimeLoop_spec (T.take 31) (odds ds) P 0 ExtPt.zero h1' hl ho zero_spec
    rw [zero_add] at hr
    exact ⟨r, e, _, Even.zsmul_mem hP _, hr, rfl⟩

/-- The multiplication panics and leaves the sum of the odd digits in the receiver. -/
theorem keep_table (p s : Nat) {v : Mem F} {a : NState} (h : Proofs.Words.NRel v a) {R : TabRd F} {T : Table F}
    {g : Option RGroup} (hR : List.Forall₂ (RowAt v.tabs) R T) (hT : TabRel T g) (hd : ¬ topDigit 16 63 (a.scs s) ≤ 8) :
    ∃ v', KeepAt v (tableVarTimeScalarMultP p R (v.scs s).bytes) v' ∧
      Proofs.Words.NRel v' (a.setPt p (zmulO (oddPart (a.scs s)) g)) := by
  have hs := Proofs.Words.tabRel_shape hT
  obtain ⟨ds, w, h1, h2, h3, h4, h5, h6⟩ := Proofs.Ed.window4_all (v.scs s).bytes
  rw [bytes_val, h.scs s] at h4 h6
  obtain ⟨x, hx, hr⟩ := panic_point hT ds h2 h3 w
  rw [oddPart_eq _ ds w h2 h3 h6] at hr
  exact ⟨_, keep_tableVarTime p hR hs.1 hs.2 _ v rfl ds w (by rw [h4]; omega) h5 h2 h1 x hx, h.setPt p hr⟩

theorem keep_call (e : Env F) (hB : HoldsT e.baseTab baseR) (c : Cmd) (m : Memory (Val F)) (a : NState)
    (h : Proofs.Words.NRel (view m) a) (hn : exec e (view m) c = none) (ha : nexec e.sha256 e.sha512 a c = none) :
    ∃ m', (callP e c).runKeep m = (none, m') ∧ Proofs.Words.NRel (view m') (afterPanic a (.call (.call c))) := by
  cases c
  case pUnmarshalText p txt =>
    simp only [exec, Point.unmarshalText] at hn
    simp only [callP]
    cases ht : textToBuf txt with
    | panic => exact ⟨m, rfl, h⟩
    | err => rw [ht] at hn; cases hn
    | ok buf => rw [ht] at hn; cases hn
  case sUnmarshalText s txt =>
    simp only [exec, Scalar.unmarshalText] at hn
    simp only [callP]
    cases ht : b64Decode 32 txt with
    | panic => exact ⟨m, rfl, h⟩
    | err => rw [ht] at hn; cases hn
    | ok buf =>
      rw [ht] at hn
      simp only at hn
      split at hn <;> cases hn
  case pPublicScalarMultBase p s =>
    have hd : ¬ topDigit 16 63 (a.scs s) ≤ 8 := by
      intro hd
      simp [nexec, tableVarTime, hd] at ha
    obtain ⟨v', h1, h2⟩ := keep_table (g := some baseR) p s h (tabConst_at (view m).tabs e.baseTab) hB hd
    obtain ⟨m', h3, h4⟩ := (KeepAt.right (spec_ldSc (view m) s) (KeepAt.left h1) :
      KeepAt (view m) (callP e (.pPublicScalarMultBase p s)) v') m rfl
    exact ⟨m', h3, by rw [h4]; exact h2⟩
  case pPublicScalarMultTable p t s =>
    have hd : ¬ topDigit 16 63 (a.scs s) ≤ 8 := by
      intro hd
      simp [nexec, tableVarTime, hd] at ha
    obtain ⟨v', h1, h2⟩ := keep_table p s h (tabVar_at m t) (h.tabs t) hd
    obtain ⟨m', h3, h4⟩ := (KeepAt.right (spec_ldSc (view m) s) (KeepAt.left h1) :
      KeepAt (view m) (callP e (.pPublicScalarMultTable p t s)) v') m rfl
    exact ⟨m', h3, by rw [h4]; exact h2⟩
  all_goals
    exfalso
    revert ha
    simp only [nexec, aexec]
    try split
    all_goals exact fun h => Option.some_ne_none _ h

theorem runKeep_of_run {L : Type} {V : L → Type} {α : Type} [DecidableEq L] : ∀ (P : Prog V α) (m : Memory V)
    (x : α × Memory V), P.run m = some x → P.runKeep m = (some x.1, x.2)
  | .ret a, m, x, h => by cases h; rfl
  | .fail, m, x, h => by cases h
  | .ld l k, m, x, h => runKeep_of_run (k (m l)) m x h
  | .st l v k, m, x, h => runKeep_of_run k _ x h

/-- One call or assignment. -/
theorem qstep_sim (e : Env F) (hH : AvoidsNeutral e.sha256) (hB : HoldsT e.baseTab baseR) (c : QCmd) (m : Memory (Val F))
    (a : NState) (h : Proofs.Words.NRel (view m) a) :
    (∃ m', (qcallP e c).runKeep m = (none, m') ∧ qstep e.sha256 e.sha512 a c = none ∧
      Proofs.Words.NRel (view m') (afterPanic a c)) ∨
    ∃ m' a' o, (qcallP e c).runKeep m = (some o, m') ∧ qstep e.sha256 e.sha512 a c = some (a', o) ∧
      Proofs.Words.NRel (view m') a' := by
  cases c with
  | put s w =>
    right
    have hs : SpecAt (view m) (qcallP e (.put s w)) (some ((view m).setSc s w, Out.unit)) :=
      (spec_stSc (view m) s w).bind (.pure _ _)
    obtain ⟨x, hx, hy⟩ := Option.map_eq_some_iff.1 (hs m rfl)
    have e1 : view x.2 = (view m).setSc s w := congrArg Prod.fst hy
    have e2 : x.1 = Out.unit := congrArg Prod.snd hy
    exact ⟨x.2, _, _, by rw [runKeep_of_run _ _ _ hx, e2], rfl, by rw [e1]; exact h.setSc s rfl⟩
  | call c =>
    cases c with
    | pRandFails p => exact Or.inl ⟨m, rfl, rfl, h⟩
    | sRandFails s => exact Or.inl ⟨m, rfl, rfl, h⟩
    | call c =>
      have hs := spec_call e (view m) c m rfl
      have hsim := Proofs.Words.nstep_sim e hH hB h c
      cases h1 : exec e (view m) c with
      | none =>
        rw [h1] at hsim
        cases h2 : nexec e.sha256 e.sha512 a c with
        | none =>
          left
          obtain ⟨m', k1, k2⟩ := keep_call e hB c m a h h1 h2
          exact ⟨m', k1, h2, k2⟩
        | some y => rw [h2] at hsim; exact hsim.elim
      | some r =>
        rw [h1] at hsim hs
        cases h2 : nexec e.sha256 e.sha512 a c with
        | none => rw [h2] at hsim; exact hsim.elim
        | some y =>
          rw [h2] at hsim
          obtain ⟨v', o⟩ := r
          obtain ⟨a', o'⟩ := y
          obtain ⟨k1, k2⟩ := hsim
          right
          obtain ⟨x, hx, hy⟩ := Option.map_eq_some_iff.1 hs
          have e1 : view x.2 = v' := congrArg Prod.fst hy
          have e2 : x.1 = o := congrArg Prod.snd hy
          refine ⟨x.2, a', o', ?_, h2, by rw [e1]; exact k1⟩
          show (callP e c).runKeep m = _
          rw [runKeep_of_run _ _ _ hx, e2, k2]

/-- Calls and assignments one after another. -/
theorem qrecover_sim (e : Env F) (hH : AvoidsNeutral e.sha256) (hB : HoldsT e.baseTab baseR) (cs : List QCmd)
    (m : Memory (Val F)) (a : NState) (h : Proofs.Words.NRel (view m) a) :
    (qrecoverRun e cs m).1 = (qrecover e.sha256 e.sha512 a cs).1 ∧
    Proofs.Words.NRel (view (qrecoverRun e cs m).2) (qrecover e.sha256 e.sha512 a cs).2 := by
  induction cs generalizing m a with
  | nil => exact ⟨rfl, h⟩
  | cons c cs ih =>
    rcases qstep_sim e hH hB c m a h with ⟨m', h1, h2, h3⟩ | ⟨m', a', o, h1, h2, h3⟩
    · obtain ⟨i1, i2⟩ := ih m' _ h3
      simp only [qrecoverRun, qrecover, h1, h2]
      exact ⟨by rw [i1], i2⟩
    · obtain ⟨i1, i2⟩ := ih m' a' h3
      simp only [qrecoverRun, qrecover, h1, h2]
      exact ⟨by rw [i1], i2⟩

end
end Ristretto.Proofs.Conc
