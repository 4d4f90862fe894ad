import Verif.Proofs.RecoverWords
import Verif.Proofs.WordsSim
import Verif.Proofs.Sim25
import Verif.Spec.Raw

/-!
# Programs that recover from panics, with a field implementation that follows the ideal field
-/

namespace Ristretto.Proofs.Conc
open Model Model.Conc Ristretto.Words Spec.EdRange
open Sim (SimMem SimEnv SimField Tight OptRel)
set_option autoImplicit false

section
variable {F : Type} [FieldOps F] [L : SimField F Fp] [Words F] [LawfulWords F]

omit [Words F] [LawfulWords F] in
theorem weaken {raw raw' : ℕ → Bool} {m : Mem F} {m' : Mem Fp} (h : SimMem raw m m') (hr : ∀ k, raw' k = false → raw k = false) :
    SimMem raw' m m' := ⟨h.loose, fun k hk => h.good k (hr k hk), h.scs, h.tabs⟩

omit [Words F] [LawfulWords F] in
theorem shape_rel {T : Table F} {T' : Table Fp} (h : Sim.TabRel T T') (h1 : T'.length = 32) (h2 : ∀ row ∈ T', row.length = 8) :
    T.length = 32 ∧ ∀ row ∈ T, row.length = 8 := by
  refine ⟨(List.Forall₂.length_eq h).trans h1, fun row hr => ?_⟩
  obtain ⟨i, hi, rfl⟩ := List.getElem_of_mem hr
  have hi' : i < T'.length := (List.Forall₂.length_eq h) ▸ hi
  have h3 := (List.forall₂_iff_get.1 h).2 i hi hi'
  exact (List.Forall₂.length_eq h3).trans (h2 _ (List.getElem_mem hi'))

/-- A multiplication with a table that panics. -/
theorem keep_tableS (p s : Nat) {raw : ℕ → Bool} {v : Mem F} {v' : Mem Fp} {a : NState} (hs : SimMem raw v v')
    (h : Proofs.Words.NRel v' a) {R : TabRd F} {T : Table F} {T' : Table Fp} {g : Option RGroup}
    (hR : List.Forall₂ (RowAt v.tabs) R T) (hTT : Sim.TabRel T T') (hT : TabRel T' g) (hd : ¬ topDigit 16 63 (a.scs s) ≤ 8) :
    ∃ (v1 : Mem F) (v1' : Mem Fp), KeepAt v (tableVarTimeScalarMultP p R (v.scs s).bytes) v1 ∧ SimMem (setRaw raw p false) v1 v1' ∧
      Proofs.Words.NRel v1' (a.setPt p (zmulO (oddPart (a.scs s)) g)) := by
  have hsh := Proofs.Words.tabRel_shape hT
  have hsh' := shape_rel hTT hsh.1 hsh.2
  obtain ⟨ds, w, h1, h2, h3, h4, h5, h6⟩ := Proofs.Ed.window4_all (v.scs s).bytes
  rw [bytes_val, hs.scs, h.scs s] at h4 h6
  obtain ⟨x', hx', hr⟩ := panic_point hT ds h2 h3 w
  rw [oddPart_eq _ ds w h2 h3 h6] at hr
  have hrel : OptRel Tight (tableVarTimeLoop (T.take 31) (odds ds) ExtPt.zero) (tableVarTimeLoop (T'.take 31) (odds ds) ExtPt.zero) :=
    Sim.tableVarTimeLoop_rel (List.forall₂_take 31 hTT) _ Sim.tight_zero
  rw [hx'] at hrel
  cases hx : tableVarTimeLoop (T.take 31) (odds ds) ExtPt.zero with
  | none => rw [hx] at hrel; exact hrel.elim
  | some x =>
    rw [hx] at hrel
    exact ⟨_, _, keep_tableVarTime p hR hsh'.1 hsh'.2 _ v rfl ds w (by rw [h4]; omega) h5 h2 h1 x hx, hs.setTight p hrel, h.setPt p hr⟩

theorem keep_callS {e : Env F} {e' : Env Fp} (he : SimEnv e e') (hB : HoldsT e'.baseTab baseR) (c : Cmd) (m : Memory (Val F))
    {raw : ℕ → Bool} {m' : Mem Fp} {a : NState} (hs : SimMem raw (view m) m')
    (h : Proofs.Words.NRel m' a) (hn : exec e (view m) c = none) (ha : nexec e'.sha256 e'.sha512 a c = none) :
    ∃ (m1 : Memory (Val F)) (m1' : Mem Fp), (callP e c).runKeep m = (none, m1) ∧ SimMem (rawAfter raw c) (view m1) m1' ∧
      Proofs.Words.NRel m1' (afterPanic a (.call (.call c))) := by
  cases c
  case pUnmarshalText p txt =>
    simp only [exec, Point.unmarshalText] at hn
    simp only [callP]
    cases ht : textToBuf txt with
    | panic =>
      refine ⟨m, m', rfl, weaken hs fun k hk => ?_, h⟩
      simp only [rawAfter, setRaw] at hk
      split at hk
      · cases hk
      · exact hk
    | err => rw [ht] at hn; cases hn
    | ok buf => rw [ht] at hn; cases hn
  case sUnmarshalText s txt =>
    simp only [exec, Scalar.unmarshalText] at hn
    simp only [callP]
    cases ht : b64Decode 32 txt with
    | panic => exact ⟨m, m', rfl, hs, h⟩
    | err => rw [ht] at hn; cases hn
    | ok buf =>
      rw [ht] at hn
      simp only at hn
      split at hn <;> cases hn
  case pPublicScalarMultBase p s =>
    have hd : ¬ topDigit 16 63 (a.scs s) ≤ 8 := by
      intro hd
      simp [nexec, tableVarTime, hd] at ha
    obtain ⟨v1, v1', h1, h2, h2'⟩ := keep_tableS (g := some baseR) p s hs h (tabConst_at (view m).tabs e.baseTab) he.baseTab hB hd
    obtain ⟨m1, h3, h4⟩ := (KeepAt.right (spec_ldSc (view m) s) (KeepAt.left h1) :
      KeepAt (view m) (callP e (.pPublicScalarMultBase p s)) v1) m rfl
    exact ⟨m1, v1', h3, by rw [h4]; exact h2, h2'⟩
  case pPublicScalarMultTable p t s =>
    have hd : ¬ topDigit 16 63 (a.scs s) ≤ 8 := by
      intro hd
      simp [nexec, tableVarTime, hd] at ha
    obtain ⟨v1, v1', h1, h2, h2'⟩ := keep_tableS p s hs h (tabVar_at m t) (hs.tabs t) (h.tabs t) hd
    obtain ⟨m1, h3, h4⟩ := (KeepAt.right (spec_ldSc (view m) s) (KeepAt.left h1) :
      KeepAt (view m) (callP e (.pPublicScalarMultTable p t s)) v1) m rfl
    exact ⟨m1, v1', h3, by rw [h4]; exact h2, h2'⟩
  all_goals
    exfalso
    revert ha
    simp only [nexec, aexec]
    try split
    all_goals exact fun h => Option.some_ne_none _ h

/-- One call. -/
theorem call_simS {e : Env F} {e' : Env Fp} (he : SimEnv e e') (hH : AvoidsNeutral e'.sha256) (hB : HoldsT e'.baseTab baseR)
    (c : Cmd) (m : Memory (Val F)) {raw : ℕ → Bool} {m' : Mem Fp} {a : NState} (hs : SimMem raw (view m) m')
    (h : Proofs.Words.NRel m' a) (hc : allowedCall raw c = true) :
    (∃ (m1 : Memory (Val F)) (m1' : Mem Fp), (callP e c).runKeep m = (none, m1) ∧ nexec e'.sha256 e'.sha512 a c = none ∧
      SimMem (rawAfter raw c) (view m1) m1' ∧ Proofs.Words.NRel m1' (afterPanic a (.call (.call c)))) ∨
    ∃ (m1 : Memory (Val F)) (m1' : Mem Fp) (a' : NState) (o : Out), (callP e c).runKeep m = (some o, m1) ∧ nexec e'.sha256 e'.sha512 a c = some (a', o) ∧
      SimMem (rawAfter raw c) (view m1) m1' ∧ Proofs.Words.NRel m1' a' := by
  have hsp := spec_call e (view m) c m rfl
  have hst := Proofs.Sim.step he hs c hc
  have hsim := Proofs.Words.nstep_sim e' hH hB h c
  cases h1 : exec e (view m) c with
  | none =>
    rw [h1] at hst
    cases h2 : exec e' m' c with
    | some y => rw [h2] at hst; exact hst.elim
    | none =>
      rw [h2] at hsim
      cases h3 : nexec e'.sha256 e'.sha512 a c with
      | some y => rw [h3] at hsim; exact hsim.elim
      | none =>
        left
        obtain ⟨m1, m1', k1, k2, k3⟩ := keep_callS he hB c m hs h h1 h3
        exact ⟨m1, m1', k1, rfl, k2, k3⟩
  | some r =>
    rw [h1] at hst hsp
    cases h2 : exec e' m' c with
    | none => rw [h2] at hst; exact hst.elim
    | some y =>
      rw [h2] at hsim hst
      cases h3 : nexec e'.sha256 e'.sha512 a c with
      | none => rw [h3] at hsim; exact hsim.elim
      | some z =>
        rw [h3] at hsim
        right
        obtain ⟨x, hx, hy⟩ := Option.map_eq_some_iff.1 hsp
        have e1 : view x.2 = r.1 := congrArg Prod.fst hy
        have e2 : x.1 = r.2 := congrArg Prod.snd hy
        refine ⟨x.2, y.1, z.1, z.2, ?_, rfl, ?_, hsim.1⟩
        · rw [runKeep_of_run _ _ _ hx, e2, hst.2, hsim.2]
        · rw [e1]; exact hst.1

/-- Calls and assignments one after another. -/
theorem qrecover_simS {e : Env F} {e' : Env Fp} (he : SimEnv e e') (hH : AvoidsNeutral e'.sha256) (hB : HoldsT e'.baseTab baseR)
    (cs : List QCmd) : ∀ (m : Memory (Val F)) {raw : ℕ → Bool} {m' : Mem Fp} {a : NState}, SimMem raw (view m) m' →
    Proofs.Words.NRel m' a → SafeFrom raw (qcalls cs) = true →
    (qrecoverRun e cs m).1 = (qrecover e'.sha256 e'.sha512 a cs).1 ∧ ∃ (raw' : ℕ → Bool) (m'' : Mem Fp), SimMem raw' (view (qrecoverRun e cs m).2) m'' ∧
      Proofs.Words.NRel m'' (qrecover e'.sha256 e'.sha512 a cs).2 := by
  induction cs with
  | nil => exact fun m raw m' a hs h _ => ⟨rfl, raw, m', hs, h⟩
  | cons c cs ih =>
    intro m raw m' a hs h hc
    cases c with
    | put s w =>
      have hsp : SpecAt (view m) (qcallP e (.put s w)) (some ((view m).setSc s w, Out.unit)) :=
        (spec_stSc (view m) s w).bind (.pure _ _)
      obtain ⟨x, hx, hy⟩ := Option.map_eq_some_iff.1 (hsp m rfl)
      have e1 : view x.2 = (view m).setSc s w := congrArg Prod.fst hy
      have e2 : x.1 = Out.unit := congrArg Prod.snd hy
      have k := runKeep_of_run _ _ _ hx
      rw [e2] at k
      obtain ⟨i1, i2⟩ := ih x.2 (raw := raw) (by rw [e1]; exact hs.setSc s w) (h.setSc s rfl) hc
      simp only [qrecoverRun, qrecover, k, qstep]
      exact ⟨by rw [i1], i2⟩
    | call c =>
      cases c with
      | pRandFails p =>
        obtain ⟨i1, i2⟩ := ih m hs h hc
        exact ⟨congrArg (none :: ·) i1, i2⟩
      | sRandFails s =>
        obtain ⟨i1, i2⟩ := ih m hs h hc
        exact ⟨congrArg (none :: ·) i1, i2⟩
      | call c =>
        change SafeFrom raw (c :: qcalls cs) = true at hc
        unfold SafeFrom at hc
        rw [Bool.and_eq_true] at hc
        rcases call_simS he hH hB c m hs h hc.1 with ⟨m1, m1', h1, h2, h3, h4⟩ | ⟨m1, m1', a', o, h1, h2, h3, h4⟩
        · obtain ⟨i1, i2⟩ := ih m1 h3 h4 hc.2
          have h1' : (qcallP e (.call (.call c))).runKeep m = (none, m1) := h1
          simp only [qrecoverRun, qrecover, h1', qstep, h2]
          exact ⟨by rw [i1], i2⟩
        · obtain ⟨i1, i2⟩ := ih m1 h3 h4 hc.2
          have h1' : (qcallP e (.call (.call c))).runKeep m = (some o, m1) := h1
          simp only [qrecoverRun, qrecover, h1', qstep, h2]
          exact ⟨by rw [i1], i2⟩

end
end Ristretto.Proofs.Conc
