import Verif.Proofs.DegExact
import Verif.Proofs.Machine
import Verif.Spec.Words

/-!
# The code on scalars that need not be reduced
-/

namespace Ristretto.Proofs.Words
open Model Model.Words FieldOps LawfulField Spec.EdRange Ristretto.Words
set_option autoImplicit false

variable {F : Type} [LawfulField F]

theorem isTable_rows : ∀ (t : List (List (NielsPt F))) (P : EPoint), IsTable t P → ∀ row ∈ t, row.length = 8
  | [], _, _, _, h => by cases h
  | _ :: rows, P, h, row', hr => by
    rcases List.mem_cons.1 hr with rfl | hr
    · exact h.1.1
    · exact isTable_rows rows _ h.2 row' hr

theorem tabRel_shape {t : Table F} {g : Option RGroup} (h : TabRel t g) : Proofs.Ed.ShapeT t := by
  cases g with
  | none => exact Proofs.Ed.degT_shape h
  | some g =>
    obtain ⟨P, hP, h1, h2, -⟩ := h
    exact ⟨h2, isTable_rows t P h1⟩

theorem cls_zsmul {P : EPoint} (hP : P ∈ Even) (n : ℤ) : cls (n • P) (Even.zsmul_mem hP n) = n • cls P hP := rfl

theorem zp_zmul {q : ExtPt F} {n : ℤ} (h : Zp (n ≠ 0) q) : PtRel q (zmulO n none) := by
  show PtRel q (if n = 0 then some 0 else none)
  split
  · rename_i h0
    exact ⟨0, Even.zero_mem, h.2 (fun hn => hn h0), rfl⟩
  · rename_i h0
    exact h.1 h0

theorem smul_all {q : ExtPt F} {g : Option RGroup} (hq : PtRel q g) (s : Scalar) :
    PtRel (Point.scalarMult q s) (zmulO (Ristretto.Ed.byWindows (scVal s)) g) := by
  rw [← bytes_val]
  cases g with
  | none => exact zp_zmul (Proofs.Ed.scalarMult_deg_all hq _)
  | some g =>
    obtain ⟨P, hP, h1, rfl⟩ := hq
    exact ⟨_, Even.zsmul_mem hP _, Proofs.Ed.scalarMult_all h1 _, rfl⟩

theorem psmul_all {q : ExtPt F} {g : Option RGroup} (hq : PtRel q g) (s : Scalar) :
    ∃ r, Point.publicScalarMult q s = some r ∧ PtRel r (zmulO (Ristretto.Ed.byNaf (scVal s)) g) := by
  rw [← bytes_val]
  cases g with
  | none =>
    obtain ⟨r, e, h⟩ := Proofs.Ed.varTimeScalarMult_deg_all hq s.bytes
    exact ⟨r, e, zp_zmul h⟩
  | some g =>
    obtain ⟨P, hP, h1, rfl⟩ := hq
    obtain ⟨r, e, h⟩ := Proofs.Ed.varTimeScalarMult_all h1 s.bytes
    exact ⟨r, e, _, Even.zsmul_mem hP _, h, rfl⟩

theorem tsmul_all {t : Table F} {g : Option RGroup} (ht : TabRel t g) (s : Scalar) :
    PtRel (Point.scalarMultTable t s) (zmulO (Ristretto.Ed.byTable (scVal s)) g) := by
  have hs := tabRel_shape ht
  rw [← bytes_val]
  cases g with
  | none => exact zp_zmul (Proofs.Ed.tableScalarMult_deg_all ht _)
  | some g =>
    obtain ⟨P, hP, h1, -, rfl⟩ := ht
    exact ⟨_, Even.zsmul_mem hP _, Proofs.Ed.tableScalarMult_all h1 hs _, rfl⟩

theorem zp_cast {q : ExtPt F} {n : ℕ} (h : Zp (n ≠ 0) q) : Zp ((n : ℤ) ≠ 0) q :=
  ⟨fun h' => h.1 (fun e => h' (by rw [e]; rfl)), fun h' => h.2 (fun hn => h' (Int.natCast_ne_zero.2 hn))⟩

theorem tpsmul_all {t : Table F} {g : Option RGroup} (ht : TabRel t g) (s : Scalar) :
    (topDigit 16 63 (scVal s) ≤ 8 → ∃ r, Point.publicScalarMultTable t s = some r ∧ PtRel r (zmulO (scVal s) g)) ∧
    (¬ topDigit 16 63 (scVal s) ≤ 8 → Point.publicScalarMultTable t s = none) := by
  have hs := tabRel_shape ht
  rw [← bytes_val]
  refine ⟨fun h => ?_, fun h => Proofs.Ed.tableVarTime_panic hs s.bytes (by omega)⟩
  cases g with
  | none =>
    obtain ⟨r, e, h⟩ := Proofs.Ed.tableVarTime_deg_all ht s.bytes h
    refine ⟨r, e, ?_⟩
    generalize leVal s.bytes = n at h
    exact zp_zmul (zp_cast h)
  | some g =>
    obtain ⟨P, hP, h1, -, rfl⟩ := ht
    obtain ⟨r, e, h⟩ := (Proofs.Ed.tableVarTime_all h1 hs s.bytes).1 h
    rw [← natCast_zsmul] at h
    exact ⟨r, e, _, Even.zsmul_mem hP _, h, rfl⟩

theorem add_all (x y : Scalar) : scVal (Scalar.add x y) = addN (scVal x) (scVal y) := by
  unfold Scalar.add addN
  rw [sub_val, addRaw_val, scVal_scL]
  have hl := l_eq
  have hlt : (scVal x + scVal y) % 2 ^ 256 < 2 ^ 256 := Nat.mod_lt _ (by norm_num)
  generalize (scVal x + scVal y) % 2 ^ 256 = t at *
  generalize l = L at *
  split <;> omega

theorem sub_all (x y : Scalar) : scVal (Scalar.sub x y) = subN (scVal x) (scVal y) := by
  rw [sub_val]
  unfold subN
  have hy := scVal_lt y
  generalize scVal x = a at *
  generalize scVal y = b at *
  by_cases h : a < b
  · rw [if_pos h, if_neg (by omega)]
    congr 1
    omega
  · rw [if_neg h, if_pos (by omega)]

theorem sub_zero_all (x y : Scalar) : scVal (Scalar.sub x y) = 0 ↔ eqN (scVal x) (scVal y) := by
  rw [sub_all]
  unfold subN eqN
  have hx := scVal_lt x
  have hy := scVal_lt y
  have hl := l_eq
  generalize scVal x = a at *
  generalize scVal y = b at *
  generalize l = L at *
  split <;> omega

open Classical in
theorem equalsI_all (x y : Scalar) : Scalar.equalsI x y = flag (eqN (scVal x) (scVal y)) := by
  unfold Scalar.equalsI
  rw [isNonZeroI_sc, one_sub_flag]
  exact flag_congr (not_not.trans (sub_zero_all x y))

theorem equals_all (x y : Scalar) : (Scalar.equals x y = true) ↔ eqN (scVal x) (scVal y) := by
  unfold Scalar.equals
  rw [isNonZeroI_sc, ← sub_zero_all]
  by_cases hc : scVal (Scalar.sub x y) = 0
  · rw [flag, if_neg (by rw [not_not]; exact hc)]; simp [hc]
  · rw [flag, if_pos hc]; simp [hc]

theorem val_of {n : ℕ} {z : ZMod l} (h1 : n < l) (h2 : (n : ZMod l) = z) : n = z.val := by
  rw [← h2, ZMod.val_natCast, Nat.mod_eq_of_lt h1]

theorem inverse_all (x : Scalar) : scVal (Scalar.inverse x) = ((scVal x : ZMod l)⁻¹).val := by
  apply val_of (inverse_red x)
  by_cases h0 : scVal x % l = 0
  · rw [inverse_zero x h0]
    have : (scVal x : ZMod l) = 0 := (ZMod.natCast_eq_zero_iff _ _).2 (Nat.dvd_of_mod_eq_zero h0)
    rw [this, inv_zero, Nat.cast_zero]
  · apply eq_inv_of_mul_eq_one_left
    rw [← Nat.cast_mul, ← ZMod.natCast_mod, inverse_mul x h0, Nat.cast_one]

theorem emod_val {n : ℕ} {x : ℤ} (h : (n : ℤ) = x % l) : n = (x : ZMod l).val := by
  have hl : (0 : ℤ) < l := by exact_mod_cast l_prime.pos
  have h1 : (n : ℤ) < l := h ▸ Int.emod_lt_of_pos _ hl
  apply val_of (by exact_mod_cast h1)
  have : ((n : ℤ) : ZMod l) = x := by
    rw [h]
    exact (ZMod.intCast_eq_intCast_iff' _ _ _).2 (Int.emod_emod_of_dvd _ (dvd_refl _))
  exact_mod_cast this

theorem bytes_all (x : Scalar) : Scalar.bytes x = littleEndian (scVal x) := by
  apply leVal_inj
  rw [show littleEndian (scVal x) = leBytes 32 (scVal x) from rfl, bytes_val, leVal_leBytes, Nat.mod_eq_of_lt]
  have := scVal_lt x
  norm_num at *
  omega

/-- The memory holds the abstract contents. -/
structure NRel (m : Mem F) (a : NState) : Prop where
  pts : ∀ k, PtRel (m.pts k) (a.pts k)
  scs : ∀ k, scVal (m.scs k) = a.scs k
  tabs : ∀ k, TabRel (m.tabs k) (a.tabs k)

/-- Both panic, or both finish in related states with the same output. -/
def NSim {α : Type} : Option (Mem F × α) → Option (NState × α) → Prop
  | some (m, o), some (a, o') => NRel m a ∧ o = o'
  | none, none => True
  | _, _ => False

variable {m : Mem F} {a : NState}

theorem NRel.setPt (h : NRel m a) (p : ℕ) {q : ExtPt F} {g : Option RGroup} (hq : PtRel q g) :
    NRel (m.setPt p q) (a.setPt p g) := by
  refine ⟨fun k => ?_, h.scs, h.tabs⟩
  simp only [Mem.setPt, NState.setPt]
  by_cases hk : k = p
  · rw [if_pos hk, if_pos hk]; exact hq
  · rw [if_neg hk, if_neg hk]; exact h.pts k

theorem NRel.setSc (h : NRel m a) (s : ℕ) {x : Scalar} {v : ℕ} (hx : scVal x = v) : NRel (m.setSc s x) (a.setSc s v) := by
  refine ⟨h.pts, fun k => ?_, h.tabs⟩
  simp only [Mem.setSc, NState.setSc]
  by_cases hk : k = s
  · rw [if_pos hk, if_pos hk]; exact hx
  · rw [if_neg hk, if_neg hk]; exact h.scs k

/-- A call that neither reads nor writes scalars. -/
theorem no_scalars (e : Env F) (hH : AvoidsNeutral e.sha256) (hB : HoldsT e.baseTab baseR) (h : NRel m a) (c : Cmd)
    (hc : exec e m c = (exec e ⟨m.pts, fun _ => scZero, m.tabs⟩ c).map fun r => (⟨r.1.pts, m.scs, r.1.tabs⟩, r.2)) :
    NSim (exec e m c) ((aexec e.sha256 e.sha512 ⟨a.pts, fun _ => 0, a.tabs⟩ c).map
      fun r => (⟨r.1.pts, a.scs, r.1.tabs⟩, r.2)) := by
  have hr : Rel (⟨m.pts, fun _ => scZero, m.tabs⟩ : Mem F) ⟨a.pts, fun _ => 0, a.tabs⟩ :=
    ⟨h.pts, fun _ => scRel_of (by show scVal scZero < l; rw [scVal_scZero]; exact l_prime.pos)
      (by show (scVal scZero : ZMod l) = 0; rw [scVal_scZero, Nat.cast_zero]), h.tabs⟩
  have hs := step e hH hB hr c
  rw [hc]
  cases h1 : exec e ⟨m.pts, fun _ => scZero, m.tabs⟩ c with
  | none =>
    rw [h1] at hs
    cases h2 : aexec e.sha256 e.sha512 ⟨a.pts, fun _ => 0, a.tabs⟩ c with
    | none => exact trivial
    | some y => rw [h2] at hs; exact hs.elim
  | some x =>
    rw [h1] at hs
    cases h2 : aexec e.sha256 e.sha512 ⟨a.pts, fun _ => 0, a.tabs⟩ c with
    | none => rw [h2] at hs; exact hs.elim
    | some y =>
      rw [h2] at hs
      exact ⟨⟨hs.1.pts, h.scs, hs.1.tabs⟩, hs.2⟩

theorem nstep_sim (e : Env F) (hH : AvoidsNeutral e.sha256) (hB : HoldsT e.baseTab baseR) (h : NRel m a) (c : Cmd) :
    NSim (exec e m c) (nexec e.sha256 e.sha512 a c) := by
  have hpt : ∀ (p : ℕ) {q : ExtPt F} {g : Option RGroup} {o : Out}, PtRel q g →
      NSim (some (m.setPt p q, o)) (some (a.setPt p g, o)) := fun p _ _ _ hq => ⟨h.setPt p hq, rfl⟩
  have hsc : ∀ (p : ℕ) {q : Scalar} {g : ℕ} {o : Out}, scVal q = g →
      NSim (some (m.setSc p q, o)) (some (a.setSc p g, o)) := fun p _ _ _ hq => ⟨h.setSc p hq, rfl⟩
  have hout : ∀ {o o' : Out}, o = o' → NSim (some (m, o)) (some (a, o')) := fun e => ⟨h, e⟩
  have htv : ∀ (p s : ℕ) {t : Table F} {g : Option RGroup}, TabRel t g →
      NSim ((Point.publicScalarMultTable t (m.scs s)).bind fun r => some (m.setPt p r, Out.unit))
        (tableVarTime (a.scs s) a p g) := by
    intro p s t g ht
    obtain ⟨h1, h2⟩ := tpsmul_all ht (m.scs s)
    rw [h.scs s] at h1 h2
    unfold tableVarTime
    split
    · rename_i hd
      obtain ⟨r, e, hr⟩ := h1 hd
      rw [e]
      exact hpt p hr
    · rename_i hd
      rw [h2 hd]
      exact trivial
  cases c with
  | pScalarMult p q s => exact hpt p (by rw [← h.scs s]; exact smul_all (h.pts q) _)
  | pPublicScalarMult p q s =>
    obtain ⟨r, e, hr⟩ := psmul_all (h.pts q) (m.scs s)
    unfold exec nexec
    simp only [e, Option.bind_eq_bind, Option.bind_some]
    exact hpt p (by rw [← h.scs s]; exact hr)
  | pScalarMultBase p s => exact hpt p (by rw [← h.scs s]; exact tsmul_all (g := some baseR) hB _)
  | pPublicScalarMultBase p s => exact htv p s (g := some baseR) hB
  | pScalarMultTable p t s => exact hpt p (by rw [← h.scs s]; exact tsmul_all (h.tabs t) _)
  | pPublicScalarMultTable p t s => exact htv p s (h.tabs t)
  | sZero s => exact hsc s scVal_scZero
  | sOne s => exact hsc s scVal_scOne
  | sSet s x => exact hsc s (h.scs x)
  | sAdd s x y => exact hsc s (by rw [add_all, h.scs, h.scs])
  | sSub s x y => exact hsc s (by rw [sub_all, h.scs, h.scs])
  | sNeg s x => exact hsc s (by rw [Scalar.neg, sub_all, h.scs, scVal_scZero])
  | sMul s x y => exact hsc s (by rw [mul_spec, h.scs, h.scs])
  | sSquare s x => exact hsc s (by rw [square_spec, h.scs, sq])
  | sMulAdd s x y z => exact hsc s (by rw [mulAdd_spec, h.scs, h.scs, h.scs])
  | sMulSub s x y z =>
    refine hsc s ?_
    rw [emod_val (mulSub_spec _ _ _), h.scs, h.scs, h.scs]
    push_cast
    rfl
  | sInverse s x => exact hsc s (by rw [inverse_all, h.scs])
  | sCondSet s x b =>
    refine hsc s ?_
    cases b
    · show scVal (Scalar.condSet _ _ 0) = a.scs s
      rw [(condSet_sc _ _).1]; exact h.scs s
    · show scVal (Scalar.condSet _ _ 1) = a.scs x
      rw [(condSet_sc _ _).2]; exact h.scs x
  | sSetBytes s buf => exact hsc s (setBytes_val _)
  | sSetBytesStrict s buf =>
    obtain ⟨h1, h2⟩ := setBytesStrict_spec (m.scs s) buf
    unfold exec nexec
    simp only
    by_cases hl : leVal buf < l
    · obtain ⟨h3, h4⟩ := h1 hl
      rw [if_pos hl, h3]
      exact hsc s h4
    · rw [if_neg hl, h2 hl]
      simp only [setSc_self]
      exact ⟨h, rfl⟩
  | sSetReduced s buf => exact hsc s (setReduced_val _)
  | sRand s buf => exact hsc s (setReduced_val _)
  | sDerive s data => exact hsc s (setReduced_val _)
  | sDeriveShort s data =>
    have := deriveShort_val (e.sha512 data)
    rw [take16_mod] at this
    exact hsc s this
  | sSetBigInt s x => exact hsc s (emod_val (setBigInt_val x))
  | sSetUint64 s x => exact hsc s (setUint64_val x)
  | sUnmarshalBinary s data =>
    unfold exec nexec Scalar.unmarshalBinary
    by_cases hl : data.length = 32
    · simp only [dif_pos hl, if_pos hl]
      exact hsc s (setBytes_val _)
    · simp only [dif_neg hl, if_neg hl, setSc_self]
      exact ⟨h, rfl⟩
  | sUnmarshalText s txt =>
    unfold exec nexec Scalar.unmarshalText
    simp only [parseScalar_eq]
    cases b64Decode 32 txt with
    | panic => exact trivial
    | err =>
      simp only [Option.bind_eq_bind, Option.bind_some, setSc_self]
      exact ⟨h, rfl⟩
    | ok out =>
      by_cases hl : out.length = 32
      · simp only [if_pos hl, if_neg (not_not.2 hl), Option.bind_eq_bind, Option.bind_some]
        refine hsc s ?_
        rw [setBytes_val]
      · simp only [if_neg hl, if_pos hl, Option.bind_eq_bind, Option.bind_some, setSc_self]
        exact ⟨h, rfl⟩
  | sBytes s => exact hout (by rw [← h.scs s, ← bytes_all]; rfl)
  | sMarshalText s => exact hout (by rw [← h.scs s, ← text32_eq, ← bytes_all]; rfl)
  | sBigInt s => exact hout (by rw [bigInt_val, h.scs s])
  | sIsNonZeroI s =>
    refine hout (congrArg Out.int32 ?_)
    rw [isNonZeroI_sc, h.scs s]
    unfold flag
    by_cases h0 : a.scs s = 0
    · rw [if_pos h0, if_neg (not_not.2 h0)]
    · rw [if_neg h0, if_pos h0]
  | sEqualsI s x =>
    refine hout (congrArg Out.int32 ?_)
    rw [equalsI_all, h.scs, h.scs]
    rfl
  | sEquals s x =>
    refine hout (congrArg Out.bool ?_)
    have := equals_all (m.scs s) (m.scs x)
    rw [h.scs, h.scs] at this
    by_cases h0 : eqN (a.scs s) (a.scs x)
    · rw [if_pos h0]; exact this.2 h0
    · rw [if_neg h0]; exact Bool.eq_false_iff.2 (fun h' => h0 (this.1 h'))
  | pUnmarshalText p txt =>
    refine no_scalars e hH hB h _ ?_
    simp only [exec, Option.bind_eq_bind]
    cases Point.unmarshalText (m.pts p) txt <;> rfl
  | _ => exact no_scalars e hH hB h _ rfl

theorem wrun_sim (e : Env F) (hH : AvoidsNeutral e.sha256) (hB : HoldsT e.baseTab baseR) (cs : List WCmd) :
    ∀ (m : Mem F) (a : NState), NRel m a → NSim (wrun e m cs) (nrun e.sha256 e.sha512 a cs) := by
  induction cs with
  | nil => intro m a h; exact ⟨h, rfl⟩
  | cons c cs ih =>
    intro m a h
    have hs : NSim (wexec e m c) (nstep e.sha256 e.sha512 a c) := by
      cases c with
      | call c => exact nstep_sim e hH hB h c
      | put s w => exact ⟨h.setSc s rfl, rfl⟩
    unfold wrun nrun
    cases h1 : wexec e m c with
    | none =>
      cases h2 : nstep e.sha256 e.sha512 a c with
      | none => exact trivial
      | some y => rw [h1, h2] at hs; exact hs.elim
    | some x =>
      cases h2 : nstep e.sha256 e.sha512 a c with
      | none => rw [h1, h2] at hs; exact hs.elim
      | some y =>
        rw [h1, h2] at hs
        obtain ⟨m', o⟩ := x
        obtain ⟨a', o'⟩ := y
        obtain ⟨hr, ho⟩ := hs
        have := ih m' a' hr
        simp only [Option.bind_eq_bind, Option.bind_some]
        cases h3 : wrun e m' cs with
        | none =>
          cases h4 : nrun e.sha256 e.sha512 a' cs with
          | none => exact trivial
          | some y => rw [h3, h4] at this; exact this.elim
        | some x =>
          cases h4 : nrun e.sha256 e.sha512 a' cs with
          | none => rw [h3, h4] at this; exact this.elim
          | some y =>
            rw [h3, h4] at this
            obtain ⟨m'', os⟩ := x
            obtain ⟨a'', os'⟩ := y
            obtain ⟨hr', ho'⟩ := this
            exact ⟨hr', by rw [ho, ho']⟩

end Ristretto.Proofs.Words
