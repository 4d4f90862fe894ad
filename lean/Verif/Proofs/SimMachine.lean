import Verif.Proofs.SimCurve
import Verif.Spec.Raw

/-!
# Comparing two field backends: programs
-/

namespace Ristretto.Proofs.Sim
open Model FieldOps
set_option autoImplicit false

variable {F G : Type} [FieldOps F] [FieldOps G] [L : SimField F G]

variable (F G) in
theorem setElligator_rel (b : Bytes 32) : Tight (Point.setElligator b : ExtPt F) (Point.setElligator b : ExtPt G) :=
  (setElligator2_rel (setBytes F G b)).toExtended

theorem inverseMask_rel : ∀ {l : List (F × Int32)} {l' : List (G × Int32)},
    List.Forall₂ (fun (e : F × Int32) (e' : G × Int32) => R 2 e.1 e'.1 ∧ F2 e.2 e'.2) l l' →
    ∀ j : ℕ, Point.inverseMask j l = Point.inverseMask j l' := by
  intro l l' h
  induction h with
  | nil => intro j; rfl
  | cons h1 _ ih => intro j; unfold Point.inverseMask; rw [h1.2.1, ih]

theorem lizardStep_rel (H : List UInt8 → Bytes 32) (mask : UInt8) {a : F} {x : G} (h : R 2 a x) (j : ℕ)
    (st : Bytes 16 × UInt8) : Point.lizardStep H mask a j st = Point.lizardStep H mask x j st := by
  unfold Point.lizardStep
  rw [h.bytes]

theorem lizardLoop_rel (H : List UInt8 → Bytes 32) (mask : UInt8) : ∀ {l : List (F × Int32)} {l' : List (G × Int32)},
    List.Forall₂ (fun (e : F × Int32) (e' : G × Int32) => R 2 e.1 e'.1 ∧ F2 e.2 e'.2) l l' →
    ∀ (j : ℕ) (st : Bytes 16 × UInt8),
      Point.lizardLoop H mask j (l.map (·.1)) st = Point.lizardLoop H mask j (l'.map (·.1)) st := by
  intro l l' h
  induction h with
  | nil => intro j st; rfl
  | cons h1 _ ih =>
    intro j st
    simp only [List.map_cons, Point.lizardLoop]
    rw [ih, lizardStep_rel H mask h1.1]

theorem Loose.lizardInto {q : ExtPt F} {r : ExtPt G} (h : Loose q r) (H : List UInt8 → Bytes 32) (buf : Bytes 16) :
    Point.lizardInto H q buf = Point.lizardInto H r buf := by
  have hi := h.inverse
  unfold Point.lizardInto
  simp only
  rw [inverseMask_rel hi, lizardLoop_rel H _ hi]

theorem Loose.lizard {q : ExtPt F} {r : ExtPt G} (h : Loose q r) (H : List UInt8 → Bytes 32) :
    Point.lizard H q = Point.lizard H r := by
  unfold Point.lizard
  rw [h.lizardInto]

/-- Related memories; `raw` says which point variables are only loosely related. -/
structure SimMem (raw : ℕ → Bool) (m : Mem F) (m' : Mem G) : Prop where
  loose : ∀ k, Loose (m.pts k) (m'.pts k)
  good : ∀ k, raw k = false → Good (m.pts k) (m'.pts k)
  scs : m.scs = m'.scs
  tabs : ∀ k, TabRel (m.tabs k) (m'.tabs k)

/-- Related environments. -/
structure SimEnv (e : Env F) (e' : Env G) : Prop where
  sha256 : e.sha256 = e'.sha256
  sha512 : e.sha512 = e'.sha512
  baseTab : TabRel e.baseTab e'.baseTab

section
variable {raw : ℕ → Bool} {m : Mem F} {m' : Mem G}

theorem SimMem.setLoose (h : SimMem raw m m') (p : ℕ) {q : ExtPt F} {r : ExtPt G} (hq : Loose q r) :
    SimMem (setRaw raw p true) (m.setPt p q) (m'.setPt p r) := by
  refine ⟨fun k => ?_, fun k hk => ?_, h.scs, h.tabs⟩
  · show Loose (if k = p then q else m.pts k) (if k = p then r else m'.pts k)
    split
    · exact hq
    · exact h.loose k
  · show Good (if k = p then q else m.pts k) (if k = p then r else m'.pts k)
    unfold setRaw at hk
    by_cases e : k = p
    · simp [e] at hk
    · rw [if_neg e] at hk
      rw [if_neg e, if_neg e]
      exact h.good k hk

theorem SimMem.setPt (h : SimMem raw m m') (p : ℕ) {q : ExtPt F} {r : ExtPt G} {b : Bool} (hq : Loose q r)
    (hg : b = false → Good q r) : SimMem (setRaw raw p b) (m.setPt p q) (m'.setPt p r) := by
  refine ⟨(h.setLoose p hq).loose, fun k hk => ?_, h.scs, h.tabs⟩
  show Good (if k = p then q else m.pts k) (if k = p then r else m'.pts k)
  unfold setRaw at hk
  by_cases e : k = p
  · rw [if_pos e] at hk
    rw [if_pos e, if_pos e]
    exact hg hk
  · rw [if_neg e] at hk
    rw [if_neg e, if_neg e]
    exact h.good k hk

theorem SimMem.setTight (h : SimMem raw m m') (p : ℕ) {q : ExtPt F} {r : ExtPt G} (hq : Tight q r) :
    SimMem (setRaw raw p false) (m.setPt p q) (m'.setPt p r) := h.setPt p hq.loose fun _ => hq.good

theorem SimMem.setSc (h : SimMem raw m m') (p : ℕ) (s : Scalar) : SimMem raw (m.setSc p s) (m'.setSc p s) := by
  refine ⟨h.loose, h.good, ?_, h.tabs⟩
  unfold Mem.setSc
  simp only [h.scs]

theorem SimMem.setTab (h : SimMem raw m m') (p : ℕ) {t : Table F} {t' : Table G} (ht : TabRel t t') :
    SimMem raw (m.setTab p t) (m'.setTab p t') := by
  refine ⟨h.loose, h.good, h.scs, fun k => ?_⟩
  show TabRel (if k = p then t else m.tabs k) (if k = p then t' else m'.tabs k)
  split
  · exact ht
  · exact h.tabs k

variable (raw) in
theorem simMem_init : SimMem raw (Mem.init : Mem F) (Mem.init : Mem G) := by
  refine ⟨fun _ => tight_blank.loose, fun _ _ => tight_blank.good, rfl, fun _ => ?_⟩
  have hn : SN (⟨feZero, feZero, feZero⟩ : NielsPt F) (⟨feZero, feZero, feZero⟩ : NielsPt G) :=
    ⟨rZero.mono, rZero.mono, rZero.mono⟩
  have hrep : ∀ {A B : Type} {P : A → B → Prop} {a : A} {b : B}, P a b → ∀ n : ℕ,
      List.Forall₂ P (List.replicate n a) (List.replicate n b) := by
    intro A B P a b h n
    induction n with
    | zero => exact .nil
    | succ n ih => exact .cons h ih
  exact hrep (hrep hn 8) 32

end

/-- Related outcomes of a call. -/
def SimOut {O : Type} (raw : ℕ → Bool) (x : Mem F × O) (y : Mem G × O) : Prop := SimMem raw x.1 y.1 ∧ x.2 = y.2

theorem unmarshalText_rel {q : ExtPt F} {r : ExtPt G} (h : Loose q r) (txt : List UInt8) :
    OptRel (fun (x : ExtPt F × Bool) (y : ExtPt G × Bool) => Loose x.1 y.1 ∧ x.2 = y.2)
      (Point.unmarshalText q txt) (Point.unmarshalText r txt) := by
  unfold Point.unmarshalText
  cases textToBuf txt with
  | panic => exact trivial
  | err => exact ⟨h, rfl⟩
  | ok buf => exact setRistretto F G _

theorem step {e : Env F} {e' : Env G} (he : SimEnv e e') {raw : ℕ → Bool} {m : Mem F} {m' : Mem G}
    (h : SimMem raw m m') (c : Cmd) (hc : allowedCall raw c = true) :
    OptRel (SimOut (rawAfter raw c)) (exec e m c) (exec e' m' c) := by
  have hs : ∀ k, m.scs k = m'.scs k := fun k => by rw [h.scs]
  have hout : ∀ {o o' : Out}, o = o' → OptRel (SimOut raw) (some (m, o)) (some (m', o')) := fun e => ⟨h, e⟩
  have hsc : ∀ (p : ℕ) {s s' : Scalar} {o o' : Out}, s = s' → o = o' →
      OptRel (SimOut raw) (some (m.setSc p s, o)) (some (m'.setSc p s', o')) := by
    intro p s s' o o' e1 e2
    subst e1
    exact ⟨h.setSc p s, e2⟩
  cases c with
  | pZero p => exact ⟨h.setTight p tight_zero, rfl⟩
  | pBase p => exact ⟨h.setPt p good_base.toLoose fun _ => good_base, rfl⟩
  | pSet p q => exact ⟨h.setPt p (h.loose q) (h.good q), rfl⟩
  | pAdd p q r =>
    have hr : raw r = false := by simpa [allowedCall] using hc
    exact ⟨h.setTight p ((h.loose q).add (h.good r hr)), rfl⟩
  | pDouble p q => exact ⟨h.setTight p (h.loose q).double, rfl⟩
  | pSub p q r =>
    have hr : raw r = false := by simpa [allowedCall] using hc
    exact ⟨h.setTight p ((h.loose q).sub (h.good r hr)), rfl⟩
  | pNeg p q => exact ⟨h.setPt p (h.loose q).neg fun e => (h.good q e).neg, rfl⟩
  | pBytes p =>
    refine hout ?_
    unfold Point.marshalBinary
    rw [(h.loose p).ristretto]
  | pSetBytes p buf =>
    obtain ⟨h1, h2⟩ := setRistretto F G buf
    exact ⟨h.setLoose p h1, congrArg Out.bool h2⟩
  | pSetElligator p buf => exact ⟨h.setTight p (setElligator_rel F G buf), rfl⟩
  | pRand p buf => exact ⟨h.setTight p (setElligator_rel F G buf), rfl⟩
  | pDerive p data =>
    simp only [exec, Point.derive]
    rw [he.sha512]
    exact ⟨h.setTight p (setElligator_rel F G _), rfl⟩
  | pDeriveDalek p data =>
    simp only [exec, Point.deriveDalek]
    rw [he.sha512]
    exact ⟨h.setTight p ((setElligator_rel F G _).loose.add (setElligator_rel F G _).good), rfl⟩
  | pSetLizard p data =>
    simp only [exec, Point.setLizard]
    rw [he.sha256]
    exact ⟨h.setTight p (setElligator2_rel (setBytes F G _)).toExtended, rfl⟩
  | pLizard p =>
    simp only [exec]
    rw [he.sha256, (h.loose p).lizard]
    exact ⟨h.setLoose p (h.loose p).jacobiRecv, rfl⟩
  | pLizardInto p buf =>
    simp only [exec]
    rw [he.sha256, (h.loose p).lizardInto]
    exact ⟨h.setLoose p (h.loose p).jacobiRecv, rfl⟩
  | pEqualsI p q => exact hout (congrArg Out.int32 ((h.loose p).equalsI (h.loose q)))
  | pEquals p q =>
    refine hout ?_
    unfold Point.equals
    rw [(h.loose p).equalsI (h.loose q)]
  | pCondSet p q b =>
    have hb : Flag (bit b) := by cases b; exacts [.inl rfl, .inr rfl]
    refine ⟨h.setPt p ((h.loose p).condSet (h.loose q) (.refl hb)) fun e => ?_, rfl⟩
    rw [Bool.or_eq_false_iff] at e
    exact (h.good p e.1).condSet (h.good q e.2) (.refl hb)
  | pUnmarshalBinary p data =>
    simp only [exec, Point.unmarshalBinary]
    split
    · exact ⟨h.setLoose p (h.loose p), rfl⟩
    · obtain ⟨h1, h2⟩ := setRistretto F G (toBytes 32 data)
      exact ⟨h.setLoose p h1, congrArg Out.bool h2⟩
  | pMarshalText p =>
    refine hout ?_
    unfold Point.marshalText
    rw [(h.loose p).ristretto]
  | pUnmarshalText p txt =>
    have ht := unmarshalText_rel (h.loose p) txt
    refine OptRel.bind (P := fun (x : ExtPt F × Bool) (y : ExtPt G × Bool) => Loose x.1 y.1 ∧ x.2 = y.2)
      (fun _ _ hq => ?_) ht
    exact ⟨h.setLoose p hq.1, congrArg Out.bool hq.2⟩
  | pScalarMult p q s =>
    have hr : raw q = false := by simpa [allowedCall] using hc
    simp only [exec, Point.scalarMult]
    rw [hs]
    exact ⟨h.setTight p ((h.good q hr).scalarMult _), rfl⟩
  | pPublicScalarMult p q s =>
    have hr : raw q = false := by simpa [allowedCall] using hc
    simp only [exec, Point.publicScalarMult]
    rw [hs]
    refine OptRel.bind (P := Tight) (fun _ _ hq => ?_) ((h.good q hr).varTime _)
    exact ⟨h.setTight p hq, rfl⟩
  | pScalarMultBase p s =>
    simp only [exec, Point.scalarMultTable]
    rw [hs]
    exact ⟨h.setTight p (tableMult_rel he.baseTab _), rfl⟩
  | pPublicScalarMultBase p s =>
    simp only [exec, Point.publicScalarMultTable]
    rw [hs]
    refine OptRel.bind (P := Tight) (fun _ _ hq => ?_) (tableVarTime_rel he.baseTab _)
    exact ⟨h.setTight p hq, rfl⟩
  | pScalarMultTable p t s =>
    simp only [exec, Point.scalarMultTable]
    rw [hs]
    exact ⟨h.setTight p (tableMult_rel (h.tabs t) _), rfl⟩
  | pPublicScalarMultTable p t s =>
    simp only [exec, Point.publicScalarMultTable]
    rw [hs]
    refine OptRel.bind (P := Tight) (fun _ _ hq => ?_) (tableVarTime_rel (h.tabs t) _)
    exact ⟨h.setTight p hq, rfl⟩
  | tCompute t p =>
    have hr : raw p = false := by simpa [allowedCall] using hc
    exact ⟨h.setTab t (h.good p hr).table, rfl⟩
  | sZero s => exact hsc s rfl rfl
  | sOne s => exact hsc s rfl rfl
  | sSet s a => exact hsc s (hs a) rfl
  | sAdd s a b => exact hsc s (by rw [hs a, hs b]) rfl
  | sSub s a b => exact hsc s (by rw [hs a, hs b]) rfl
  | sNeg s a => exact hsc s (by rw [hs a]) rfl
  | sMul s a b => exact hsc s (by rw [hs a, hs b]) rfl
  | sSquare s a => exact hsc s (by rw [hs a]) rfl
  | sMulAdd s a b c => exact hsc s (by rw [hs a, hs b, hs c]) rfl
  | sMulSub s a b c => exact hsc s (by rw [hs a, hs b, hs c]) rfl
  | sInverse s a => exact hsc s (by rw [hs a]) rfl
  | sCondSet s a b => exact hsc s (by rw [hs a, hs s]) rfl
  | sSetBytes s buf => exact hsc s rfl rfl
  | sSetBytesStrict s buf => exact hsc s (by rw [hs s]) (by rw [hs s])
  | sSetReduced s buf => exact hsc s rfl rfl
  | sRand s buf => exact hsc s rfl rfl
  | sDerive s data => exact hsc s (by rw [he.sha512]) rfl
  | sDeriveShort s data => exact hsc s (by rw [he.sha512]) rfl
  | sSetBigInt s x => exact hsc s rfl rfl
  | sSetUint64 s x => exact hsc s rfl rfl
  | sUnmarshalBinary s data => exact hsc s (by rw [hs s]) (by rw [hs s])
  | sUnmarshalText s txt =>
    simp only [exec]
    rw [hs s]
    cases Scalar.unmarshalText (m'.scs s) txt with
    | none => exact trivial
    | some r => exact hsc s rfl rfl
  | sBytes s => exact hout (by rw [hs s])
  | sMarshalText s => exact hout (by rw [hs s])
  | sBigInt s => exact hout (by rw [hs s])
  | sIsNonZeroI s => exact hout (by rw [hs s])
  | sEqualsI s a => exact hout (by rw [hs s, hs a])
  | sEquals s a => exact hout (by rw [hs s, hs a])

/-- A safe program does the same with both backends. -/
theorem run_sim {e : Env F} {e' : Env G} (he : SimEnv e e') : ∀ (cs : List Cmd) {raw : ℕ → Bool} {m : Mem F}
    {m' : Mem G}, SimMem raw m m' → SafeFrom raw cs = true →
    (run e m cs).map Prod.snd = (run e' m' cs).map Prod.snd
  | [], _, _, _, _, _ => rfl
  | c :: cs, raw, m, m', h, hs => by
    unfold SafeFrom at hs
    rw [Bool.and_eq_true] at hs
    have h1 := step he h c hs.1
    unfold run
    cases hx : exec e m c with
    | none =>
      cases hy : exec e' m' c with
      | none => rfl
      | some y => rw [hx, hy] at h1; exact h1.elim
    | some x =>
      cases hy : exec e' m' c with
      | none => rw [hx, hy] at h1; exact h1.elim
      | some y =>
        rw [hx, hy] at h1
        obtain ⟨h2, h3⟩ := h1
        have ih := run_sim he cs h2 hs.2
        simp only [Option.bind_eq_bind, Option.bind_some]
        rw [h3]
        cases hr : run e x.1 cs with
        | none =>
          cases hr' : run e' y.1 cs with
          | none => rfl
          | some z => rw [hr, hr'] at ih; simp at ih
        | some w =>
          cases hr' : run e' y.1 cs with
          | none => rw [hr, hr'] at ih; simp at ih
          | some z =>
            rw [hr, hr'] at ih
            simp only [Option.map_some, Option.some.injEq] at ih
            simp [ih]

end Ristretto.Proofs.Sim
