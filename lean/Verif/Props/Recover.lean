import Verif.Spec.Recover
import Verif.Props.Conc

/-!
# C70: clients that recover from panics

`recoverRun` makes calls one after another, as sequences of loads and stores, and recovers from every panic; `arecover`
(Spec/Recover.lean) is the same on group elements and residues, where a call that panics does nothing.
-/

namespace Ristretto.Props
open Model Model.Conc Spec.Conc Proofs Proofs.Conc
set_option autoImplicit false

theorem runKeep_some {L : Type} {V : L → Type} {α : Type} [DecidableEq L] : ∀ (P : Prog V α) (m : Memory V) (x : α × Memory V),
    P.run m = some x → P.runKeep m = (some x.1, x.2)
  | .ret a, m, x, h => by cases h; rfl
  | .fail, m, x, h => by cases h
  | .ld l k, m, x, h => runKeep_some (k (m l)) m x h
  | .st l v k, m, x, h => runKeep_some k _ x h

theorem exec_cases (sha512 : List UInt8 → Bytes 64) (c : Cmd) (m : Mem Fe51) (a : AState) (h : Denotes m a) :
    (exec (goEnv sha512) m c = none ∧ aexec Sha256.sha256 sha512 a c = none) ∨
    ∃ m' a' o, exec (goEnv sha512) m c = some (m', o) ∧ aexec Sha256.sha256 sha512 a c = some (a', o) ∧ Denotes m' a' := by
  rcases sim_cases sha512 [c] m a h with ⟨h1, h2⟩ | ⟨m', a', outs, h1, h2, h3⟩
  · left
    constructor
    · cases he : exec (goEnv sha512) m c with
      | none => rfl
      | some r => simp [run, he] at h1
    · cases he : aexec Sha256.sha256 sha512 a c with
      | none => rfl
      | some r => simp [arun, he] at h2
  · right
    cases he : exec (goEnv sha512) m c with
    | none => simp [run, he] at h1
    | some r =>
      cases he' : aexec Sha256.sha256 sha512 a c with
      | none => simp [arun, he'] at h2
      | some r' =>
        obtain ⟨m1, o⟩ := r
        obtain ⟨a1, o'⟩ := r'
        simp [run, he] at h1
        simp [arun, he'] at h2
        obtain ⟨rfl, rfl⟩ := h1
        obtain ⟨rfl, h4⟩ := h2
        refine ⟨m1, a1, o, rfl, ?_, h3⟩
        simpa using h4

/-- A call that panics makes no store. -/
theorem call_fail (sha512 : List UInt8 → Bytes 64) (c : Cmd) (m : Mem Fe51) (a : AState) (h : Denotes m a)
    (hn : exec (goEnv sha512) m c = none) : callP (goEnv sha512) c = .fail := by
  have ha : aexec Sha256.sha256 sha512 a c = none := by
    rcases exec_cases sha512 c m a h with ⟨-, h2⟩ | ⟨m', a', o, h1, -⟩
    · exact h2
    · rw [hn] at h1; cases h1
  cases c
  case pUnmarshalText p txt =>
    simp only [exec, Point.unmarshalText] at hn
    simp only [callP]
    cases ht : textToBuf txt with
    | panic => rfl
    | err => rw [ht] at hn; cases hn
    | ok buf => rw [ht] at hn; cases hn
  case sUnmarshalText s txt =>
    simp only [exec, Scalar.unmarshalText] at hn
    simp only [callP]
    cases ht : b64Decode 32 txt with
    | panic => rfl
    | err => rw [ht] at hn; cases hn
    | ok buf =>
      rw [ht] at hn
      simp only at hn
      split at hn <;> cases hn
  all_goals
    exfalso
    revert ha
    simp only [aexec]
    try split
    all_goals exact fun h => Option.some_ne_none _ h

theorem recover_step (sha512 : List UInt8 → Bytes 64) (c : RCmd) (m : Memory (Val Fe51)) (a : AState)
    (h : Denotes (view m) a) :
    ((rcallP (goEnv sha512) c).runKeep m = (none, m) ∧ arcall Sha256.sha256 sha512 a c = none) ∨
    ∃ m' a' o, (rcallP (goEnv sha512) c).runKeep m = (some o, m') ∧ arcall Sha256.sha256 sha512 a c = some (a', o) ∧
      Denotes (view m') a' := by
  cases c with
  | pRandFails p => exact Or.inl ⟨rfl, rfl⟩
  | sRandFails s => exact Or.inl ⟨rfl, rfl⟩
  | call c =>
    have hs := spec_call (goEnv sha512) (view m) c m rfl
    rcases exec_cases sha512 c (view m) a h with ⟨h1, h2⟩ | ⟨m', a', o, h1, h2, h3⟩
    · left
      refine ⟨?_, h2⟩
      show (callP (goEnv sha512) c).runKeep m = _
      rw [call_fail sha512 c _ a h h1]
      rfl
    · right
      rw [h1] at hs
      obtain ⟨x, hx, hy⟩ := Option.map_eq_some_iff.1 hs
      have e1 : view x.2 = m' := congrArg Prod.fst hy
      have e2 : x.1 = o := congrArg Prod.snd hy
      refine ⟨x.2, a', o, ?_, h2, by rw [e1]; exact h3⟩
      show (callP (goEnv sha512) c).runKeep m = _
      rw [runKeep_some _ _ _ hx, e2]

/-- **C70.** Any calls, each with a `recover` around it, on variables that hold the abstract contents `a`: what they return,
which of them panic, and what the variables hold afterwards are what the abstract machine says, where a call that panics
does nothing. -/
theorem C70_recover (sha512 : List UInt8 → Bytes 64) (cs : List RCmd) (m : Memory (Val Fe51)) (a : AState)
    (h : Denotes (view m) a) :
    (recoverRun (goEnv sha512) cs m).1 = (arecover Sha256.sha256 sha512 a cs).1 ∧
    Denotes (view (recoverRun (goEnv sha512) cs m).2) (arecover Sha256.sha256 sha512 a cs).2 := by
  induction cs generalizing m a with
  | nil => exact ⟨rfl, h⟩
  | cons c cs ih =>
    rcases recover_step sha512 c m a h with ⟨h1, h2⟩ | ⟨m', a', o, h1, h2, h3⟩
    · obtain ⟨i1, i2⟩ := ih m a h
      simp only [recoverRun, arecover, h1, h2]
      exact ⟨by rw [i1], i2⟩
    · obtain ⟨i1, i2⟩ := ih m' a' h3
      simp only [recoverRun, arecover, h1, h2]
      exact ⟨by rw [i1], i2⟩

/-- **C70** (panics): a call that panics changes no word of any variable.  It is `UnmarshalText` of a text
that does not parse and is too long (`parsePoint`, `parseScalar` of Spec/Text.lean), or `Rand` without random bytes. -/
theorem C70_panic (sha512 : List UInt8 → Bytes 64) (c : RCmd) (m m' : Memory (Val Fe51)) (a : AState)
    (h : Denotes (view m) a) (hp : (rcallP (goEnv sha512) c).runKeep m = (none, m')) :
    m' = m ∧ ((∃ p, c = .pRandFails p) ∨ (∃ s, c = .sRandFails s) ∨
      (∃ p txt, c = .call (.pUnmarshalText p txt) ∧ parsePoint txt = .panic) ∨
      ∃ s txt, c = .call (.sUnmarshalText s txt) ∧ parseScalar txt = .panic) := by
  rcases recover_step sha512 c m a h with ⟨h1, h2⟩ | ⟨m'', a', o, h1, -⟩
  · rw [hp] at h1
    refine ⟨congrArg Prod.snd h1, ?_⟩
    cases c with
    | pRandFails p => exact Or.inl ⟨p, rfl⟩
    | sRandFails s => exact Or.inr (Or.inl ⟨s, rfl⟩)
    | call c =>
      right; right
      cases c
      case pUnmarshalText p txt =>
        left
        refine ⟨p, txt, rfl, ?_⟩
        simp only [arcall, aexec] at h2
        split at h2
        · assumption
        · cases h2
        · cases h2
      case sUnmarshalText s txt =>
        right
        refine ⟨s, txt, rfl, ?_⟩
        simp only [arcall, aexec] at h2
        split at h2
        · assumption
        · cases h2
        · cases h2
      all_goals
        exfalso
        revert h2
        simp only [arcall, aexec]
        try split
        all_goals exact fun h => Option.some_ne_none _ h
  · rw [hp] at h1
    cases h1

theorem parse_panics : parsePoint (List.replicate 44 65) = .panic ∧ parseScalar (List.replicate 44 65) = .panic := by
  have h1 : textToBuf (List.replicate 44 65) = .panic := by decide +kernel
  have h2 : b64Decode 32 (List.replicate 44 65) = .panic := by decide +kernel
  exact ⟨by rw [parsePoint_eq, h1], by rw [parseScalar_eq, h2]⟩

/-- A program with panics: the base point survives them. -/
example (sha512 : List UInt8 → Bytes 64) :
    (recoverRun (goEnv sha512)
      [.call (.pBase 0), .call (.pUnmarshalText 0 (List.replicate 44 65)), .pRandFails 0, .call (.sOne 0), .sRandFails 0,
        .call (.sUnmarshalText 0 (List.replicate 44 65)), .call (.pBase 1), .call (.pEquals 0 1), .call (.sBigInt 0)]
      blank51).1 =
    [some .unit, none, none, some .unit, none, none, some .unit, some (.bool true), some (.int 1)] := by
  rw [(C70_recover sha512 _ blank51 AState.init init_denotes).1]
  have h2 : ((1 : ZMod l).cast : ℤ) = 1 := by decide +kernel
  simp [-List.reduceReplicate, arecover, arcall, aexec, parse_panics.1, parse_panics.2, AState.setPt, AState.setSc, eqO, h2]

end Ristretto.Props
