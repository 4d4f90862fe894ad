import Verif.Proofs.RecoverWords
import Verif.Props.Recover
import Verif.Props.Words
import Verif.Proofs.RecoverSim

/-!
# C72: clients that recover from panics and put arbitrary words into scalars

`qrecoverRun` (Model/RecoverWords.lean) makes calls and assignments one after another, as sequences of loads and stores, and
recovers from every panic; `qrecover` (Spec/RecoverWords.lean) is the same on group elements and numbers below `2^256`.
-/

namespace Ristretto.Props
open Model Model.Conc Ristretto.Words Spec.Conc Spec.EdRange Proofs Proofs.Conc
set_option autoImplicit false

/-- **C72.** Any calls and assignments, with a `recover` around each, on variables that hold `a`: what the calls return, which
of them panic, and what every variable holds afterwards are what the abstract machine says. -/
theorem C72_recover (sha512 : List UInt8 → Bytes 64) (cs : List QCmd) (m : Memory (Val Fe51)) (a : NState)
    (h : NDenotes (view m) a) :
    (qrecoverRun (goEnv sha512) cs m).1 = (qrecover Sha256.sha256 sha512 a cs).1 ∧
    NDenotes (view (qrecoverRun (goEnv sha512) cs m).2) (qrecover Sha256.sha256 sha512 a cs).2 := by
  obtain ⟨h1, h2⟩ := qrecover_sim (goEnv sha512) sha256_avoids holds_baseTable cs m a (nDenotes_iff.1 h)
  exact ⟨h1, nDenotes_iff.2 h2⟩

/-- **C72** (the receiver): the multiplication with a table that panics leaves a valid point in its receiver, the multiple of
the table's point by the odd digits of the scalar.  No other variable changes. -/
theorem C72_receiver (sha512 : List UInt8 → Bytes 64) (p t s : ℕ) (m : Memory (Val Fe51)) (a : NState)
    (h : NDenotes (view m) a) (g : RGroup) (hg : a.tabs t = some g) (hd : 8 < topDigit 16 63 (a.scs s)) :
    ∃ m', (callP (goEnv sha512) (.pPublicScalarMultTable p t s)).runKeep m = (none, m') ∧
      Represents ((view m').pts p) (oddPart (a.scs s) • g) ∧
      NDenotes (view m') (a.setPt p (some (oddPart (a.scs s) • g))) := by
  have hn : qstep Sha256.sha256 sha512 a (.call (.call (.pPublicScalarMultTable p t s))) = none := by
    simp only [qstep, nexec, tableVarTime]
    rw [if_neg (by omega)]
  rcases qstep_sim (goEnv sha512) sha256_avoids holds_baseTable (.call (.call (.pPublicScalarMultTable p t s))) m a
    (nDenotes_iff.1 h) with ⟨m', h1, -, h3⟩ | ⟨m', a', o, -, h2, -⟩
  · have h4 := nDenotes_iff.2 h3
    simp only [afterPanic, hg, zmulO] at h4
    refine ⟨m', h1, ?_, h4⟩
    have := h4.pts p
    simpa [NState.setPt] using this
  · simp only [goEnv] at h2
    rw [hn] at h2
    cases h2

/-- **C72** (which calls panic): besides those of C70, the two variable-time multiplications with a table, when the top digit of
the scalar is above 8. -/
theorem C72_panics (sha512 : List UInt8 → Bytes 64) (c : QCmd) (m : Memory (Val Fe51)) (a : NState)
    (h : NDenotes (view m) a) : ((qcallP (goEnv sha512) c).runKeep m).1 = none ↔
      (∃ p, c = .call (.pRandFails p)) ∨ (∃ s, c = .call (.sRandFails s)) ∨
      (∃ p txt, c = .call (.call (.pUnmarshalText p txt)) ∧ parsePoint txt = .panic) ∨
      (∃ s txt, c = .call (.call (.sUnmarshalText s txt)) ∧ parseScalar txt = .panic) ∨
      (∃ p s, c = .call (.call (.pPublicScalarMultBase p s)) ∧ 8 < topDigit 16 63 (scVal ((view m).scs s))) ∨
      ∃ p t s, c = .call (.call (.pPublicScalarMultTable p t s)) ∧ 8 < topDigit 16 63 (scVal ((view m).scs s)) := by
  have key : ((qcallP (goEnv sha512) c).runKeep m).1 = none ↔ qstep Sha256.sha256 sha512 a c = none := by
    rcases qstep_sim (goEnv sha512) sha256_avoids holds_baseTable c m a (nDenotes_iff.1 h) with
      ⟨m', h1, h2, -⟩ | ⟨m', a', o, h1, h2, -⟩
    · simp only [goEnv] at h2
      simp [h1, h2]
    · simp only [goEnv] at h2
      simp [h1, h2]
  rw [key]
  have hsc := h.scs
  cases c with
  | put s w => simp [qstep]
  | call c =>
    cases c with
    | pRandFails p => simp [qstep]
    | sRandFails s => simp [qstep]
    | call c =>
      simp only [hsc]
      cases c
      case pUnmarshalText p txt =>
        simp only [qstep, nexec, aexec]
        cases hp : parsePoint txt <;> simp [hp]
      case sUnmarshalText s txt =>
        simp only [qstep, nexec]
        cases hp : parseScalar txt <;> simp [hp]
      case pPublicScalarMultBase p s =>
        simp only [qstep, nexec, tableVarTime]
        split <;> simp <;> omega
      case pPublicScalarMultTable p t s =>
        simp only [qstep, nexec, tableVarTime]
        split <;> simp <;> omega
      all_goals
        simp only [qstep, nexec, aexec]
        try split
        all_goals simp

/-- Blank variables. -/
theorem blank51_nDenotes : NDenotes (view blank51) NState.init := init_nDenotes

/-- **C72**, assembly build: the same outputs and panics from Go's zero values. -/
theorem C72_asm (sha512 : List UInt8 → Bytes 64) (cs : List QCmd) (m : Memory (Val Asm.FeAsm)) (hm : view m = Mem.init) :
    (qrecoverRun (asmEnv sha512) cs m).1 = (qrecoverRun (goEnv sha512) cs blank51).1 := by
  rw [(C72_recover sha512 cs blank51 NState.init blank51_nDenotes).1]
  exact (qrecover_sim (asmEnv sha512) sha256_avoids holds_baseTable_asm cs m NState.init
    (by rw [hm]; exact Proofs.Words.nrel_init)).1

/-- **C72**, generic build: the same outputs and panics from Go's zero values for the programs of C50, in which no freshly
decoded point is the second operand of an addition or subtraction, multiplied by a scalar or turned into a table. -/
theorem C72_generic (sha512 : List UInt8 → Bytes 64) (cs : List QCmd) (hs : Safe (qcalls cs) = true) (m : Memory (Val Fe25))
    (hm : view m = Mem.init) : (qrecoverRun (genericEnv sha512) cs m).1 = (qrecoverRun (goEnv sha512) cs blank51).1 ∧
    (qrecoverRun (genericEnv sha512) cs m).1 = (qrecover Sha256.sha256 sha512 NState.init cs).1 := by
  have he : Sim.SimEnv (genericEnv sha512) (⟨Sha256.sha256, sha512, Fe25.idealT baseTable⟩ : Env Fp) :=
    ⟨rfl, rfl, Fe25.baseTable25_rel⟩
  rw [(C72_recover sha512 cs blank51 NState.init blank51_nDenotes).1, and_self]
  exact (qrecover_simS he sha256_avoids Fe25.holds_idealTable cs m (by rw [hm]; exact Sim.simMem_init _)
    Proofs.Words.nrel_init hs).1

/-- **C70**, generic build: clients that recover from panics see the same as in the default build, for the programs of C50. -/
theorem C70_generic (sha512 : List UInt8 → Bytes 64) (cs : List RCmd)
    (hs : Safe (cs.filterMap fun | .call c => some c | _ => none) = true) (m : Memory (Val Fe25)) (hm : view m = Mem.init) :
    (recoverRun (genericEnv sha512) cs m).1 = (recoverRun (goEnv sha512) cs blank51).1 := by
  have key : ∀ {F : Type} [FieldOps F] [Words F] (e : Env F) (cs : List RCmd) (m : Memory (Val F)),
      recoverRun e cs m = qrecoverRun e (cs.map .call) m := by
    intro F _ _ e cs
    induction cs with
    | nil => exact fun m => rfl
    | cons c cs ih => intro m; simp only [recoverRun, List.map_cons, qrecoverRun, ih]; rfl
  rw [key, key]
  refine (C72_generic sha512 _ ?_ m hm).1
  convert hs using 2
  unfold qcalls
  rw [List.filterMap_map]
  congr 1
  funext c
  cases c <;> rfl

/-- **C70**, generic build: the calls that panic for want of random bytes or on a text that is too long make no store. -/
theorem C70_genericPanic (sha512 : List UInt8 → Bytes 64) (m : Memory (Val Fe25)) :
    (∀ p, (rcallP (genericEnv sha512) (.pRandFails p)).runKeep m = (none, m)) ∧
    (∀ s, (rcallP (genericEnv sha512) (.sRandFails s)).runKeep m = (none, m)) ∧
    (∀ p txt, parsePoint txt = .panic → (rcallP (genericEnv sha512) (.call (.pUnmarshalText p txt))).runKeep m = (none, m)) ∧
    (∀ s txt, parseScalar txt = .panic → (rcallP (genericEnv sha512) (.call (.sUnmarshalText s txt))).runKeep m = (none, m)) := by
  refine ⟨fun _ => rfl, fun _ => rfl, fun p txt h => ?_, fun s txt h => ?_⟩
  · rw [parsePoint_eq] at h
    have e : textToBuf txt = .panic := by
      cases ht : textToBuf txt with
      | panic => rfl
      | err => rw [ht] at h; cases h
      | ok bs => rw [ht] at h; cases h
    have k : rcallP (genericEnv sha512) (.call (.pUnmarshalText p txt)) = .fail := by
      simp only [rcallP, callP, e]
    rw [k]; rfl
  · rw [parseScalar_eq] at h
    have e : b64Decode 32 txt = .panic := by
      cases ht : b64Decode 32 txt with
      | panic => rfl
      | err => rw [ht] at h; cases h
      | ok bs => rw [ht] at h; simp only at h; split at h <;> cases h
    have k : rcallP (genericEnv sha512) (.call (.sUnmarshalText s txt)) = .fail := by
      simp only [rcallP, callP, e]
    rw [k]; rfl

/-- A safe program with a panic in it. -/
example : Safe (qcalls [.put 0 nineWords, .call (.call (.pPublicScalarMultBase 0 0)), .call (.pRandFails 2),
    .call (.call (.pAdd 1 0 0)), .call (.call (.pBytes 1))]) = true := by
  simp [Safe, qcalls, SafeFrom, allowedCall, rawAfter, setRaw]

/-- The zero values of the generic build. -/
example : ∃ m : Memory (Val Fe25), view m = Mem.init :=
  ⟨fun | .pt _ _ _ => (0 : Int32) | .sc _ _ => (0 : UInt32) | .tab _ _ _ _ _ => (0 : Int32), rfl⟩

/-- The zero values of the assembly build. -/
example : ∃ m : Memory (Val Asm.FeAsm), view m = Mem.init :=
  ⟨fun | .pt _ _ _ => (0 : UInt64) | .sc _ _ => (0 : UInt32) | .tab _ _ _ _ _ => (0 : UInt64), rfl⟩

/-- The odd digits of `9 * 2^252` but for the last are zero. -/
theorem oddPart_nine : oddPart (scVal nineWords) = 0 := by decide +kernel

/-- Digits of `9 * 2^252 + 3 * 16`. -/
theorem oddPart_three : oddPart (scVal #v[48, 0, 0, 0, 0, 0, 0, 0x90000000]) = 3 := by decide +kernel

/-- After the panic the receiver holds three times the base point, and the program goes on with it. -/
example (sha512 : List UInt8 → Bytes 64) :
    (qrecoverRun (goEnv sha512)
      [.put 0 #v[48, 0, 0, 0, 0, 0, 0, 0x90000000], .call (.call (.pPublicScalarMultBase 0 0)),
        .put 1 #v[3, 0, 0, 0, 0, 0, 0, 0], .call (.call (.pScalarMultBase 1 1)), .call (.call (.pEquals 0 1)),
        .put 0 nineWords, .call (.call (.pPublicScalarMultBase 0 0)), .call (.call (.pZero 1)),
        .call (.call (.pEquals 0 1))] blank51).1 =
    [some .unit, none, some .unit, some .unit, some (.bool true), some .unit, none, some .unit, some (.bool true)] := by
  rw [(C72_recover sha512 _ blank51 NState.init blank51_nDenotes).1]
  have h1 : ¬ topDigit 16 63 (scVal nineWords) ≤ 8 := by decide +kernel
  have h2 : ¬ topDigit 16 63 (scVal #v[48, 0, 0, 0, 0, 0, 0, 0x90000000]) ≤ 8 := by decide +kernel
  have h3 : Ed.byTable (scVal #v[3, 0, 0, 0, 0, 0, 0, 0]) = 3 := by decide +kernel
  simp [qrecover, qstep, afterPanic, nexec, aexec, tableVarTime, NState.setPt, NState.setSc, NState.init, AState.setPt, eqO,
    zmulO, h1, h2, h3, oddPart_nine, oddPart_three]

/-- Contents as in `C72_receiver`: a table of the base point and a scalar with top digit 9, reached by a program. -/
example (sha512 : List UInt8 → Bytes 64) : ∃ (m : Memory (Val Fe51)) (a : NState), NDenotes (view m) a ∧
    a.tabs 0 = some baseR ∧ 8 < topDigit 16 63 (a.scs 0) ∧ oddPart (a.scs 0) = 3 := by
  have h := (C72_recover sha512 [.put 0 #v[48, 0, 0, 0, 0, 0, 0, 0x90000000], .call (.call (.pBase 0)),
    .call (.call (.tCompute 0 0))] blank51 NState.init blank51_nDenotes).2
  refine ⟨_, _, h, ?_⟩
  have h2 : 8 < topDigit 16 63 (scVal #v[48, 0, 0, 0, 0, 0, 0, 0x90000000]) := by decide +kernel
  simp [qrecover, qstep, nexec, aexec, NState.setPt, NState.setSc, NState.init, AState.setPt, AState.setTab, h2, oddPart_three]

end Ristretto.Props
