import Verif.Proofs.SimMachine
import Verif.Proofs.Words

/-!
# Programs on scalars that are not reduced: two field implementations
-/

namespace Ristretto.Proofs.Words
open Model Model.Words Ristretto.Words
set_option autoImplicit false

section
variable {F : Type} [LawfulField F]

theorem nsim_out {x : Option (Mem F × List Out)} {y : Option (NState × List Out)} (h : NSim x y) :
    x.map Prod.snd = y.map Prod.snd := by
  cases x with
  | none => cases y with
    | none => rfl
    | some y => exact h.elim
  | some x => cases y with
    | none => exact h.elim
    | some y => exact congrArg some h.2

theorem nrel_init : NRel (Mem.init : Mem F) NState.init := ⟨rel_init.pts, fun _ => scVal_scZero, rel_init.tabs⟩
end

open Proofs.Sim in
/-- A program whose calls are safe does the same with both backends. -/
theorem wrun_backends {F G : Type} [FieldOps F] [FieldOps G] [SimField F G] {e : Env F} {e' : Env G} (he : SimEnv e e') :
    ∀ (cs : List WCmd) {raw : ℕ → Bool} {m : Mem F} {m' : Mem G}, SimMem raw m m' → SafeFrom raw (calls cs) = true →
    (wrun e m cs).map Prod.snd = (wrun e' m' cs).map Prod.snd
  | [], _, _, _, _, _ => rfl
  | c :: cs, raw, m, m', h, hs => by
    have h1 : ∃ raw', SafeFrom raw' (calls cs) = true ∧ OptRel (SimOut raw') (wexec e m c) (wexec e' m' c) := by
      cases c with
      | put s w => exact ⟨raw, hs, h.setSc s w, rfl⟩
      | call c =>
        change SafeFrom raw (c :: calls cs) = true at hs
        unfold SafeFrom at hs
        rw [Bool.and_eq_true] at hs
        exact ⟨_, hs.2, Proofs.Sim.step he h c hs.1⟩
    obtain ⟨raw', hs', h1⟩ := h1
    unfold wrun
    cases hx : wexec e m c with
    | none =>
      cases hy : wexec e' m' c with
      | none => rfl
      | some y => rw [hx, hy] at h1; exact h1.elim
    | some x =>
      cases hy : wexec e' m' c with
      | none => rw [hx, hy] at h1; exact h1.elim
      | some y =>
        rw [hx, hy] at h1
        obtain ⟨h2, h3⟩ := h1
        have ih := wrun_backends he cs h2 hs'
        simp only [Option.bind_eq_bind, Option.bind_some]
        rw [h3]
        cases hr : wrun e x.1 cs with
        | none =>
          cases hr' : wrun e' y.1 cs with
          | none => rfl
          | some z => rw [hr, hr'] at ih; simp at ih
        | some w =>
          cases hr' : wrun e' y.1 cs with
          | none => rw [hr, hr'] at ih; simp at ih
          | some z =>
            rw [hr, hr'] at ih
            simp only [Option.map_some, Option.some.injEq] at ih
            simp [ih]

end Ristretto.Proofs.Words
