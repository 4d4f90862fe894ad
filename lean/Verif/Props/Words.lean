import Verif.Proofs.WordsSim
import Verif.Props.Asm
import Verif.Props.Generic

/-!
# C71: programs that put arbitrary words into scalars

`wrun` (Model/Words.lean) runs the model of the code on a program of calls and of assignments to the words of scalars.
`nrun` (Spec/Words.lean) runs it on elements of the Ristretto group and on numbers below `2^256`.
-/

namespace Ristretto.Props
open Model Model.Words Words Proofs
set_option autoImplicit false

/-- The memory `m` holds the abstract contents `a`; the scalars need not be reduced. -/
structure NDenotes (m : Mem Fe51) (a : NState) : Prop where
  pts : ∀ k, match a.pts k with | some g => Represents (m.pts k) g | none => IsBlank (m.pts k)
  scs : ∀ k, scVal (m.scs k) = a.scs k
  tabs : ∀ k, match a.tabs k with | some g => TableOf (m.tabs k) g | none => IsBlankTable (m.tabs k)

theorem nDenotes_iff {m : Mem Fe51} {a : NState} : NDenotes m a ↔ Proofs.Words.NRel m a := by
  have key : ∀ b : AState, b.pts = a.pts → b.tabs = a.tabs → b.scs = (fun _ => 0) →
      (Denotes ⟨m.pts, fun _ => scZero, m.tabs⟩ b ↔ Rel (⟨m.pts, fun _ => scZero, m.tabs⟩ : Mem Fe51) b) :=
    fun b _ _ _ => denotes_iff
  have k := key ⟨a.pts, fun _ => 0, a.tabs⟩ rfl rfl rfl
  have h0 : scVal scZero < l ∧ (scVal scZero : ZMod l) = 0 := by
    rw [scVal_scZero]
    exact ⟨l_prime.pos, Nat.cast_zero⟩
  constructor
  · intro h
    have := k.1 ⟨h.pts, fun _ => h0, h.tabs⟩
    exact ⟨this.pts, h.scs, this.tabs⟩
  · intro h
    have := k.2 ⟨h.pts, fun _ => scRel_of h0.1 h0.2, h.tabs⟩
    exact ⟨this.pts, h.scs, this.tabs⟩

theorem init_nDenotes : NDenotes Mem.init NState.init :=
  nDenotes_iff.2 ⟨rel_init.pts, fun _ => scVal_scZero, rel_init.tabs⟩

/-- **C71.** Whatever the scalars hold: the outputs and panics of every program are those of the abstract machine, and the
states after it correspond again. -/
theorem C71_simulation (sha512 : List UInt8 → Bytes 64) (prog : List WCmd) (m : Mem Fe51) (a : NState) (h : NDenotes m a) :
    (wrun (goEnv sha512) m prog = none ∧ nrun Sha256.sha256 sha512 a prog = none) ∨
    ∃ m' a' outs, wrun (goEnv sha512) m prog = some (m', outs) ∧ nrun Sha256.sha256 sha512 a prog = some (a', outs) ∧
      NDenotes m' a' := by
  have := Proofs.Words.wrun_sim (goEnv sha512) sha256_avoids holds_baseTable prog m a (nDenotes_iff.1 h)
  cases h1 : wrun (goEnv sha512) m prog with
  | none =>
    cases h2 : nrun Sha256.sha256 sha512 a prog with
    | none => exact Or.inl ⟨rfl, rfl⟩
    | some y => rw [h1] at this; simp only [goEnv] at this; rw [h2] at this; exact this.elim
  | some x =>
    cases h2 : nrun Sha256.sha256 sha512 a prog with
    | none => rw [h1] at this; simp only [goEnv] at this; rw [h2] at this; exact this.elim
    | some y =>
      rw [h1] at this; simp only [goEnv] at this; rw [h2] at this
      obtain ⟨m', os⟩ := x
      obtain ⟨a', os'⟩ := y
      obtain ⟨hr, ho⟩ := this
      exact Or.inr ⟨m', a', os, rfl, by rw [ho], nDenotes_iff.2 hr⟩

/-- **C71**, from Go's zero values. -/
theorem C71_refinement (sha512 : List UInt8 → Bytes 64) (prog : List WCmd) :
    (wrun (goEnv sha512) Mem.init prog).map Prod.snd =
      (nrun Sha256.sha256 sha512 NState.init prog).map Prod.snd := by
  rcases C71_simulation sha512 prog _ _ init_nDenotes with ⟨h1, h2⟩ | ⟨m', a', outs, h1, h2, -⟩ <;> rw [h1, h2] <;> rfl

/-- **C71**, assembly build: the same outputs. -/
theorem C71_asm (sha512 : List UInt8 → Bytes 64) (prog : List WCmd) :
    (wrun (asmEnv sha512) Mem.init prog).map Prod.snd = (wrun (goEnv sha512) Mem.init prog).map Prod.snd := by
  rw [C71_refinement]
  exact Proofs.Words.nsim_out
    (Proofs.Words.wrun_sim (asmEnv sha512) sha256_avoids holds_baseTable_asm prog _ _ Proofs.Words.nrel_init)

/-- **C71**, generic build: the same outputs for the programs of C50, whatever they put into scalars. -/
theorem C71_generic (sha512 : List UInt8 → Bytes 64) (prog : List WCmd) (h : Safe (calls prog) = true) :
    (wrun (genericEnv sha512) Mem.init prog).map Prod.snd = (wrun (goEnv sha512) Mem.init prog).map Prod.snd := by
  have he : Sim.SimEnv (genericEnv sha512) (⟨Sha256.sha256, sha512, Fe25.idealT baseTable⟩ : Env Fp) :=
    ⟨rfl, rfl, Fe25.baseTable25_rel⟩
  rw [C71_refinement, Proofs.Words.wrun_backends he prog (Sim.simMem_init _) h]
  exact Proofs.Words.nsim_out (Proofs.Words.wrun_sim (⟨Sha256.sha256, sha512, Fe25.idealT baseTable⟩ : Env Fp) sha256_avoids
    Fe25.holds_idealTable prog _ _ Proofs.Words.nrel_init)

/-- Sums, differences and comparison of any two arrays of words. -/
theorem C71_add (x y : Scalar) : scVal (Scalar.add x y) =
    if (scVal x + scVal y) % 2 ^ 256 < l then (scVal x + scVal y) % 2 ^ 256 else (scVal x + scVal y) % 2 ^ 256 - l :=
  Proofs.Words.add_all x y

theorem C71_sub (x y : Scalar) : scVal (Scalar.sub x y) =
    if scVal y ≤ scVal x then scVal x - scVal y else (scVal x + l + 2 ^ 256 - scVal y) % 2 ^ 256 :=
  Proofs.Words.sub_all x y

theorem C71_equals (x y : Scalar) : Scalar.equals x y = true ↔ scVal x = scVal y ∨ scVal x + l = scVal y :=
  Proofs.Words.equals_all x y

/-- The words of `2^255 + 1`. -/
def bigWords : Scalar := #v[1, 0, 0, 0, 0, 0, 0, 0x80000000]

/-- The words of `9 * 2^252`. -/
def nineWords : Scalar := #v[0, 0, 0, 0, 0, 0, 0, 0x90000000]

/-- A program on unreduced scalars: `Equals` is not symmetric, the sum of `l` and `l` is `l`, and a product is reduced. -/
example (sha512 : List UInt8 → Bytes 64) : (wrun (goEnv sha512) Mem.init
    [.put 0 scL, .call (.sEquals 1 0), .call (.sEquals 0 1), .call (.sAdd 2 0 0), .call (.sBigInt 2),
      .call (.sMul 2 0 0), .call (.sBigInt 2)]).map Prod.snd =
    some [.unit, .bool true, .bool false, .unit, .int l, .unit, .int 0] := by
  rw [C71_refinement]
  have hl := l_eq
  have h1 : addN l l = l := by
    unfold addN
    generalize l = L at *
    split <;> omega
  have h2 : l * l % l = 0 := Nat.mul_mod_right l l
  have h3 : eqN 0 l := Or.inr (Nat.zero_add l)
  have h4 : ¬ eqN l 0 := by
    unfold eqN
    generalize l = L at *
    omega
  simp [nrun, nstep, nexec, NState.init, NState.setSc, scVal_scL, h1, h2, h3, h4]

/-- Multiplication of the base point in variable time finishes with `2^255 + 1` and panics with `9 * 2^252`. -/
example (sha512 : List UInt8 → Bytes 64) :
    wrun (goEnv sha512) Mem.init [.put 0 bigWords, .call (.pPublicScalarMultBase 0 0)] ≠ none ∧
    wrun (goEnv sha512) Mem.init [.put 0 nineWords, .call (.pPublicScalarMultBase 0 0)] = none := by
  constructor
  · rcases C71_simulation sha512 [.put 0 bigWords, .call (.pPublicScalarMultBase 0 0)] _ _ init_nDenotes with
      ⟨-, h2⟩ | ⟨m', a', outs, h1, -, -⟩
    · exfalso
      have : Spec.EdRange.topDigit 16 63 (scVal bigWords) ≤ 8 := by decide +kernel
      simp [nrun, nstep, nexec, NState.init, NState.setSc, tableVarTime, this] at h2
    · rw [h1]; simp
  · rcases C71_simulation sha512 [.put 0 nineWords, .call (.pPublicScalarMultBase 0 0)] _ _
      init_nDenotes with ⟨h1, -⟩ | ⟨m', a', outs, -, h2, -⟩
    · exact h1
    · exfalso
      have : ¬ Spec.EdRange.topDigit 16 63 (scVal nineWords) ≤ 8 := by decide +kernel
      simp [nrun, nstep, nexec, NState.init, NState.setSc, tableVarTime, this] at h2

end Ristretto.Props
