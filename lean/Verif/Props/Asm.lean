import Verif.Proofs.AsmField
import Verif.Props.Field
import Verif.Props.Machine

/-!
# C44: the amd64 assembly computes the same as the Go code

field_amd64.s, instruction by instruction (`Verif/Model/Asm.lean`).  `out`, `a`, `b` are the addresses of
the operands, `reg` the contents of the registers at the call.
-/

namespace Ristretto.Props
open Model Proofs Model.Alias Model.Asm
set_option autoImplicit false

/-- **C44**, `Mul`: for operands with limbs up to `2^54` and any aliasing, the assembly stores the
product in `out` (with small limbs) and changes nothing else.  It represents the same field element as
the result of the Go function. -/
theorem C44_mul (reg : Reg → Val) (out a b : Addr) (m : FMem) (ha : LimbsLe (2 ^ 54) (m a))
    (hb : LimbsLe (2 ^ 54) (m b)) :
    ∃ m', Asm.mulI reg out a b m = some m' ∧ (∀ x, x ≠ out → m' x = m x) ∧ LimbsLe tight (m' out) ∧
      feVal (m' out) = feVal (m a) * feVal (m b) ∧ feVal (m' out) = feVal (Fe51.mul (m a) (m b)) := by
  refine ⟨_, Asm.feMulI_eq reg out a b m, fun x hx => if_neg hx, ?_⟩
  obtain ⟨h1, h2⟩ := Asm.asmMul_spec _ _ ha hb
  have h3 := (C16_mul _ _ ha hb).2
  have e : assign m out (Asm.asmMul (m a) (m b)) out = Asm.asmMul (m a) (m b) := if_pos rfl
  rw [e, h3]
  exact ⟨h1, h2, h2⟩

/-- **C44**, `Square`. -/
theorem C44_square (reg : Reg → Val) (out a : Addr) (m : FMem) (ha : LimbsLe (2 ^ 54) (m a)) :
    ∃ m', Asm.squareI reg out a m = some m' ∧ (∀ x, x ≠ out → m' x = m x) ∧ LimbsLe tight (m' out) ∧
      feVal (m' out) = feVal (m a) ^ 2 ∧ feVal (m' out) = feVal (Fe51.square (m a)) := by
  refine ⟨_, Asm.feSquareI_eq reg out a m, fun x hx => if_neg hx, ?_⟩
  obtain ⟨h1, h2⟩ := Asm.asmSquare_spec _ ha
  have h3 := (C16_square _ ha).2
  have e : assign m out (Asm.asmSquare (m a)) out = Asm.asmSquare (m a) := if_pos rfl
  have h2' : feVal (Asm.asmSquare (m a)) = feVal (m a) ^ 2 := by rw [pow_two]; exact h2
  rw [e, h3]
  exact ⟨h1, h2', h2'⟩

/-- **C44**, `DoubledSquare`: here correct for limbs up to `2^54`, unlike the Go function
(`C16_doubledSquare_overflow`). -/
theorem C44_doubledSquare (reg : Reg → Val) (out a : Addr) (m : FMem) (ha : LimbsLe (2 ^ 54) (m a)) :
    ∃ m', Asm.doubledSquareI reg out a m = some m' ∧ (∀ x, x ≠ out → m' x = m x) ∧
      LimbsLe (2 * tight) (m' out) ∧ feVal (m' out) = 2 * feVal (m a) ^ 2 := by
  refine ⟨_, Asm.doubledSquareI_eq reg out a m, fun x hx => if_neg hx, ?_⟩
  obtain ⟨h1, h2⟩ := Asm.asmSquare_spec _ ha
  obtain ⟨h3, h4⟩ := Fe51.add_spec _ _ Fe51.U Fe51.U h1 h1 (by decide)
  have e : assign m out (Fe51.add (Asm.asmSquare (m a)) (Asm.asmSquare (m a))) out =
    Fe51.add (Asm.asmSquare (m a)) (Asm.asmSquare (m a)) := if_pos rfl
  rw [e]
  refine ⟨h3.mono (by decide), ?_⟩
  have h2' : feVal (Asm.asmSquare (m a)) = feVal (m a) ^ 2 := by rw [pow_two]; exact h2
  have h4' : feVal (Fe51.add (Asm.asmSquare (m a)) (Asm.asmSquare (m a))) =
    feVal (Asm.asmSquare (m a)) + feVal (Asm.asmSquare (m a)) := h4
  rw [h4', h2']; ring

/-- The instructions on concrete limbs, in place: `(2^54-1, …)²` and `3 · 5`. -/
example : ((Asm.mulI (fun _ => .num 7) ⟨.var 0, 0⟩ ⟨.var 0, 0⟩ ⟨.var 0, 0⟩
      (fun _ => ⟨2 ^ 54 - 1, 2 ^ 54 - 1, 2 ^ 54 - 1, 2 ^ 54 - 1, 2 ^ 54 - 1⟩)).map fun m =>
        feNat (m ⟨.var 0, 0⟩) % p) =
      some ((((2 ^ 54 - 1) * (1 + 2 ^ 51 + 2 ^ 102 + 2 ^ 153 + 2 ^ 204)) ^ 2) % p) ∧
    ((Asm.mulI (fun _ => .num 7) ⟨.var 0, 0⟩ ⟨.var 1, 0⟩ ⟨.var 2, 0⟩
      (fun x => if x = ⟨.var 1, 0⟩ then ⟨3, 0, 0, 0, 0⟩ else ⟨5, 0, 0, 0, 0⟩)).map fun m =>
        m ⟨.var 0, 0⟩) = some ⟨15, 0, 0, 0, 0⟩ := by
  decide +kernel

/-- The environment of the package in the assembly build. -/
def asmEnv (sha512 : List UInt8 → Bytes 64) : Env FeAsm := ⟨Sha256.sha256, sha512, baseTable⟩

theorem isTable_asm : ∀ (t : Table Fe51) (P : EPoint), Proofs.IsTable t P →
    Proofs.IsTable (F := FeAsm) t P
  | [], _, _ => trivial
  | row :: t, P, h => ⟨⟨h.1.1, fun k e he =>
      have := h.1.2 k e he
      ⟨this.bP, this.bM, this.bD, this.yp, this.ym, this.xy⟩⟩, isTable_asm t _ h.2⟩

theorem holds_baseTable_asm : HoldsT (F := FeAsm) baseTable baseR := by
  obtain ⟨P, hP, h1, h2, h3⟩ := holds_baseTable
  exact ⟨P, hP, isTable_asm _ _ h1, h2, h3⟩

/-- **C44**, the whole package: every program over the API has the same outputs in the assembly build
and in the default build. -/
theorem C44_programs (sha512 : List UInt8 → Bytes 64) (prog : List Cmd) :
    (run (asmEnv sha512) Mem.init prog).map Prod.snd =
      (run (goEnv sha512) Mem.init prog).map Prod.snd := by
  rw [C42_refinement]
  have := run_sim (asmEnv sha512) sha256_avoids holds_baseTable_asm prog _ _ rel_init
  simp only [asmEnv] at this
  cases h1 : run (asmEnv sha512) Mem.init prog with
  | none =>
    cases h2 : arun Sha256.sha256 sha512 AState.init prog with
    | none => rfl
    | some y => simp only [asmEnv] at h1; rw [h1, h2] at this; exact this.elim
  | some x =>
    cases h2 : arun Sha256.sha256 sha512 AState.init prog with
    | none => simp only [asmEnv] at h1; rw [h1, h2] at this; exact this.elim
    | some y =>
      simp only [asmEnv] at h1; rw [h1, h2] at this
      obtain ⟨m', os⟩ := x
      obtain ⟨a', os'⟩ := y
      obtain ⟨-, ho⟩ := this
      show some os = some os'
      rw [ho]

end Ristretto.Props
