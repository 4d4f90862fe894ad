import Verif.Proofs.LoopsBytes
import Verif.Props.Timing
import Verif.Proofs.EdExact
import Verif.Proofs.TextSpec
import Verif.Proofs.ScalarOps
import Verif.Props.Machine

/-!
# C80: array accesses stay in range; exactly which calls panic

`Model/Loops.lean` has the loops of the methods statement by statement: counters, and reads, writes and slices at computed
indices, where an index out of range is Go's panic (`none`).  The theorems are about any contents of the variables: any
limbs, points off the curve, scalars that are not reduced.  Tables only have their Go type `[32][8]NielsPoint` (`TabShape`).
-/

namespace Ristretto.Props
open Model Proofs
set_option autoImplicit false

section
variable {F : Type} [FieldOps F]

/-- **C80**: with indices and bounds checks, the calls of any program return what the model of the other properties
says, and panic where it says. -/
theorem C80_loops (e : Env F) (he : TabShape e.baseTab) : ∀ (prog : List Cmd) (m : Mem F), (∀ t, TabShape (m.tabs t)) →
    Loops.run e m prog = run e m prog
  | [], m, hm => rfl
  | c :: cs, m, hm => by
    rw [Loops.run, run, Proofs.Loops.exec_eq e m he hm c]
    cases h : exec e m c with
    | none => rfl
    | some r =>
      obtain ⟨m', o⟩ := r
      simp only [Option.bind_eq_bind, Option.bind_some]
      rw [C80_loops e he cs m' (tabShape_exec e m m' c o hm h)]

/-- **C80** (constant time): no access of the constant-time methods is out of range, whatever the variables hold. -/
theorem C80_constTime (e : Env F) (he : TabShape e.baseTab) (prog : List Cmd) (m : Mem F) (hm : ∀ t, TabShape (m.tabs t))
    (hc : ∀ c ∈ prog, constTime c = true) : ∃ r, Loops.run e m prog = some r := by
  rw [C80_loops e he prog m hm]
  exact constTime_run e prog m hc

/-- **C80** (field): the conversions of field elements never panic. -/
theorem C80_field (fe : F) (x : Int) (b : Bytes 32) :
    Loops.feBigInt fe = some (Model.feBigInt fe) ∧ Loops.feSetBigInt x = some (Model.feSetBigInt x : F) ∧
    Loops.fe25SetBytes b.toList = some (Fe25.setBytes b) :=
  ⟨Proofs.Loops.feBigInt_eq fe, Proofs.Loops.feSetBigInt_eq x, Proofs.Loops.fe25SetBytes_eq b⟩

end

section
variable {F : Type} [LawfulField F]

theorem shapeT_of_tabShape {t : Table F} (h : TabShape t) : Proofs.Ed.ShapeT t := by
  unfold TabShape at h
  refine ⟨by simpa using congrArg List.length h, fun row hr => ?_⟩
  have : row.length ∈ t.map List.length := List.mem_map_of_mem hr
  rw [h] at this
  exact (List.mem_replicate.1 this).2

theorem tableVarTime_none {t : Table F} (h : TabShape t) (s : Scalar) :
    tableVarTimeScalarMult t s.bytes = none ↔ 9 * 16 ^ 63 - 8 * ((16 ^ 63 - 1) / 15) ≤ scVal s := by
  rw [← Nat.not_lt, ← Proofs.Ed.topDigit4_le, ← bytes_val]
  constructor
  · intro hn hle
    obtain ⟨r, hr⟩ := Proofs.Ed.tableVarTime_total (shapeT_of_tabShape h) s.bytes hle
    rw [hn] at hr
    cases hr
  · intro hlt
    exact Proofs.Ed.tableVarTime_panic (shapeT_of_tabShape h) s.bytes (Nat.lt_of_not_le hlt)

/-- **C80** (panics): whatever the variables hold, a call panics exactly if it is `UnmarshalText` of a text that is too long
(`parsePoint`, `parseScalar` of Spec/Text.lean), or one of the two variable-time multiplications with a table
and the scalar's words spell a number not below `9 * 16^63 - 8 * (1 + 16 + ⋯ + 16^62)` (over `8 * 2^252`; reduced
scalars are far below). -/
theorem C80_panics (e : Env F) (he : TabShape e.baseTab) (m : Mem F) (hm : ∀ t, TabShape (m.tabs t)) (c : Cmd) :
    Loops.exec e m c = none ↔
      (∃ p txt, c = .pUnmarshalText p txt ∧ parsePoint txt = .panic) ∨
      (∃ s txt, c = .sUnmarshalText s txt ∧ parseScalar txt = .panic) ∨
      (∃ p s, c = .pPublicScalarMultBase p s ∧ 9 * 16 ^ 63 - 8 * ((16 ^ 63 - 1) / 15) ≤ scVal (m.scs s)) ∨
      ∃ p t s, c = .pPublicScalarMultTable p t s ∧ 9 * 16 ^ 63 - 8 * ((16 ^ 63 - 1) / 15) ≤ scVal (m.scs s) := by
  rw [Proofs.Loops.exec_eq e m he hm c]
  cases c
  case pUnmarshalText p txt =>
    simp only [exec, Point.unmarshalText, parsePoint_eq]
    cases h : textToBuf txt <;> simp [h]
  case sUnmarshalText s txt =>
    simp only [exec, Scalar.unmarshalText, parseScalar_eq]
    cases h : b64Decode 32 txt with
    | ok buf => by_cases hl : buf.length = 32 <;> simp [h, hl]
    | err => simp [h]
    | panic => simp [h]
  case pPublicScalarMultBase p s =>
    have := tableVarTime_none he (m.scs s)
    simp only [exec, Point.publicScalarMultTable, Option.bind_eq_bind]
    cases h : tableVarTimeScalarMult e.baseTab (m.scs s).bytes <;> simp [h] at this ⊢ <;> exact this
  case pPublicScalarMultTable p t s =>
    have := tableVarTime_none (hm t) (m.scs s)
    simp only [exec, Point.publicScalarMultTable, Option.bind_eq_bind]
    cases h : tableVarTimeScalarMult (m.tabs t) (m.scs s).bytes <;> simp [h] at this ⊢ <;> exact this
  case pPublicScalarMult p q s =>
    obtain ⟨r, hr⟩ := Proofs.Ed.varTime_total (m.pts q) (m.scs s).bytes
    simp [exec, Point.publicScalarMult, hr]
  all_goals simp [exec]

end

/-- The builds' own base table, and variables with contents no call produces: a point off the curve in every place, a
scalar with all bits set, a table of such points. -/
def junk : Mem Fe51 where
  pts _ := ⟨⟨1, 2, 3, 4, 5⟩, ⟨0, 0, 0, 0, 7⟩, ⟨0xffffffff, 9, 9, 9, 9⟩, ⟨8, 8, 8, 8, 8⟩⟩
  scs _ := Vector.replicate 8 0xffffffff
  tabs _ := List.replicate 32 (List.replicate 8 ⟨⟨1, 2, 3, 4, 5⟩, ⟨5, 4, 3, 2, 1⟩, ⟨6, 6, 6, 6, 6⟩⟩)

theorem junk_shape : ∀ t, TabShape (junk.tabs t) := fun t => by simp [junk, TabShape]

theorem baseTable_shape : TabShape baseTable := by unfold TabShape; decide +kernel

/-- On them the constant-time methods run through, and one of the variable-time ones panics. -/
example (sha512 : List UInt8 → Bytes 64) :
    (∃ r, Loops.run (goEnv sha512) junk [.pScalarMult 0 1 2, .tCompute 0 1, .pScalarMultTable 2 0 1, .pScalarMultBase 0 0,
      .pLizardInto 0 (Vector.replicate 16 0), .sSetReduced 0 (Vector.replicate 64 255)] = some r) ∧
    (∃ r, Loops.exec (goEnv sha512) junk (.pPublicScalarMult 0 1 2) = some r) ∧
    Loops.exec (goEnv sha512) junk (.pPublicScalarMultTable 0 1 2) = none := by
  refine ⟨C80_constTime (goEnv sha512) baseTable_shape _ _ junk_shape (by decide), ?_, ?_⟩
  · refine Option.ne_none_iff_exists'.1 fun h => ?_
    have := (C80_panics (goEnv sha512) baseTable_shape junk junk_shape _).1 h
    simp at this
  · refine (C80_panics (goEnv sha512) baseTable_shape junk junk_shape _).2 (.inr (.inr (.inr ⟨0, 1, 2, rfl, ?_⟩)))
    decide +kernel

/-- The accesses are checked: the same loop on a table with a row too few, or on bytes too short, panics. -/
example : Loops.tableScalarMult
      (List.replicate 31 (List.replicate 8 (⟨⟨1, 0, 0, 0, 0⟩, ⟨1, 0, 0, 0, 0⟩, ⟨0, 0, 0, 0, 0⟩⟩ : NielsPt Fe51)))
      (List.replicate 32 0) = none ∧
    Loops.sSetBytes (List.replicate 31 0) = none := by
  constructor <;> decide +kernel

end Ristretto.Props
