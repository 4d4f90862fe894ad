import Verif.Props.Asm
import Verif.Props.Generic
import Verif.Proofs.ConcRace

/-!
# C55, C56: goroutines that share points, scalars and tables

`start e progs m` is the configuration in which goroutine `i` is about to make the calls `progs i`, on the
variables whose words are in the memory `m`; `sched σ` lets the goroutines make single word accesses in
the order `σ`.  What a call uses and what it is documented to set is in Spec/Conc.lean, and so is the rule
`Separate` that clients have to keep: what one goroutine sets, no other one uses.
-/

namespace Ristretto.Props
open Model Model.Conc Spec.Conc Proofs.Conc
set_option autoImplicit false

/-- In this configuration nothing distinguishes a goroutine from one that runs alone: its results, its
panics and the variables it uses are those of a sequential run of its calls from the initial contents, the
variables nobody sets are unchanged, and no two goroutines are about to access the same word with one
of them storing it. -/
structure AsIfAlone {F ι : Type} [FieldOps F] [Words F] (sets : Cmd → List Var) (e : Env F) (progs : ι → List Cmd)
    (m : Memory (Val F)) (c : Conf ι (Val F) (List Out)) : Prop where
  returned : ∀ i outs, c.threads i = .ret outs → ∃ v, run e (view m) (progs i) = some (v, outs) ∧
    ∀ d ∈ progs i, ∀ x ∈ uses d, Same (view c.mem) v x
  panicked : ∀ i, c.threads i = .fail → run e (view m) (progs i) = none
  others : ∀ x, (∀ i, ∀ d ∈ progs i, x ∉ sets d) → Same (view c.mem) (view m) x
  noRace : ¬ Race c

/-- Goroutine `i` has returned or panicked. -/
def Ended {F ι : Type} [FieldOps F] [Words F] (c : Conf ι (Val F) (List Out)) (i : ι) : Prop :=
  (∃ outs, c.threads i = .ret outs) ∨ c.threads i = .fail

section
variable {F ι : Type} [FieldOps F] [Words F] [LawfulWords F] [DecidableEq ι]

theorem asIfAlone (inPlace : Bool) [BytesWithin F inPlace] (e : Env F) (progs : ι → List Cmd)
    (hsep : Separate (setsIn inPlace) progs) (m : Memory (Val F)) (σ : List ι) :
    AsIfAlone (setsIn inPlace) e progs m ((start e progs m).sched σ) where
  returned i outs h := by
    obtain ⟨v, h1, h2⟩ := go_ret inPlace e progs hsep m σ i outs h
    exact ⟨v, h1, fun d hd x hx => h2 x ⟨d, hd, hx⟩⟩
  panicked i h := go_fail inPlace e progs hsep m σ i h
  others x hx := go_unchanged inPlace e progs hsep m σ x fun i ⟨d, hd, hxd⟩ => hx i d hd hxd
  noRace := go_no_race inPlace e progs hsep m σ
end

variable {ι : Type} [DecidableEq ι]

/-! ## C55: the default build and the assembly build -/

/-- **C55**, default build: any number of goroutines, any schedule, any initial contents. -/
theorem C55_as_if_alone (sha512 : List UInt8 → Bytes 64) (progs : ι → List Cmd) (hsep : Separate sets progs)
    (m : Memory (Val Fe51)) (σ : List ι) :
    AsIfAlone sets (goEnv sha512) progs m ((start (goEnv sha512) progs m).sched σ) :=
  asIfAlone false (goEnv sha512) progs hsep m σ

/-- **C55**, assembly build. -/
theorem C55_as_if_alone_asm (sha512 : List UInt8 → Bytes 64) (progs : ι → List Cmd) (hsep : Separate sets progs)
    (m : Memory (Val Asm.FeAsm)) (σ : List ι) :
    AsIfAlone sets (asmEnv sha512) progs m ((start (asmEnv sha512) progs m).sched σ) :=
  asIfAlone false (asmEnv sha512) progs hsep m σ

/-- **C55**: a goroutine that is scheduled often enough ends, whatever the others do. -/
theorem C55_progress (sha512 : List UInt8 → Bytes 64) (progs : ι → List Cmd) (hsep : Separate sets progs)
    (m : Memory (Val Fe51)) (i : ι) :
    ∃ n, ∀ σ : List ι, n ≤ σ.count i → Ended ((start (goEnv sha512) progs m).sched σ) i :=
  go_done false (goEnv sha512) progs hsep m i

/-- **C55**, in terms of group elements and residues: when the variables hold the abstract contents `a`,
each goroutine gets the results the abstract machine computes from `a`, and panics only if that does. -/
theorem C55_results (sha512 : List UInt8 → Bytes 64) (progs : ι → List Cmd) (hsep : Separate sets progs)
    (m : Memory (Val Fe51)) (a : AState) (ha : Denotes (view m) a) (σ : List ι) (i : ι) :
    (∀ outs, ((start (goEnv sha512) progs m).sched σ).threads i = .ret outs →
      (arun Sha256.sha256 sha512 a (progs i)).map Prod.snd = some outs) ∧
    (((start (goEnv sha512) progs m).sched σ).threads i = .fail →
      arun Sha256.sha256 sha512 a (progs i) = none) := by
  have h := C55_as_if_alone sha512 progs hsep m σ
  have hs := (C42_simulation sha512 (progs i) (view m) a ha).1
  refine ⟨fun outs ho => ?_, fun hf => ?_⟩
  · obtain ⟨v, hv, -⟩ := h.returned i outs ho
    rw [← hs, hv]; rfl
  · rw [h.panicked i hf] at hs
    cases hr : arun Sha256.sha256 sha512 a (progs i) with
    | none => rfl
    | some y => rw [hr] at hs; cases hs

/-- **C55**: when all goroutines have returned, the results and the contents of all variables are those of
the goroutines run one after another, in any order, both in the package and in the abstract machine. -/
theorem C55_serializable (sha512 : List UInt8 → Bytes 64) (progs : ι → List Cmd) (hsep : Separate sets progs)
    (m : Memory (Val Fe51)) (a : AState) (ha : Denotes (view m) a) (σ : List ι)
    (hfin : Finished ((start (goEnv sha512) progs m).sched σ)) (order : List ι) (hnd : order.Nodup)
    (hall : ∀ i, i ∈ order ∨ progs i = []) :
    ∃ (outs : ι → List Out) (a' : AState),
      (∀ i, ((start (goEnv sha512) progs m).sched σ).threads i = .ret (outs i)) ∧
      run (goEnv sha512) (view m) (order.flatMap progs) =
        some (view ((start (goEnv sha512) progs m).sched σ).mem, order.flatMap outs) ∧
      arun Sha256.sha256 sha512 a (order.flatMap progs) = some (a', order.flatMap outs) ∧
      Denotes (view ((start (goEnv sha512) progs m).sched σ).mem) a' := by
  obtain ⟨outs, h1, h2⟩ := go_serial false (goEnv sha512) progs hsep m σ hfin order hnd hall
  obtain ⟨a', h3, h4⟩ := (C42_simulation sha512 _ (view m) a ha).2 _ _ h2
  exact ⟨outs, a', h1, h2, h3, h4⟩

/-- **C55**, assembly build: the goroutines run one after another. -/
theorem C55_serializable_asm (sha512 : List UInt8 → Bytes 64) (progs : ι → List Cmd) (hsep : Separate sets progs)
    (m : Memory (Val Asm.FeAsm)) (σ : List ι) (hfin : Finished ((start (asmEnv sha512) progs m).sched σ))
    (order : List ι) (hnd : order.Nodup) (hall : ∀ i, i ∈ order ∨ progs i = []) :
    ∃ outs : ι → List Out,
      (∀ i, ((start (asmEnv sha512) progs m).sched σ).threads i = .ret (outs i)) ∧
      run (asmEnv sha512) (view m) (order.flatMap progs) =
        some (view ((start (asmEnv sha512) progs m).sched σ).mem, order.flatMap outs) :=
  go_serial false (asmEnv sha512) progs hsep m σ hfin order hnd hall

/-- The memory of new variables. -/
def blank51 : Memory (Val Fe51)
  | .pt _ _ _ => (0 : UInt64)
  | .sc _ _ => (0 : UInt32)
  | .tab _ _ _ _ _ => (0 : UInt64)

theorem view_blank51 : view blank51 = Mem.init := rfl

/-- Three goroutines that share point 0, scalar 0 and table 0, call `Lizard`, `Equals`, `Bytes` and scalar
multiplications on them, and set variables of their own: the rule is kept, new variables hold abstract
contents, and there is an order as required. -/
example (b : Bytes 32) :
    Separate sets (fun i : Fin 3 =>
      if i = 0 then [.pScalarMult 1 0 0, .pAdd 1 1 0, .pLizard 0, .pEquals 1 0, .sSet 1 0]
      else if i = 1 then [.pSetBytes 2 b, .pAdd 2 0 2, .pScalarMultTable 3 0 0, .pBytes 0, .pLizard 0]
      else [.tCompute 1 0, .pScalarMultTable 4 1 0, .sMul 2 0 0, .pMarshalText 0]) ∧
    Denotes (view blank51) AState.init ∧ [(2 : Fin 3), 0, 1].Nodup ∧ ∀ i : Fin 3, i ∈ [(2 : Fin 3), 0, 1] := by
  refine ⟨?_, init_denotes, by decide, by decide⟩
  intro i j hij c hc x hx d hd
  fin_cases i <;> fin_cases j <;> simp at hij hc hd <;> rcases hc with rfl | rfl | rfl | rfl | rfl <;>
    simp [sets] at hx <;> subst hx <;> rcases hd with rfl | rfl | rfl | rfl | rfl <;> simp [uses]

/-- The rule is not kept by two goroutines one of which sets what the other reads. -/
example : ¬ Separate sets (fun i : Bool => if i then [.pBase 0] else [.pBytes 0]) := by
  intro h
  exact h true false (by decide) (.pBase 0) (by simp) (.pt 0) (by simp [sets]) (.pBytes 0) (by simp) (by simp [uses])

/-- There are schedules in which all goroutines return. -/
example (sha512 : List UInt8 → Bytes 64) : ∃ σ : List Bool,
    Finished ((start (goEnv sha512) (fun i : Bool => if i then [.pBase 1, .pAdd 1 1 0] else [.pLizard 0, .pBytes 0])
      blank51).sched σ) := by
  have hsep : Separate sets (fun i : Bool => if i then [.pBase 1, .pAdd 1 1 0] else [.pLizard 0, .pBytes 0]) := by
    intro i j hij c hc x hx d hd
    cases i <;> cases j <;> simp at hij hc hd <;> rcases hc with rfl | rfl <;>
      simp [sets] at hx <;> subst hx <;> rcases hd with rfl | rfl <;> simp [uses]
  obtain ⟨n, hn⟩ := C55_progress sha512 _ hsep blank51 true
  obtain ⟨k, hk⟩ := C55_progress sha512 _ hsep blank51 false
  refine ⟨List.replicate n true ++ List.replicate k false, ?_⟩
  have h := C55_as_if_alone sha512 _ hsep blank51 (List.replicate n true ++ List.replicate k false)
  intro i
  cases i with
  | true =>
    rcases hn (List.replicate n true ++ List.replicate k false) (by simp) with h1 | h1
    · exact h1
    · have := h.panicked true h1
      exact absurd this (by simp [run, exec])
  | false =>
    rcases hk (List.replicate n true ++ List.replicate k false) (by simp) with h1 | h1
    · exact h1
    · have := h.panicked false h1
      exact absurd this (by simp [run, exec])

/-! ## C56: the generic build

`BytesInto` of the generic build reduces its receiver in place (field_generic.go:266-296) and `Lizard` calls it
on the coordinates of the point (elligator.go:126).  So `Lizard` and `LizardInto` count as setting their
receiver (`setsGeneric`). -/

/-- **C56** (partial: `Lizard` and `LizardInto` have to be treated as setting their receiver). -/
theorem C56_as_if_alone_partial (sha512 : List UInt8 → Bytes 64) (progs : ι → List Cmd)
    (hsep : Separate setsGeneric progs) (m : Memory (Val Fe25)) (σ : List ι) :
    AsIfAlone setsGeneric (genericEnv sha512) progs m ((start (genericEnv sha512) progs m).sched σ) :=
  asIfAlone true (genericEnv sha512) progs hsep m σ

/-- **C56** (partial), progress. -/
theorem C56_progress_partial (sha512 : List UInt8 → Bytes 64) (progs : ι → List Cmd)
    (hsep : Separate setsGeneric progs) (m : Memory (Val Fe25)) (i : ι) :
    ∃ n, ∀ σ : List ι, n ≤ σ.count i → Ended ((start (genericEnv sha512) progs m).sched σ) i :=
  go_done true (genericEnv sha512) progs hsep m i

/-- **C56** (partial), one after another. -/
theorem C56_serializable_partial (sha512 : List UInt8 → Bytes 64) (progs : ι → List Cmd)
    (hsep : Separate setsGeneric progs) (m : Memory (Val Fe25)) (σ : List ι)
    (hfin : Finished ((start (genericEnv sha512) progs m).sched σ)) (order : List ι) (hnd : order.Nodup)
    (hall : ∀ i, i ∈ order ∨ progs i = []) :
    ∃ outs : ι → List Out,
      (∀ i, ((start (genericEnv sha512) progs m).sched σ).threads i = .ret (outs i)) ∧
      run (genericEnv sha512) (view m) (order.flatMap progs) =
        some (view ((start (genericEnv sha512) progs m).sched σ).mem, order.flatMap outs) :=
  go_serial true (genericEnv sha512) progs hsep m σ hfin order hnd hall

/-- The memory of new variables. -/
def blank25 : Memory (Val Fe25)
  | .pt _ _ _ => (0 : Int32)
  | .sc _ _ => (0 : UInt32)
  | .tab _ _ _ _ _ => (0 : Int32)

theorem view_blank25 : view blank25 = Mem.init := rfl

/-- Goroutines that keep the stricter rule: `Bytes` and `Equals` on shared points, `Lizard` on own ones. -/
example : Separate setsGeneric (fun i : Bool =>
    if i then [.pSet 1 0, .pLizard 1, .pBytes 0] else [.pSet 2 0, .pLizard 2, .pEquals 2 0]) := by
  intro i j hij c hc x hx d hd
  cases i <;> cases j <;> simp at hij hc hd <;> rcases hc with rfl | rfl | rfl <;>
    simp [sets, setsGeneric] at hx <;> subst hx <;> rcases hd with rfl | rfl | rfl <;> simp [uses]

/-- The full statement of C56: two goroutines that keep the rule of the default build, on variables left by a
sequential program, leave the points that nobody sets equal to what they were. -/
def C56_full : Prop := ∀ (sha512 : List UInt8 → Bytes 64) (setup : List Cmd) (outs : List Out)
  (progs : Bool → List Cmd) (m : Memory (Val Fe25)) (σ : List Bool),
  run (genericEnv sha512) Mem.init setup = some (view m, outs) → Separate sets progs →
  Finished ((start (genericEnv sha512) progs m).sched σ) →
  ∀ p, (∀ i, ∀ c ∈ progs i, Var.pt p ∉ sets c) →
    ((view ((start (genericEnv sha512) progs m).sched σ).mem).pts p).ristrettoEqualsI ((view m).pts p) = 1

theorem base_corrupted : (⟨rest25 (quot25 (ExtPt.base : ExtPt Fe25).X) (Fe25.reduce (ExtPt.base : ExtPt Fe25).X),
    Fe25.reduce (Fe25.reduce (ExtPt.base : ExtPt Fe25).Y), (ExtPt.base : ExtPt Fe25).Z,
    (ExtPt.base : ExtPt Fe25).T⟩ : ExtPt Fe25).ristrettoEqualsI ExtPt.base = 0 := by
  decide +kernel

theorem separate_lizard : Separate sets (fun _ : Bool => [.pLizard 0]) := by
  intro i j _ c hc x hx
  simp only [List.mem_singleton] at hc
  subst hc
  exact absurd hx (by simp [sets])

/-- **C56** is false of the code: two goroutines call `Lizard` on the base point, and afterwards the variable does not
hold the base point any more. -/
theorem C56_false : ¬ C56_full := by
  intro h
  let sha512 : List UInt8 → Bytes 64 := fun _ => Vector.replicate 64 0
  have hs := spec_go (genericEnv sha512) [.pBase 0] Mem.init blank25 rfl
  cases hr : (goP (genericEnv sha512) [.pBase 0]).run blank25 with
  | none => rw [hr] at hs; exact absurd hs (by simp [run, exec])
  | some r =>
  rw [hr, Option.map_some] at hs
  have hv : (view r.2).pts 0 = ExtPt.base := by
    simp only [run, exec, Option.bind_eq_bind, Option.bind_some, Option.some.injEq, Prod.mk.injEq] at hs
    rw [hs.1, pts_setPt]
  obtain ⟨σ, hfin, hX⟩ := lizard_corrupts (genericEnv sha512) 0 r.2
  have := h sha512 [.pBase 0] r.1 (fun _ => [.pLizard 0]) r.2 σ hs.symm separate_lizard hfin 0 (by
    intro i c hc
    simp only [List.mem_singleton] at hc
    subst hc
    simp [sets])
  rw [hX, hv, base_corrupted] at this
  exact absurd this (by decide)

/-- **C56** is false of the code: two goroutines that call `Lizard` on the same point have a data race, whatever the
point is. -/
theorem C56_race (sha512 : List UInt8 → Bytes 64) (p : Nat) (m : Memory (Val Fe25)) :
    ∃ σ : List Bool, Race ((start (genericEnv sha512) (fun _ => [.pLizard p]) m).sched σ) :=
  lizard_race (genericEnv sha512) p m

/-- The same two goroutines have none in the default build. -/
example (sha512 : List UInt8 → Bytes 64) (m : Memory (Val Fe51)) (σ : List Bool) :
    ¬ Race ((start (goEnv sha512) (fun _ => [.pLizard 0]) m).sched σ) :=
  (C55_as_if_alone sha512 _ separate_lizard m σ).noRace

end Ristretto.Props
