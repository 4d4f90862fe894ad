import Verif.Spec.Build
import Verif.Proofs.BuildComplete
import Verif.Props.Asm
import Verif.Props.GenericEd

/-!
# C89: every build configuration

A configuration is the set of satisfied build tags (`sat`: architecture, operating system, `go1.1` … up to the release in use,
tags given with `-tags`), together with whether the release is so old that it only reads `+build` lines (`new = false`).
-/

namespace Ristretto.Props
open Model Model.Build Build Proofs.Build
set_option autoImplicit false

/-- **C89** (completeness): in every configuration the chosen files of package edwards25519 fit together. -/
theorem C89_complete (new : Bool) (sat : String → Bool) : Complete (build new sat) := complete new sat

/-- **C89** (interface): all configurations offer the same names to other packages. -/
theorem C89_interface (new new' : Bool) (sat sat' : String → Bool) (n : String) :
    n ∈ api (build new sat) ↔ n ∈ api (build new' sat') :=
  ⟨api_le new new' sat sat' n, api_le new' new sat' sat n⟩

/-- **C89** (client): everything package ristretto uses of package edwards25519 is there, and may be used by other packages, in
every configuration. -/
theorem C89_client (new : Bool) (sat : String → Bool) : ∀ u ∈ clientUses, u.2 ∈ api (build new sat) := by
  have h : ∀ u ∈ clientUses, u.2 ∈ api (build true fun t => ["arm64", "linux", "go1.13", "go1.26"].contains t) := by decide +kernel
  exact fun u hu => (C89_interface _ _ _ _ _).1 (h u hu)

example : "ExtendedPoint.SetRistretto" ∈ api (build true fun t => ["arm64", "linux", "go1.13", "go1.26"].contains t) ∧
    "load3" ∉ api (build true fun t => ["forcegeneric"].contains t) := by decide +kernel

/-- **C89** (both notations): the two constraint lines of a file mean the same for every set of tags, so that releases before
and after Go 1.17 choose the same files. -/
theorem C89_lines (sat : String → Bool) :
    (∀ f ∈ files, ∀ l, f.goBuild = some l → evalGo sat l = some (f.plusBuild.all (evalPlus sat))) ∧
    build true sat = build false sat := by
  refine ⟨?_, by rw [build_eq, build_eq]⟩
  intro f hf l hl
  simp only [files, List.mem_cons, List.not_mem_nil, or_false] at hf
  rcases hf with rfl | rfl | rfl | rfl | rfl | rfl | rfl | rfl | rfl | rfl | rfl | rfl <;>
    first
    | exact absurd hl (by simp [curve, elligator, field, fieldAmd64S, table, vartime])
    | (simp only [fieldAmd64, fieldGeneric, fieldMul64, fieldRadix51, tableGeneric, tableRadix51, Option.some.injEq] at hl
       subst hl
       simp only [fieldAmd64, fieldGeneric, fieldMul64, fieldRadix51, tableGeneric, tableRadix51, List.all_cons, List.all_nil,
         Bool.and_true, go_mul64, go_amd64, go_radix51, go_generic, plus_mul64, plus_amd64, plus_radix51, plus_generic])

/-- **C89** (choice): which implementation a configuration gets.  The representation of field elements, the arithmetic and the
table of multiples of the base point always come from the same one. -/
theorem C89_choice (new : Bool) (sat : String → Bool) :
    [fileOf (build new sat) "FieldElement", fileOf (build new sat) "FieldElement.Mul",
      fileOf (build new sat) "BaseScalarMultTable"] =
    if sat "forcegeneric" = true then [some "field_generic.go", some "field_generic.go", some "table_generic.go"]
    else if sat "go1.13" = true then [some "field_radix51.go", some "field_mul64.go", some "table_radix51.go"]
    else if sat "amd64" = true then [some "field_radix51.go", some "field_amd64.go", some "table_radix51.go"]
    else [some "field_generic.go", some "field_generic.go", some "table_generic.go"] := by
  have e1 : ∀ fs ∈ [[curve, elligator, field, fieldGeneric, table, tableGeneric, vartime],
      [curve, elligator, field, fieldAmd64S, fieldGeneric, table, tableGeneric, vartime]],
      [fileOf fs "FieldElement", fileOf fs "FieldElement.Mul", fileOf fs "BaseScalarMultTable"] =
        [some "field_generic.go", some "field_generic.go", some "table_generic.go"] := by decide +kernel
  have e2 : ∀ fs ∈ [[curve, elligator, field, fieldMul64, fieldRadix51, table, tableRadix51, vartime],
      [curve, elligator, field, fieldAmd64S, fieldMul64, fieldRadix51, table, tableRadix51, vartime]],
      [fileOf fs "FieldElement", fileOf fs "FieldElement.Mul", fileOf fs "BaseScalarMultTable"] =
        [some "field_radix51.go", some "field_mul64.go", some "table_radix51.go"] := by decide +kernel
  have e3 : ∀ fs ∈ [[curve, elligator, field, fieldAmd64, fieldAmd64S, fieldRadix51, table, tableRadix51, vartime]],
      [fileOf fs "FieldElement", fileOf fs "FieldElement.Mul", fileOf fs "BaseScalarMultTable"] =
        [some "field_radix51.go", some "field_amd64.go", some "table_radix51.go"] := by decide +kernel
  rcases build_cases new sat with ⟨h1, h⟩ | ⟨h1, h⟩ | ⟨h1, h⟩
  · rw [e1 _ (by simpa using h)]
    rcases h1 with h1 | ⟨h1, h2⟩
    · rw [if_pos h1]
    · rw [h1, h2]; simp
  · rw [e2 _ (by simpa using h), h1.1, h1.2]; rfl
  · rw [e3 _ (by simpa using h), h1.1, h1.2.1, h1.2.2]; rfl

/-- **C89** (assembly): the constraint of the assembly file was meant to exclude it from Go 1.13 on.  It does not, since `AND` is
a tag and the options of the line are alternatives; only the name of the file restricts it.  Every build for amd64 contains it,
but in those with Go 1.13 or `forcegeneric` no file declares its functions. -/
theorem C89_assembly (new : Bool) (sat : String → Bool) :
    (fieldAmd64S ∈ build new sat ↔ sat "amd64" = true) ∧
    ((sat "go1.13" = true ∨ sat "forcegeneric" = true) → "feMul" ∉ goNames (build new sat) ∧ "feSquare" ∉ goNames (build new sat)) := by
  have e : ∀ fs ∈ [[curve, elligator, field, fieldGeneric, table, tableGeneric, vartime],
      [curve, elligator, field, fieldAmd64S, fieldGeneric, table, tableGeneric, vartime],
      [curve, elligator, field, fieldMul64, fieldRadix51, table, tableRadix51, vartime],
      [curve, elligator, field, fieldAmd64S, fieldMul64, fieldRadix51, table, tableRadix51, vartime]],
      "feMul" ∉ goNames fs ∧ "feSquare" ∉ goNames fs := by decide +kernel
  refine ⟨?_, fun h0 => ?_⟩
  · have hf : fieldAmd64S ∈ files := by simp [files]
    rw [build, List.mem_filter, sel_fieldAmd64S]
    simp [hf]
  · rcases build_cases new sat with ⟨-, h⟩ | ⟨-, h⟩ | ⟨h1, -⟩
    · exact e _ (by rcases h with h | h <;> simp [h])
    · exact e _ (by rcases h with h | h <;> simp [h])
    · rw [h1.1, h1.2.1] at h0
      simp at h0

/-- What a program over the public API returns in a build with the given files: the model of the implementation they contain
is run.  `none` if they contain none. -/
def runIn (fs : List SourceFile) (sha512 : List UInt8 → Bytes 64) (prog : List Cmd) : Option (Option (List Out)) :=
  let impl := [fileOf fs "FieldElement", fileOf fs "FieldElement.Mul", fileOf fs "BaseScalarMultTable"]
  if impl = [some "field_radix51.go", some "field_mul64.go", some "table_radix51.go"] then
    some ((run (goEnv sha512) Mem.init prog).map Prod.snd)
  else if impl = [some "field_radix51.go", some "field_amd64.go", some "table_radix51.go"] then
    some ((run (asmEnv sha512) Mem.init prog).map Prod.snd)
  else if impl = [some "field_generic.go", some "field_generic.go", some "table_generic.go"] then
    some ((run (genericEnv sha512) Mem.init prog).map Prod.snd)
  else none

/-- **C89** (portability): in every configuration a program over the public API returns what the abstract description of the
package says, where the configurations with the generic field arithmetic (tag `forcegeneric`, or Go before 1.13 on another
architecture than amd64) are only promised this if no point just decoded is a second operand (`Safe`, see C50). -/
theorem C89_portable (new : Bool) (sat : String → Bool) (sha512 : List UInt8 → Bytes 64) (prog : List Cmd)
    (h : sat "forcegeneric" = true ∨ (sat "amd64" = false ∧ sat "go1.13" = false) → Safe prog = true) :
    runIn (build new sat) sha512 prog = some ((arun Sha256.sha256 sha512 AState.init prog).map Prod.snd) := by
  unfold runIn
  simp only [C89_choice]
  by_cases h1 : sat "forcegeneric" = true
  · simp only [if_pos h1]
    rw [if_neg (by decide), if_neg (by decide), if_pos trivial, C50_refinement sha512 prog (h (Or.inl h1))]
  · simp only [if_neg h1]
    by_cases h2 : sat "go1.13" = true
    · simp only [if_pos h2]
      rw [if_pos trivial, C42_refinement]
    · simp only [if_neg h2]
      by_cases h3 : sat "amd64" = true
      · simp only [if_pos h3]
        rw [if_neg (by decide), if_pos trivial, C44_programs, C42_refinement]
      · simp only [if_neg h3]
        rw [if_neg (by decide), if_neg (by decide), if_pos trivial,
          C50_refinement sha512 prog (h (Or.inr ⟨by simpa using h3, by simpa using h2⟩))]

/-- A Safe program returns the same in any two configurations. -/
theorem C89_same (new new' : Bool) (sat sat' : String → Bool) (sha512 : List UInt8 → Bytes 64) (prog : List Cmd)
    (h : Safe prog = true) : runIn (build new sat) sha512 prog = runIn (build new' sat') sha512 prog ∧
      runIn (build new sat) sha512 prog ≠ none := by
  rw [C89_portable new sat sha512 prog fun _ => h, C89_portable new' sat' sha512 prog fun _ => h]
  exact ⟨rfl, by simp⟩

/-- What a program over package edwards25519 returns in a build with the given files. -/
def edRunIn (fs : List SourceFile) (prog : List Ed.Cmd) : Option (Option (List Ed.Out)) :=
  let impl := [fileOf fs "FieldElement", fileOf fs "FieldElement.Mul", fileOf fs "BaseScalarMultTable"]
  if impl = [some "field_radix51.go", some "field_mul64.go", some "table_radix51.go"] then
    some ((Ed.run (Ed.Mem.init : Ed.Mem Fe51) prog).map Prod.snd)
  else if impl = [some "field_radix51.go", some "field_amd64.go", some "table_radix51.go"] then
    some ((Ed.run (Ed.Mem.init : Ed.Mem Asm.FeAsm) prog).map Prod.snd)
  else if impl = [some "field_generic.go", some "field_generic.go", some "table_generic.go"] then
    some ((Ed.grun (Ed.Mem.init : Ed.Mem Fe25) prog).map Prod.snd)
  else none

/-- **C89** (portability of edwards25519): the same for programs over the methods of package edwards25519, compared with the
default build; the restriction for generic arithmetic is that of C88. -/
theorem C89_portableEd (new : Bool) (sat : String → Bool) (prog : List Ed.Cmd)
    (h : sat "forcegeneric" = true ∨ (sat "amd64" = false ∧ sat "go1.13" = false) → Ristretto.Ed.Fine prog = true) :
    edRunIn (build new sat) prog = some ((Ed.run (Ed.Mem.init : Ed.Mem Fe51) prog).map Prod.snd) := by
  unfold edRunIn
  simp only [C89_choice]
  by_cases h1 : sat "forcegeneric" = true
  · simp only [if_pos h1]
    rw [if_neg (by decide), if_neg (by decide), if_pos trivial, (C88_agree prog (h (Or.inl h1))).1]
  · simp only [if_neg h1]
    by_cases h2 : sat "go1.13" = true
    · simp only [if_pos h2]
      rw [if_pos trivial]
    · simp only [if_neg h2]
      by_cases h3 : sat "amd64" = true
      · simp only [if_pos h3]
        rw [if_neg (by decide), if_pos trivial, (C88_agreeAsm prog).1]
      · simp only [if_neg h3]
        rw [if_neg (by decide), if_neg (by decide), if_pos trivial,
          (C88_agree prog (h (Or.inr ⟨by simpa using h3, by simpa using h2⟩))).1]

/-- Go 1.12 on arm64 and on amd64, Go 1.26 on arm64, and Go 1.26 on amd64 with tag `forcegeneric`. -/
example :
    fileOf (build false fun t => ["arm64", "linux", "go1.12"].contains t) "FieldElement.Mul" = some "field_generic.go" ∧
    fileOf (build false fun t => ["amd64", "linux", "go1.12"].contains t) "FieldElement.Mul" = some "field_amd64.go" ∧
    fileOf (build true fun t => ["arm64", "linux", "go1.13", "go1.26"].contains t) "FieldElement.Mul" = some "field_mul64.go" ∧
    fileOf (build true fun t => ["amd64", "linux", "go1.13", "go1.26", "forcegeneric"].contains t) "FieldElement.Mul" =
      some "field_generic.go" := by decide +kernel

end Ristretto.Props
