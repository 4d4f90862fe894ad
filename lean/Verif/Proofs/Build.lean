import Verif.Model.Build

/-!
# The files of each build, for `Props/Build.lean`
-/

namespace Ristretto.Proofs.Build
open Model.Build
set_option autoImplicit false
set_option linter.unusedSimpArgs false

theorem go_mul64 (sat : String → Bool) : evalGo sat "go1.13 && !forcegeneric" = some (sat "go1.13" && !sat "forcegeneric") := by
  rfl
theorem go_amd64 (sat : String → Bool) : evalGo sat "amd64 && !go1.13 && !forcegeneric" =
    some (sat "amd64" && (!sat "go1.13" && !sat "forcegeneric")) := by rfl
theorem go_radix51 (sat : String → Bool) : evalGo sat "(amd64 && !forcegeneric) || (go1.13 && !forcegeneric)" =
    some ((sat "amd64" && !sat "forcegeneric") || (sat "go1.13" && !sat "forcegeneric")) := by rfl
theorem go_generic (sat : String → Bool) : evalGo sat "(!amd64 && !go1.13) || forcegeneric" =
    some ((!sat "amd64" && !sat "go1.13") || sat "forcegeneric") := by rfl
theorem plus_mul64 (sat : String → Bool) : evalPlus sat "go1.13,!forcegeneric" = (sat "go1.13" && !sat "forcegeneric") := by
  have : evalPlus sat "go1.13,!forcegeneric" = ((sat "go1.13" && (!sat "forcegeneric" && true)) || false) := rfl
  simpa using this

theorem plus_amd64 (sat : String → Bool) : evalPlus sat "amd64,!go1.13,!forcegeneric" =
    (sat "amd64" && (!sat "go1.13" && !sat "forcegeneric")) := by
  have : evalPlus sat "amd64,!go1.13,!forcegeneric" =
    ((sat "amd64" && (!sat "go1.13" && (!sat "forcegeneric" && true))) || false) := rfl
  simpa using this
theorem plus_radix51 (sat : String → Bool) : evalPlus sat "amd64,!forcegeneric go1.13,!forcegeneric" =
    ((sat "amd64" && !sat "forcegeneric") || (sat "go1.13" && !sat "forcegeneric")) := by
  have : evalPlus sat "amd64,!forcegeneric go1.13,!forcegeneric" =
    ((sat "amd64" && (!sat "forcegeneric" && true)) || ((sat "go1.13" && (!sat "forcegeneric" && true)) || false)) := rfl
  simpa using this
theorem plus_generic (sat : String → Bool) : evalPlus sat "!amd64,!go1.13 forcegeneric" =
    ((!sat "amd64" && !sat "go1.13") || sat "forcegeneric") := by
  have : evalPlus sat "!amd64,!go1.13 forcegeneric" =
    ((!sat "amd64" && (!sat "go1.13" && true)) || ((sat "forcegeneric" && true) || false)) := rfl
  simpa using this
theorem plus_asm (sat : String → Bool) : evalPlus sat "amd64 AND !go1.13" = (sat "amd64" || (sat "AND" || !sat "go1.13")) := by
  have : evalPlus sat "amd64 AND !go1.13" =
    ((sat "amd64" && true) || ((sat "AND" && true) || ((!sat "go1.13" && true) || false))) := rfl
  simpa using this

theorem sel_curve (new : Bool) (sat : String → Bool) : selected new sat curve = (true) := by
  have h1 : isTest "curve.go" = false := by decide +kernel
  have h2 : nameTags "curve.go" = [] := by decide +kernel
  cases new <;> simp only [selected, curve, h1, h2, List.all_cons, List.all_nil]
  all_goals cases sat "amd64" <;> cases sat "go1.13" <;> cases sat "forcegeneric" <;> rfl
theorem sel_elligator (new : Bool) (sat : String → Bool) : selected new sat elligator = (true) := by
  have h1 : isTest "elligator.go" = false := by decide +kernel
  have h2 : nameTags "elligator.go" = [] := by decide +kernel
  cases new <;> simp only [selected, elligator, h1, h2, List.all_cons, List.all_nil]
  all_goals cases sat "amd64" <;> cases sat "go1.13" <;> cases sat "forcegeneric" <;> rfl
theorem sel_field (new : Bool) (sat : String → Bool) : selected new sat field = (true) := by
  have h1 : isTest "field.go" = false := by decide +kernel
  have h2 : nameTags "field.go" = [] := by decide +kernel
  cases new <;> simp only [selected, field, h1, h2, List.all_cons, List.all_nil]
  all_goals cases sat "amd64" <;> cases sat "go1.13" <;> cases sat "forcegeneric" <;> rfl
theorem sel_fieldAmd64 (new : Bool) (sat : String → Bool) : selected new sat fieldAmd64 = (sat "amd64" && !sat "go1.13" && !sat "forcegeneric") := by
  have h1 : isTest "field_amd64.go" = false := by decide +kernel
  have h2 : nameTags "field_amd64.go" = ["amd64"] := by decide +kernel
  cases new <;> simp only [selected, fieldAmd64, h1, h2, List.all_cons, List.all_nil, go_amd64, plus_amd64]
  all_goals cases sat "amd64" <;> cases sat "go1.13" <;> cases sat "forcegeneric" <;> rfl
theorem sel_fieldAmd64S (new : Bool) (sat : String → Bool) : selected new sat fieldAmd64S = (sat "amd64") := by
  have h1 : isTest "field_amd64.s" = false := by decide +kernel
  have h2 : nameTags "field_amd64.s" = ["amd64"] := by decide +kernel
  cases new <;> simp only [selected, fieldAmd64S, h1, h2, List.all_cons, List.all_nil, plus_asm]
  all_goals cases sat "amd64" <;> cases sat "go1.13" <;> cases sat "forcegeneric" <;> rfl
theorem sel_fieldGeneric (new : Bool) (sat : String → Bool) : selected new sat fieldGeneric = ((!sat "amd64" && !sat "go1.13") || sat "forcegeneric") := by
  have h1 : isTest "field_generic.go" = false := by decide +kernel
  have h2 : nameTags "field_generic.go" = [] := by decide +kernel
  cases new <;> simp only [selected, fieldGeneric, h1, h2, List.all_cons, List.all_nil, go_generic, plus_generic]
  all_goals cases sat "amd64" <;> cases sat "go1.13" <;> cases sat "forcegeneric" <;> rfl
theorem sel_fieldMul64 (new : Bool) (sat : String → Bool) : selected new sat fieldMul64 = (sat "go1.13" && !sat "forcegeneric") := by
  have h1 : isTest "field_mul64.go" = false := by decide +kernel
  have h2 : nameTags "field_mul64.go" = [] := by decide +kernel
  cases new <;> simp only [selected, fieldMul64, h1, h2, List.all_cons, List.all_nil, go_mul64, plus_mul64]
  all_goals cases sat "amd64" <;> cases sat "go1.13" <;> cases sat "forcegeneric" <;> rfl
theorem sel_fieldRadix51 (new : Bool) (sat : String → Bool) : selected new sat fieldRadix51 = ((sat "amd64" || sat "go1.13") && !sat "forcegeneric") := by
  have h1 : isTest "field_radix51.go" = false := by decide +kernel
  have h2 : nameTags "field_radix51.go" = [] := by decide +kernel
  cases new <;> simp only [selected, fieldRadix51, h1, h2, List.all_cons, List.all_nil, go_radix51, plus_radix51]
  all_goals cases sat "amd64" <;> cases sat "go1.13" <;> cases sat "forcegeneric" <;> rfl
theorem sel_table (new : Bool) (sat : String → Bool) : selected new sat table = (true) := by
  have h1 : isTest "table.go" = false := by decide +kernel
  have h2 : nameTags "table.go" = [] := by decide +kernel
  cases new <;> simp only [selected, table, h1, h2, List.all_cons, List.all_nil]
  all_goals cases sat "amd64" <;> cases sat "go1.13" <;> cases sat "forcegeneric" <;> rfl
theorem sel_tableGeneric (new : Bool) (sat : String → Bool) : selected new sat tableGeneric = ((!sat "amd64" && !sat "go1.13") || sat "forcegeneric") := by
  have h1 : isTest "table_generic.go" = false := by decide +kernel
  have h2 : nameTags "table_generic.go" = [] := by decide +kernel
  cases new <;> simp only [selected, tableGeneric, h1, h2, List.all_cons, List.all_nil, go_generic, plus_generic]
  all_goals cases sat "amd64" <;> cases sat "go1.13" <;> cases sat "forcegeneric" <;> rfl
theorem sel_tableRadix51 (new : Bool) (sat : String → Bool) : selected new sat tableRadix51 = ((sat "amd64" || sat "go1.13") && !sat "forcegeneric") := by
  have h1 : isTest "table_radix51.go" = false := by decide +kernel
  have h2 : nameTags "table_radix51.go" = [] := by decide +kernel
  cases new <;> simp only [selected, tableRadix51, h1, h2, List.all_cons, List.all_nil, go_radix51, plus_radix51]
  all_goals cases sat "amd64" <;> cases sat "go1.13" <;> cases sat "forcegeneric" <;> rfl
theorem sel_vartime (new : Bool) (sat : String → Bool) : selected new sat vartime = (true) := by
  have h1 : isTest "vartime.go" = false := by decide +kernel
  have h2 : nameTags "vartime.go" = [] := by decide +kernel
  cases new <;> simp only [selected, vartime, h1, h2, List.all_cons, List.all_nil]
  all_goals cases sat "amd64" <;> cases sat "go1.13" <;> cases sat "forcegeneric" <;> rfl

/-- The files of a build. -/
theorem build_eq (new : Bool) (sat : String → Bool) : build new sat =
    [curve, elligator, field] ++ ((if sat "amd64" && !sat "go1.13" && !sat "forcegeneric" then [fieldAmd64] else []) ++
      ((if sat "amd64" then [fieldAmd64S] else []) ++
      ((if (!sat "amd64" && !sat "go1.13") || sat "forcegeneric" then [fieldGeneric] else []) ++
      ((if sat "go1.13" && !sat "forcegeneric" then [fieldMul64] else []) ++
      ((if (sat "amd64" || sat "go1.13") && !sat "forcegeneric" then [fieldRadix51] else []) ++ ([table] ++
      ((if (!sat "amd64" && !sat "go1.13") || sat "forcegeneric" then [tableGeneric] else []) ++
      ((if (sat "amd64" || sat "go1.13") && !sat "forcegeneric" then [tableRadix51] else []) ++ [vartime])))))))) := by
  simp only [build, files, List.filter_cons, List.filter_nil, sel_curve, sel_elligator, sel_field, sel_fieldAmd64, sel_fieldAmd64S, sel_fieldGeneric, sel_fieldMul64, sel_fieldRadix51, sel_table, sel_tableGeneric, sel_tableRadix51, sel_vartime]
  cases sat "amd64" <;> cases sat "go1.13" <;> cases sat "forcegeneric" <;> rfl

/-- The five kinds of builds. -/
theorem build_cases (new : Bool) (sat : String → Bool) :
    ((sat "forcegeneric" = true ∨ (sat "amd64" = false ∧ sat "go1.13" = false)) ∧
      (build new sat = [curve, elligator, field, fieldGeneric, table, tableGeneric, vartime] ∨
        build new sat = [curve, elligator, field, fieldAmd64S, fieldGeneric, table, tableGeneric, vartime])) ∨
    ((sat "forcegeneric" = false ∧ sat "go1.13" = true) ∧
      (build new sat = [curve, elligator, field, fieldMul64, fieldRadix51, table, tableRadix51, vartime] ∨
        build new sat = [curve, elligator, field, fieldAmd64S, fieldMul64, fieldRadix51, table, tableRadix51, vartime])) ∨
    ((sat "forcegeneric" = false ∧ sat "go1.13" = false ∧ sat "amd64" = true) ∧
      build new sat = [curve, elligator, field, fieldAmd64, fieldAmd64S, fieldRadix51, table, tableRadix51, vartime]) := by
  rw [build_eq]
  cases sat "amd64" <;> cases sat "go1.13" <;> cases sat "forcegeneric" <;> simp

end Ristretto.Proofs.Build
