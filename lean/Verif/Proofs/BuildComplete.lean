import Verif.Spec.Build
import Verif.Proofs.Build

/-!
# The files of each build fit together, for `Props/Build.lean`
-/

namespace Ristretto.Proofs.Build
open Model.Build Ristretto.Build
set_option autoImplicit false

theorem g1 : (goNames [curve, elligator, field, fieldGeneric, table, tableGeneric, vartime]).Nodup := by
  decide +kernel
theorem g2 : ∀ f ∈ [curve, elligator, field, fieldGeneric, table, tableGeneric, vartime], ∀ n ∈ f.mentions,
    n ∈ goNames [curve, elligator, field, fieldGeneric, table, tableGeneric, vartime] := by
  decide +kernel
theorem g3 : (bodies [curve, elligator, field, fieldAmd64S, fieldGeneric, table, tableGeneric, vartime]).Nodup := by
  decide +kernel
theorem d1 : (goNames [curve, elligator, field, fieldMul64, fieldRadix51, table, tableRadix51, vartime]).Nodup := by
  decide +kernel
theorem d2 : ∀ f ∈ [curve, elligator, field, fieldMul64, fieldRadix51, table, tableRadix51, vartime], ∀ n ∈ f.mentions,
    n ∈ goNames [curve, elligator, field, fieldMul64, fieldRadix51, table, tableRadix51, vartime] := by
  decide +kernel
theorem d3 : (bodies [curve, elligator, field, fieldAmd64S, fieldMul64, fieldRadix51, table, tableRadix51, vartime]).Nodup := by
  decide +kernel
theorem a1 : (goNames [curve, elligator, field, fieldAmd64, fieldAmd64S, fieldRadix51, table, tableRadix51, vartime]).Nodup := by
  decide +kernel
theorem a2 : ∀ f ∈ [curve, elligator, field, fieldAmd64, fieldAmd64S, fieldRadix51, table, tableRadix51, vartime], ∀ n ∈ f.mentions,
    n ∈ goNames [curve, elligator, field, fieldAmd64, fieldAmd64S, fieldRadix51, table, tableRadix51, vartime] := by
  decide +kernel
theorem a3 : (bodies [curve, elligator, field, fieldAmd64, fieldAmd64S, fieldRadix51, table, tableRadix51, vartime]).Nodup := by
  decide +kernel
theorem a4 : ∀ f ∈ [curve, elligator, field, fieldAmd64, fieldAmd64S, fieldRadix51, table, tableRadix51, vartime], ∀ n ∈ f.external,
    ∃ g ∈ [curve, elligator, field, fieldAmd64, fieldAmd64S, fieldRadix51, table, tableRadix51, vartime], isAsm g = true ∧ n ∈ g.declares := by
  decide +kernel

theorem complete (new : Bool) (sat : String → Bool) : Complete (build new sat) := by
  have no : ∀ f ∈ [curve, elligator, field, fieldAmd64S, fieldGeneric, fieldMul64, fieldRadix51, table, tableGeneric,
      tableRadix51, vartime], f.external = [] := by decide +kernel
  have nos : ∀ fs : List SourceFile, fs ⊆ [curve, elligator, field, fieldAmd64S, fieldGeneric, fieldMul64, fieldRadix51, table,
      tableGeneric, tableRadix51, vartime] →
      ∀ f ∈ fs, ∀ n ∈ f.external, ∃ g ∈ fs, isAsm g = true ∧ n ∈ g.declares := by
    intro fs hfs f hf n hn
    rw [no f (hfs hf)] at hn
    exact absurd hn List.not_mem_nil
  have sp : ∀ (l r : List SourceFile), goNames (l ++ fieldAmd64S :: r) = goNames (l ++ r) := by
    intro l r
    have : isAsm fieldAmd64S = true := by decide +kernel
    simp [goNames, List.filter_append, this]
  have sk : ∀ (l r : List SourceFile), (∀ f ∈ l ++ r, ∀ n ∈ f.mentions, n ∈ goNames (l ++ r)) →
      ∀ f ∈ l ++ fieldAmd64S :: r, ∀ n ∈ f.mentions, n ∈ goNames (l ++ fieldAmd64S :: r) := by
    intro l r h f hf n hn
    rw [sp]
    rcases List.mem_append.1 hf with hf | hf
    · exact h f (List.mem_append_left _ hf) n hn
    · rcases List.mem_cons.1 hf with rfl | hf
      · exact absurd hn List.not_mem_nil
      · exact h f (List.mem_append_right _ hf) n hn
  have sb : ∀ (l r : List SourceFile), (bodies (l ++ fieldAmd64S :: r)).Nodup → (bodies (l ++ r)).Nodup := by
    intro l r h
    refine h.sublist ?_
    simp only [bodies, List.flatMap_append, List.flatMap_cons]
    exact (List.Sublist.refl _).append (List.sublist_append_right _ _)
  rcases build_cases new sat with ⟨-, h | h⟩ | ⟨-, h | h⟩ | ⟨-, h⟩ <;> rw [h]
  · exact ⟨g1, g2, nos _ (by simp), sb [curve, elligator, field] [fieldGeneric, table, tableGeneric, vartime] g3⟩
  · refine ⟨?_, sk [curve, elligator, field] [fieldGeneric, table, tableGeneric, vartime] g2, nos _ (by simp), g3⟩
    rw [show [curve, elligator, field, fieldAmd64S, fieldGeneric, table, tableGeneric, vartime] =
      [curve, elligator, field] ++ fieldAmd64S :: [fieldGeneric, table, tableGeneric, vartime] from rfl, sp]
    exact g1
  · exact ⟨d1, d2, nos _ (by simp), sb [curve, elligator, field] [fieldMul64, fieldRadix51, table, tableRadix51, vartime] d3⟩
  · refine ⟨?_, sk [curve, elligator, field] [fieldMul64, fieldRadix51, table, tableRadix51, vartime] d2, nos _ (by simp), d3⟩
    rw [show [curve, elligator, field, fieldAmd64S, fieldMul64, fieldRadix51, table, tableRadix51, vartime] =
      [curve, elligator, field] ++ fieldAmd64S :: [fieldMul64, fieldRadix51, table, tableRadix51, vartime] from rfl, sp]
    exact d1
  · exact ⟨a1, a2, a4, a3⟩

theorem gd : ∀ n ∈ api [curve, elligator, field, fieldGeneric, table, tableGeneric, vartime],
    n ∈ goNames [curve, elligator, field, fieldMul64, fieldRadix51, table, tableRadix51, vartime] := by
  decide +kernel
theorem da : ∀ n ∈ api [curve, elligator, field, fieldMul64, fieldRadix51, table, tableRadix51, vartime],
    n ∈ goNames [curve, elligator, field, fieldAmd64, fieldAmd64S, fieldRadix51, table, tableRadix51, vartime] := by
  decide +kernel
theorem ag : ∀ n ∈ api [curve, elligator, field, fieldAmd64, fieldAmd64S, fieldRadix51, table, tableRadix51, vartime],
    n ∈ goNames [curve, elligator, field, fieldGeneric, table, tableGeneric, vartime] := by
  decide +kernel
theorem goNames_asm (l r : List SourceFile) : goNames (l ++ fieldAmd64S :: r) = goNames (l ++ r) := by
  have : isAsm fieldAmd64S = true := by decide +kernel
  simp [goNames, List.filter_append, this]

/-- Up to names nobody refers to there are three builds. -/
theorem goNames_cases (new : Bool) (sat : String → Bool) :
    goNames (build new sat) = goNames [curve, elligator, field, fieldGeneric, table, tableGeneric, vartime] ∨
    goNames (build new sat) = goNames [curve, elligator, field, fieldMul64, fieldRadix51, table, tableRadix51, vartime] ∨
    goNames (build new sat) = goNames [curve, elligator, field, fieldAmd64, fieldAmd64S, fieldRadix51, table, tableRadix51, vartime] := by
  rcases build_cases new sat with ⟨-, h | h⟩ | ⟨-, h | h⟩ | ⟨-, h⟩ <;> rw [h]
  · exact Or.inl rfl
  · exact Or.inl (goNames_asm [curve, elligator, field] [fieldGeneric, table, tableGeneric, vartime])
  · exact Or.inr (Or.inl rfl)
  · exact Or.inr (Or.inl (goNames_asm [curve, elligator, field] [fieldMul64, fieldRadix51, table, tableRadix51, vartime]))
  · exact Or.inr (Or.inr rfl)

theorem api_le (new new' : Bool) (sat sat' : String → Bool) (n : String) (h : n ∈ api (build new sat)) :
    n ∈ api (build new' sat') := by
  unfold api at h ⊢
  have hE := (List.mem_filter.1 h).2
  have hG := (List.mem_filter.1 h).1
  refine List.mem_filter.2 ⟨?_, hE⟩
  have x1 : ∀ n, n ∈ goNames [curve, elligator, field, fieldGeneric, table, tableGeneric, vartime] → exported n = true →
      n ∈ goNames [curve, elligator, field, fieldMul64, fieldRadix51, table, tableRadix51, vartime] :=
    fun n a b => gd n (List.mem_filter.2 ⟨a, b⟩)
  have x2 : ∀ n, n ∈ goNames [curve, elligator, field, fieldMul64, fieldRadix51, table, tableRadix51, vartime] → exported n = true →
      n ∈ goNames [curve, elligator, field, fieldAmd64, fieldAmd64S, fieldRadix51, table, tableRadix51, vartime] :=
    fun n a b => da n (List.mem_filter.2 ⟨a, b⟩)
  have x3 : ∀ n, n ∈ goNames [curve, elligator, field, fieldAmd64, fieldAmd64S, fieldRadix51, table, tableRadix51, vartime] →
      exported n = true → n ∈ goNames [curve, elligator, field, fieldGeneric, table, tableGeneric, vartime] :=
    fun n a b => ag n (List.mem_filter.2 ⟨a, b⟩)
  rcases goNames_cases new sat with e | e | e <;> rcases goNames_cases new' sat' with e' | e' | e' <;> rw [e] at hG <;> rw [e']
  · exact hG
  · exact x1 n hG hE
  · exact x2 n (x1 n hG hE) hE
  · exact x3 n (x2 n hG hE) hE
  · exact hG
  · exact x2 n hG hE
  · exact x3 n hG hE
  · exact x1 n (x3 n hG hE) hE
  · exact hG

end Ristretto.Proofs.Build
