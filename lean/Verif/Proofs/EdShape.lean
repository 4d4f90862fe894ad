import Verif.Proofs.Api
import Verif.Proofs.FieldPow

/-!
# The shape of the tables of package edwards25519, and multiplications that do not panic
-/

namespace Ristretto.Proofs.Ed
open Model FieldOps LawfulField
set_option autoImplicit false

variable {F : Type} [LawfulField F]

/-- Every table has 32 rows of 8 entries. -/
def ShapeT (t : Table F) : Prop := t.length = 32 ∧ ∀ row ∈ t, row.length = 8

/-! The shape of tables and the absence of panics -/

theorem tableRow_length (cp : ExtPt F) : ∀ n c, (tableRow cp n c).1.length = n
  | 0, _ => rfl
  | n + 1, c => by simp only [tableRow, List.length_cons, tableRow_length cp n]

theorem tableLoop_shape : ∀ (n : ℕ) (cp : ExtPt F), (tableLoop n cp).length = n ∧ ∀ row ∈ tableLoop n cp, row.length = 8
  | 0, _ => ⟨rfl, fun _ h => by cases h⟩
  | n + 1, cp => by
    simp only [tableLoop, List.length_cons, List.mem_cons]
    refine ⟨by rw [(tableLoop_shape n _).1], ?_⟩
    rintro row (rfl | h)
    · exact tableRow_length _ _ _
    · exact (tableLoop_shape n _).2 row h

theorem tableCompute_shape (q : ExtPt F) : ShapeT (tableCompute q) := tableLoop_shape 32 q

theorem varTimeLut_length (q : ExtPt F) : (varTimeLut q).length = 8 := by
  have : ∀ (dbl : ExtPt F) n c, (varTimeLutLoop dbl n c).length = n := by
    intro dbl n
    induction n with
    | zero => intro c; rfl
    | succ n ih => intro c; simp only [varTimeLutLoop, List.length_cons, ih]
  exact this _ _ _

theorem lutGet_total (q : ExtPt F) (k : Int8) (h0 : ¬ k < 0) (h8 : k.toInt.toNat < 8) :
    ∃ e, lutGet (varTimeLut q) k = some e := by
  unfold lutGet
  rw [if_neg h0]
  exact ⟨_, List.getElem?_eq_getElem (by rw [varTimeLut_length]; exact h8)⟩

theorem nafSkip_le (naf : ℕ → Int8) : ∀ (i : ℕ) (cp : ComplPt F), (nafSkip naf i cp).1 ≤ i := by
  intro i
  induction i with
  | zero => intro cp; exact le_rfl
  | succ i ih =>
    intro cp
    unfold nafSkip
    split
    · exact le_rfl
    · exact Nat.le_succ_of_le (ih _)

theorem varTimeLoop_total (q : ExtPt F) (naf : ℕ → Int8) (hok : NafOk naf) :
    ∀ (fuel i : ℕ) (p : ExtPt F), i < fuel → naf i ≠ 0 → ∃ r, varTimeLoop naf (varTimeLut q) fuel i p = some r := by
  intro fuel
  induction fuel with
  | zero => intro i p h; omega
  | succ fuel ih =>
    intro i p hi hne
    obtain ⟨ho, hl, hu⟩ := (hok i).resolve_left hne
    have hcp : ∃ cp, varTimeDigit (naf i) (varTimeLut q) p = some cp := by
      unfold varTimeDigit
      by_cases h : naf i > 0
      · rw [if_pos h]
        obtain ⟨a, b, -⟩ := lut_pos _ ho hl hu h
        obtain ⟨e, he⟩ := lutGet_total q _ a b
        exact ⟨_, by rw [he]; rfl⟩
      · rw [if_neg h]
        obtain ⟨a, b, -⟩ := lut_neg _ ho hl hu h
        obtain ⟨e, he⟩ := lutGet_total q _ a b
        exact ⟨_, by rw [he]; rfl⟩
    obtain ⟨cp, hcp⟩ := hcp
    unfold varTimeLoop
    rw [hcp]
    simp only [Option.bind_eq_bind, Option.bind_some]
    rcases i with _ | i
    · exact ⟨_, rfl⟩
    · simp only
      have := nafSkip_le naf i (ComplPt.doubleProjective cp.toProjective)
      split
      · exact ⟨_, rfl⟩
      · rename_i hz
        exact ih _ _ (by omega) hz

theorem tableVarTimeLoop_total : ∀ (t : List (List (NielsPt F))) (ws : List Int8) (p : ExtPt F),
    (∀ row ∈ t, row.length = 8) → (∀ w ∈ ws, -8 ≤ w.toInt ∧ w.toInt ≤ 8) → ∃ r, tableVarTimeLoop t ws p = some r := by
  intro t
  induction t with
  | nil => intro ws p _ _; exact ⟨p, by unfold tableVarTimeLoop; rfl⟩
  | cons row rows ih =>
    intro ws p ht hw
    cases ws with
    | nil => exact ⟨p, by unfold tableVarTimeLoop; rfl⟩
    | cons w ws =>
      unfold tableVarTimeLoop
      have hr : row.length = 8 := ht row (by simp)
      by_cases h0 : w.toInt32 = 0
      · rw [if_pos h0]
        exact ih ws p (fun r h => ht r (by simp [h])) (fun v h => hw v (by simp [h]))
      · rw [if_neg h0]
        have hsel : ∃ np, varTimeSelectPoint row w.toInt32 = some np := by
          have hneg : ∀ w : Int8, -8 ≤ w.toInt → w.toInt ≤ 8 → w.toInt32 ≠ 0 →
              ((w.toInt32 < 0) → (-w.toInt32 - 1).toInt.toNat < 8) ∧
              (¬ w.toInt32 < 0 → (w.toInt32 - 1).toInt.toNat < 8) := int8_forall (by decide +kernel)
          obtain ⟨a1, a2⟩ := hneg w (hw w (by simp)).1 (hw w (by simp)).2 h0
          unfold varTimeSelectPoint
          split
          · rename_i hn
            rw [List.getElem?_eq_getElem (by rw [hr]; exact a1 hn)]
            exact ⟨_, rfl⟩
          · rename_i hn
            exact ⟨_, List.getElem?_eq_getElem (by rw [hr]; exact a2 hn)⟩
        obtain ⟨np, hnp⟩ := hsel
        rw [hnp]
        exact ih ws _ (fun r h => ht r (by simp [h])) (fun v h => hw v (by simp [h]))

end Ristretto.Proofs.Ed
