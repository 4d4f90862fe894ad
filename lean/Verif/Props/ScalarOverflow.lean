import Verif.Proofs.ScalarChecked


/-!
# C85: no overflow in the multiplication and reduction of scalars

`Verif.Model.ScalarChecked` writes `Mul`, `Square`, `MulAdd`, `MulSub`, `SetReduced`, `Derive` and `Inverse` of scalar.go
once more on `int64` numbers that remember whether an operation on the way to them overflowed.  The outcome is a scalar only
if nothing overflowed.
-/

namespace Ristretto.Props
open Model Model.Scalar Model.ScalarChecked Proofs
set_option autoImplicit false

/-- **C85** (meaning of the checks).  A result that is marked as fine is the exact one, and its operands were fine. -/
theorem C85_meaning (x y : I) :
    ((x + y).ok = true → (x + y).val.toInt = x.val.toInt + y.val.toInt ∧ x.ok = true ∧ y.ok = true) ∧
    ((x - y).ok = true → (x - y).val.toInt = x.val.toInt - y.val.toInt ∧ x.ok = true ∧ y.ok = true) ∧
    ((x * y).ok = true → (x * y).val.toInt = x.val.toInt * y.val.toInt ∧ x.ok = true ∧ y.ok = true) ∧
    ((-x).ok = true → (-x).val.toInt = -x.val.toInt ∧ x.ok = true) ∧
    ((x <<< (21 : I)).ok = true → (x <<< (21 : I)).val.toInt = x.val.toInt * 2 ^ 21 ∧ x.ok = true) := by
  have key : ∀ {v : Int64} {z : ℤ} {b : Bool}, (I.exact v z b).ok = true → b = true ∧ v.toInt = z := by
    intro v z b h
    have h : (b && decide (v.toInt = z)) = true := h
    rw [Bool.and_eq_true, decide_eq_true_eq] at h
    exact h
  refine ⟨fun h => ?_, fun h => ?_, fun h => ?_, fun h => ?_, fun h => ?_⟩
  · obtain ⟨h1, h2⟩ := key h; rw [Bool.and_eq_true] at h1; exact ⟨h2, h1⟩
  · obtain ⟨h1, h2⟩ := key h; rw [Bool.and_eq_true] at h1; exact ⟨h2, h1⟩
  · obtain ⟨h1, h2⟩ := key h; rw [Bool.and_eq_true] at h1; exact ⟨h2, h1⟩
  · obtain ⟨h1, h2⟩ := key h; exact ⟨h2, h1⟩
  · obtain ⟨h1, h2⟩ := key h; rw [Bool.and_eq_true] at h1; exact ⟨h2, h1.1⟩

theorem I.notok_add {x y : I} (h : x.ok = false ∨ y.ok = false) : (x + y).ok = false := by
  by_contra hc
  have := ((C85_meaning x y).1 (by simpa using hc)).2
  rcases h with h | h <;> simp [h] at this
theorem I.notok_sub {x y : I} (h : x.ok = false ∨ y.ok = false) : (x - y).ok = false := by
  by_contra hc
  have := ((C85_meaning x y).2.1 (by simpa using hc)).2
  rcases h with h | h <;> simp [h] at this
theorem I.notok_mul {x y : I} (h : x.ok = false ∨ y.ok = false) : (x * y).ok = false := by
  by_contra hc
  have := ((C85_meaning x y).2.2.1 (by simpa using hc)).2
  rcases h with h | h <;> simp [h] at this

/-- The statement groups that occur: the numbers are those of variables. -/
def RedOpIn : RedOp → Prop
  | .carryR i => i < 23
  | .carryF i => i < 23
  | .fold j => 12 ≤ j ∧ j < 24

instance (o : RedOp) : Decidable (RedOpIn o) := by
  cases o <;> unfold RedOpIn <;> infer_instance

theorem put_eq (s : CLimbs) (i : ℕ) (v : I) : put s i v i = v := if_pos rfl
theorem put_ne (s : CLimbs) {i k : ℕ} (v : I) (h : k ≠ i) : put s i v k = s k := if_neg h

/-- An update `s_i += …` or `s_i -= …` keeps a lost variable lost. -/
theorem lost_put {s : CLimbs} {k i : ℕ} {v : I} (hk : (s k).ok = false) (hv : (s i).ok = false → v.ok = false) :
    (put s i v k).ok = false := by
  by_cases e : k = i
  · subst e; rw [put_eq]; exact hv hk
  · rw [put_ne s v e]; exact hk

/-- **C85** (nothing gets forgotten).  An overflow that happened on the way to one of the 24 variables still shows after any
sequence of the statements of the reduction, so that the checked functions have no outcome. -/
theorem C85_sticky (os : List RedOp) (hos : ∀ o ∈ os, RedOpIn o) (s : CLimbs) (k : ℕ) (hk : k < 24)
    (h : (s k).ok = false) : outcome (ScalarChecked.execAll os s) = none := by
  have step : ∀ (o : RedOp), RedOpIn o → ∀ (s : CLimbs) (k : ℕ), k < 24 → (s k).ok = false →
      ∃ k' < 24, (exec o s k').ok = false := by
    intro o ho s k hk h
    cases o with
    | carryR i =>
      exact ⟨k, hk, lost_put (lost_put h fun e => I.notok_add (Or.inl e)) fun e => I.notok_sub (Or.inl e)⟩
    | carryF i =>
      exact ⟨k, hk, lost_put (lost_put h fun e => I.notok_add (Or.inl e)) fun e => I.notok_sub (Or.inl e)⟩
    | fold j =>
      obtain ⟨h1, h2⟩ := ho
      by_cases e : k = j
      · subst e
        refine ⟨k - 12, by omega, ?_⟩
        simp only [exec]
        rw [put_ne _ _ (by omega), put_ne _ _ (by omega), put_ne _ _ (by omega), put_ne _ _ (by omega),
          put_ne _ _ (by omega), put_ne _ _ (by omega), put_eq]
        exact I.notok_add (Or.inr (I.notok_mul (Or.inl h)))
      · refine ⟨k, hk, ?_⟩
        simp only [exec]
        rw [put_ne _ _ e]
        refine lost_put (lost_put (lost_put (lost_put (lost_put (lost_put h ?_) ?_) ?_) ?_) ?_) ?_
        · exact fun e => I.notok_add (Or.inl e)
        · exact fun e => I.notok_add (Or.inl e)
        · exact fun e => I.notok_add (Or.inl e)
        · exact fun e => I.notok_sub (Or.inl e)
        · exact fun e => I.notok_add (Or.inl e)
        · exact fun e => I.notok_sub (Or.inl e)
  have all : ∀ (os : List RedOp), (∀ o ∈ os, RedOpIn o) → ∀ (s : CLimbs) (k : ℕ), k < 24 → (s k).ok = false →
      ∃ k' < 24, (ScalarChecked.execAll os s k').ok = false := by
    intro os
    induction os with
    | nil => intro _ s k hk h; exact ⟨k, hk, h⟩
    | cons o os ih =>
      intro hos s k hk h
      obtain ⟨k1, hk1, h1⟩ := step o (hos o List.mem_cons_self) s k hk h
      exact ih (fun o ho => hos o (List.mem_cons_of_mem _ ho)) (exec o s) k1 hk1 h1
  obtain ⟨k', hk', h'⟩ := all os hos s k hk h
  unfold outcome
  rw [if_neg]
  intro hc
  rw [List.all_eq_true] at hc
  rw [hc k' (List.mem_range.2 hk')] at h'
  cases h'

/-- The statements of the code satisfy the hypothesis of `C85_sticky`. -/
example : ∀ o ∈ reduceHead ++ reduceTail, RedOpIn o := by decide

/-- An overflow of `s12 * 666643` is noticed. -/
example : outcome (ScalarChecked.execAll [.fold 12] fun k => if k = 12 then .of (2 ^ 60) else 0) = none := by
  decide +kernel
/-- … also when it happens in the middle of the reduction. -/
example : outcome (ScalarChecked.execAll reduceTail fun k => if k = 23 then .of (2 ^ 45) else 0) = none := by
  decide +kernel
/-- The checks have an outcome for values that are not too large. -/
example : (outcome (ScalarChecked.execAll reduceTail fun k => if k = 23 then .of (2 ^ 40) else 0)).isSome = true := by
  decide +kernel

/-- **C85** (`Mul`, `Square`, `MulAdd`, `MulSub`, `SetReduced`).  For all contents of the scalars and of the buffer no
operation overflows, and the result is that of the model without checks. -/
theorem C85_functions (a b c : Scalar) (t : Bytes 64) :
    ScalarChecked.mul a b = some (Scalar.mul a b) ∧ ScalarChecked.square a = some (Scalar.square a) ∧
    ScalarChecked.mulAdd a b c = some (Scalar.mulAdd a b c) ∧ ScalarChecked.mulSub a b c = some (Scalar.mulSub a b c) ∧
    ScalarChecked.setReduced t = some (Scalar.setReduced t) :=
  ⟨ScalarChecked.mul_fine a b, ScalarChecked.square_fine a, ScalarChecked.mulAdd_fine a b c,
    ScalarChecked.mulSub_fine a b c, ScalarChecked.setReduced_fine t⟩

/-- **C85** (`Inverse`, `Derive`).  Nothing overflows in any of their steps, for all contents of the scalar, all hash
functions and all buffers. -/
theorem C85_inverse (t : Scalar) (sha512 : List UInt8 → Bytes 64) (buf : List UInt8) :
    ScalarChecked.inverse t = some (Scalar.inverse t) ∧
    ScalarChecked.derive sha512 buf = some (Scalar.derive sha512 buf) :=
  ⟨ScalarChecked.inverse_fine t, ScalarChecked.setReduced_fine _⟩

/-- **C85**, with the numbers: the outcome exists and is the product, the square, `ab + c`, `ab - c` and the remainder of
the 512-bit number modulo `l`. -/
theorem C85_values (a b c : Scalar) (t : Bytes 64) :
    (∃ r, ScalarChecked.mul a b = some r ∧ scVal r = scVal a * scVal b % l) ∧
    (∃ r, ScalarChecked.square a = some r ∧ scVal r = scVal a ^ 2 % l) ∧
    (∃ r, ScalarChecked.mulAdd a b c = some r ∧ scVal r = (scVal a * scVal b + scVal c) % l) ∧
    (∃ r, ScalarChecked.mulSub a b c = some r ∧ (scVal r : ℤ) = ((scVal a : ℤ) * scVal b - scVal c) % l) ∧
    (∃ r, ScalarChecked.setReduced t = some r ∧ scVal r = leVal t % l) := by
  obtain ⟨h1, h2, h3, h4, h5⟩ := C85_functions a b c t
  refine ⟨⟨_, h1, mul_spec a b⟩, ⟨_, h2, ?_⟩, ⟨_, h3, mulAdd_spec a b c⟩, ⟨_, h4, mulSub_spec a b c⟩,
    ⟨_, h5, setReduced_val t⟩⟩
  rw [square_spec, sq]

/-- The largest contents: all bits of all words set. -/
example : (ScalarChecked.mulAdd (.replicate 8 0xffffffff) (.replicate 8 0xffffffff) (.replicate 8 0xffffffff)).isSome = true
    := by rw [(C85_functions _ _ _ (.replicate 64 0)).2.2.1]; rfl

end Ristretto.Props
