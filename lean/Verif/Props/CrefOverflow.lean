import Verif.Proofs.CrefCheckedSim
import Verif.Props.CrefApi

/-!
# C74: no signed overflow in the C reference implementation

`Verif.Model.CrefChecked` writes the field functions of cref.c once more on integers that remember whether a signed
addition, subtraction, multiplication or negation on the way to them overflowed (`ok`).  `Checked junk` is the field of
runs with these checks: a value is lost (`none`) as soon as an operation overflows, every function of a lost value is
lost, and whatever is read from a lost value is the arbitrary `junk`.  The rest of cref.c computes on unsigned numbers
and on small integers.
-/

namespace Ristretto.Props
open Model Model.Cref
set_option autoImplicit false

/-! ## Programs -/

/-- **C74** (the Go package).  In every program over package `cref`, no signed operation overflows on the way to any
variable, and whatever an overflow would do, the caller sees the same. -/
theorem C74_go (junk : Bytes 32) (prog : List CCmd) :
    (∀ k, ((crun (Checked.init junk) prog).1.fes k).isFine = true) ∧
    (∀ k, Checked.ptFine ((crun (Checked.init junk) prog).1.pts k) = true) ∧
    (crun (Checked.init junk) prog).2 = (crun CMem.init prog).2 := by
  obtain ⟨h1, h2⟩ := Proofs.Cref.crun_rel prog
    (Proofs.Cref.cRel_initOf (Proofs.Cref.fine_rel (junk := junk) (Proofs.Cref.cRel_init.fe 0)))
  exact ⟨fun k => Proofs.Cref.fine_of (h1.fe k), fun k => Proofs.Cref.ptFine_of (h1.pt k),
    h2.trans (C51_refinement prog).symm⟩

theorem fits_append : ∀ (p q : List KCmd) (w : ℕ → ℕ), fits w (p ++ q) = true → fits w p = true
  | [], _, _, _ => rfl
  | c :: p, q, w, h => by
    rw [List.cons_append, fits] at h
    rw [fits]
    cases hw : weigh w c with
    | none => rw [hw] at h; cases h
    | some w' =>
      rw [hw] at h
      exact fits_append p q w' h

/-- **C74** (all of cref.c).  In every program over the functions of cref.c that keeps to the sizes of `fits`, after every
call, no signed operation has overflowed on the way to any variable, and whatever an overflow would do, the caller has
seen the same. -/
theorem C74_programs (junk : Bytes 32) (p q : List KCmd) (h : fits (fun _ => 1) (p ++ q) = true) :
    (∀ k, ((krun (Checked.init junk) p).1.fes k).isFine = true) ∧
    (∀ k, Checked.ptFine ((krun (Checked.init junk) p).1.pts k) = true) ∧
    (krun (Checked.init junk) p).2 = (krun CMem.init p).2 := by
  have hp := fits_append p q _ h
  obtain ⟨⟨w, h1⟩, h2⟩ := Proofs.Cref.krun_rel p
    (Proofs.Cref.kRel_initOf (Proofs.Cref.fine_rel (junk := junk) (Proofs.Cref.cRel_init.fe 0))) hp
  exact ⟨fun k => Proofs.Cref.fine_of (h1.fe k), fun k => Proofs.Cref.ptFine_of (h1.pt k),
    h2.trans (C63_refinement p hp).symm⟩

/-- A program that fits: it encodes `(2·2 + 2)² - 1`. -/
example : fits (fun _ => 1) ([.feSetOne 0, .feAdd 1 0 0, .feMul 2 1 1, .feAdd 3 2 1] ++
    [.feSquare 4 3, .feSub 4 4 0, .go (.fePack 4)]) = true := by decide

/-- The checks are not vacuous: seven doublings of an element with a large limb overflow, and what is packed is junk. -/
theorem C74_detects (junk : Bytes 32) :
    let prog : List KCmd := .go (.feUnpack 0 (leBytes 32 (2 ^ 25 - 1))) :: List.replicate 7 (.feDouble 0 0) ++ [.go (.fePack 0)]
    ((krun (Checked.init junk) prog).1.fes 0).isFine = false ∧
    (krun (Checked.init junk) prog).2.getLast? = some (.bytes junk) := by
  refine ⟨?_, ?_⟩ <;> rfl

/-! ## Functions -/

/-- **C74** (functions).  On elements of at most three times the size that `fe25519_mul` leaves, none of the field
functions overflows: all intermediate results are what they would be on mathematical integers, and the conversions of the
limbs to 32 bits do not change them.  The checked functions compute what the model of cref.c does. -/
theorem C74_functions (f g : Fe25) (hf : Limbs25 (3 * 2 ^ 25) (3 * (2 ^ 24 + 2 ^ 16)) f)
    (hg : Limbs25 (3 * 2 ^ 25) (3 * (2 ^ 24 + 2 ^ 16)) g) (s : Bytes 32) :
    ((addC f g).ok = true ∧ (addC f g).val = Cref.add f g) ∧
    ((subC f g).ok = true ∧ (subC f g).val = Cref.sub f g) ∧
    ((negC f).ok = true ∧ (negC f).val = Cref.neg f) ∧
    ((mulC f g).ok = true ∧ (mulC f g).val = Cref.mul f g) ∧
    ((squareC f).ok = true ∧ (squareC f).val = Cref.square f) ∧
    ((squareDoubleC f).ok = true ∧ (squareDoubleC f).val = Cref.squareDouble f) ∧
    ((∀ c ∈ packC f, c.ok = true) ∧ (packC f).map Chk.val = (Cref.pack f).toList) ∧
    ((unpackC s).ok = true ∧ (unpackC s).val = Cref.unpack s) := by
  have hf' : Limbs25 100663296 50528256 f := hf
  have hg' : Limbs25 100663296 50528256 g := hg
  exact ⟨⟨Proofs.Cref.addC_ok (m := 3) (n := 3) hf hg (by norm_num), rfl⟩,
    ⟨Proofs.Cref.subC_ok (m := 3) (n := 3) hf hg (by norm_num), rfl⟩,
    ⟨Proofs.Cref.negC_ok (m := 3) hf (by norm_num), rfl⟩,
    ⟨Proofs.Cref.mulC_ok hf' hg', Proofs.Cref.mulC_val f g⟩,
    ⟨Proofs.Cref.squareC_ok hf', Proofs.Cref.squareC_val f⟩,
    ⟨Proofs.Cref.squareDoubleC_ok hf', Proofs.Cref.squareDoubleC_val f⟩,
    ⟨Proofs.Cref.packC_ok hf', Proofs.Cref.packC_val f⟩,
    ⟨Proofs.Cref.unpackC_ok s, Proofs.Cref.unpackC_val s⟩⟩

/-- The hypothesis is met by all results of `fe25519_unpack`. -/
example (b : Bytes 32) : Limbs25 (3 * 2 ^ 25) (3 * (2 ^ 24 + 2 ^ 16)) (Cref.unpack b) :=
  (Proofs.Cref.R.mono (n := 3) (Proofs.Cref.cFe_unpack (F := Fe25) b)).1

/-- The sizes matter: `fe25519_mul` overflows on limbs that are eight times as large as those it leaves, already in
`19 * g_1`. -/
theorem C74_mul_overflows : ∃ f g : Fe25, Limbs25 (8 * 2 ^ 25) (8 * (2 ^ 24 + 2 ^ 16)) f ∧
    Limbs25 (8 * 2 ^ 25) (8 * (2 ^ 24 + 2 ^ 16)) g ∧ (mulC f g).ok = false :=
  ⟨⟨1, 0, 0, 0, 0, 0, 0, 0, 0, 0⟩, ⟨0, 134217728, 0, 0, 0, 0, 0, 0, 0, 0⟩, by decide, by decide, by decide +kernel⟩

/-! ## The checks -/

theorem fits32 (x : Int32) (z : ℤ) (h : x.toInt = z.bmod (2 ^ 32)) : x.toInt = z ↔ -2 ^ 31 ≤ z ∧ z < 2 ^ 31 := by
  have h1 := x.toInt_lt
  have h2 := x.le_toInt
  constructor
  · intro e; exact ⟨by rw [← e]; exact h2, by rw [← e]; exact h1⟩
  · rintro ⟨a, b⟩
    rw [h]
    exact Int.bmod_eq_of_le (by norm_num at *; omega) (by norm_num at *; omega)

theorem fits64 (x : Int64) (z : ℤ) (h : x.toInt = z.bmod (2 ^ 64)) : x.toInt = z ↔ -2 ^ 63 ≤ z ∧ z < 2 ^ 63 := by
  have h1 := x.toInt_lt
  have h2 := x.le_toInt
  constructor
  · intro e; exact ⟨by rw [← e]; exact h2, by rw [← e]; exact h1⟩
  · rintro ⟨a, b⟩
    rw [h]
    exact Int.bmod_eq_of_le (by norm_num at *; omega) (by norm_num at *; omega)

/-- **C74** (what is checked).  An addition, subtraction, multiplication or negation is `ok` exactly when its operands are
and the exact result lies in the range of the type; a conversion to 32 bits exactly when the value does; a field element
exactly when all its limbs are. -/
theorem C74_checks (a b : Chk Int32) (c d : Chk Int64) (f : ChkFe) :
    ((a + b).ok = true ↔ a.ok = true ∧ b.ok = true ∧ -2 ^ 31 ≤ a.val.toInt + b.val.toInt ∧ a.val.toInt + b.val.toInt < 2 ^ 31) ∧
    ((a - b).ok = true ↔ a.ok = true ∧ b.ok = true ∧ -2 ^ 31 ≤ a.val.toInt - b.val.toInt ∧ a.val.toInt - b.val.toInt < 2 ^ 31) ∧
    ((a * b).ok = true ↔ a.ok = true ∧ b.ok = true ∧ -2 ^ 31 ≤ a.val.toInt * b.val.toInt ∧ a.val.toInt * b.val.toInt < 2 ^ 31) ∧
    ((-a).ok = true ↔ a.ok = true ∧ a.val.toInt ≠ -2 ^ 31) ∧
    ((c + d).ok = true ↔ c.ok = true ∧ d.ok = true ∧ -2 ^ 63 ≤ c.val.toInt + d.val.toInt ∧ c.val.toInt + d.val.toInt < 2 ^ 63) ∧
    ((c - d).ok = true ↔ c.ok = true ∧ d.ok = true ∧ -2 ^ 63 ≤ c.val.toInt - d.val.toInt ∧ c.val.toInt - d.val.toInt < 2 ^ 63) ∧
    ((c * d).ok = true ↔ c.ok = true ∧ d.ok = true ∧ -2 ^ 63 ≤ c.val.toInt * d.val.toInt ∧ c.val.toInt * d.val.toInt < 2 ^ 63) ∧
    (c.toInt32.ok = true ↔ c.ok = true ∧ -2 ^ 31 ≤ c.val.toInt ∧ c.val.toInt < 2 ^ 31) ∧
    (a.toInt64.ok = a.ok ∧ a.toByte.ok = a.ok) ∧
    ((a <<< b).ok = (a.ok && b.ok) ∧ (a >>> b).ok = (a.ok && b.ok) ∧ (a ||| b).ok = (a.ok && b.ok) ∧
      (c <<< d).ok = (c.ok && d.ok) ∧ (c >>> d).ok = (c.ok && d.ok)) ∧
    (f.ok = true ↔ ∀ x ∈ [f.l0, f.l1, f.l2, f.l3, f.l4, f.l5, f.l6, f.l7, f.l8, f.l9], x.ok = true) := by
  refine ⟨?_, ?_, ?_, ?_, ?_, ?_, ?_, ?_, ⟨rfl, rfl⟩, ⟨rfl, rfl, rfl, rfl, rfl⟩, by simp [ChkFe.ok, and_assoc]⟩
  · show (_ && _ && decide _) = true ↔ _
    rw [Bool.and_eq_true, Bool.and_eq_true, decide_eq_true_iff, fits32 _ _ (Int32.toInt_add _ _), and_assoc]
  · show (_ && _ && decide _) = true ↔ _
    rw [Bool.and_eq_true, Bool.and_eq_true, decide_eq_true_iff, fits32 _ _ (Int32.toInt_sub _ _), and_assoc]
  · show (_ && _ && decide _) = true ↔ _
    rw [Bool.and_eq_true, Bool.and_eq_true, decide_eq_true_iff, fits32 _ _ (Int32.toInt_mul _ _), and_assoc]
  · show (_ && decide _) = true ↔ _
    rw [Bool.and_eq_true, decide_eq_true_iff, fits32 _ _ (Int32.toInt_neg _)]
    have h1 := a.val.toInt_lt
    have h2 := a.val.le_toInt
    refine and_congr_right fun _ => ?_
    norm_num at *
    omega
  · show (_ && _ && decide _) = true ↔ _
    rw [Bool.and_eq_true, Bool.and_eq_true, decide_eq_true_iff, fits64 _ _ (Int64.toInt_add _ _), and_assoc]
  · show (_ && _ && decide _) = true ↔ _
    rw [Bool.and_eq_true, Bool.and_eq_true, decide_eq_true_iff, fits64 _ _ (Int64.toInt_sub _ _), and_assoc]
  · show (_ && _ && decide _) = true ↔ _
    rw [Bool.and_eq_true, Bool.and_eq_true, decide_eq_true_iff, fits64 _ _ (Int64.toInt_mul _ _), and_assoc]
  · show (_ && decide _) = true ↔ _
    rw [Bool.and_eq_true, decide_eq_true_iff, fits32 _ _ (Int64.toInt_toInt32 _)]

/-- Both cases occur. -/
example : ((Chk.of 2147483647 + Chk.of 1 : Chk Int32).ok = false) ∧ ((Chk.of 2147483646 + Chk.of 1 : Chk Int32).ok = true) ∧
    ((Chk.of 4294967296 * Chk.of 2147483648 : Chk Int64).ok = false) ∧ (Chk.of (2147483648 : Int64)).toInt32.ok = false := by
  decide

/-- **C74** (what an overflow does to a run).  A value that depends on an overflow is lost, every function of a lost value
is lost, and its bytes are the arbitrary `junk`. -/
theorem C74_lost (junk : Bytes 32) (f : Fe25) (a : Checked junk) (bit : UInt8) (lost : Checked junk) (hl : lost.isFine = false) :
    (CrefOps.add lost a).isFine = false ∧ (CrefOps.add a lost).isFine = false ∧
    (CrefOps.sub lost a).isFine = false ∧ (CrefOps.sub a lost).isFine = false ∧
    (CrefOps.mul lost a).isFine = false ∧ (CrefOps.mul a lost).isFine = false ∧
    (CrefOps.neg lost).isFine = false ∧ (CrefOps.square lost).isFine = false ∧ (CrefOps.squareDouble lost).isFine = false ∧
    (CrefOps.cmov lost a bit).isFine = false ∧ (CrefOps.cmov a lost bit).isFine = false ∧ CrefOps.pack lost = junk ∧
    (∀ g, (CrefOps.add (Checked.fine f) (Checked.fine g) : Checked junk).isFine = (addC f g).ok) ∧
    (∀ g, (CrefOps.sub (Checked.fine f) (Checked.fine g) : Checked junk).isFine = (subC f g).ok) ∧
    (∀ g, (CrefOps.mul (Checked.fine f) (Checked.fine g) : Checked junk).isFine = (mulC f g).ok) ∧
    (CrefOps.neg (Checked.fine f) : Checked junk).isFine = (negC f).ok ∧
    (CrefOps.square (Checked.fine f) : Checked junk).isFine = (squareC f).ok ∧
    (CrefOps.squareDouble (Checked.fine f) : Checked junk).isFine = (squareDoubleC f).ok ∧
    (∀ s, (CrefOps.unpack s : Checked junk).isFine = (unpackC s).ok) ∧
    ((∃ c ∈ packC f, c.ok = false) → CrefOps.pack (Checked.fine f : Checked junk) = junk) := by
  have e : lost = (none : Option Fe25) := by
    cases lost with
    | none => rfl
    | some x => cases hl
  subst e
  have g : ∀ (x : ChkFe), Checked.isFine (junk := junk) x.get = x.ok := by
    intro x
    unfold ChkFe.get
    cases x.ok <;> rfl
  refine ⟨rfl, by cases a <;> rfl, rfl, by cases a <;> rfl, rfl, by cases a <;> rfl, rfl, rfl, rfl, rfl, by cases a <;> rfl, rfl,
    fun _ => g _, fun _ => g _, fun _ => g _, g _, g _, g _, fun _ => g _, ?_⟩
  rintro ⟨c, hc, hk⟩
  show (if (packC f).all Chk.ok then Cref.pack f else junk) = junk
  rw [if_neg]
  intro h
  rw [List.all_eq_true] at h
  rw [h c hc] at hk
  cases hk

/-! ## Left shifts -/

/-- What C74 leaves out, and has to: read strictly, ISO C also leaves `<<` undefined on a negative left operand and when
the result does not fit.  cref.c relies on what gcc and clang define here: encoding the decoded
`2¹²⁷` or `-1`, and multiplying two decoded elements, shift negative carries. -/
theorem C74_iso_shifts :
    (∃ c ∈ packC (Cref.unpack (leBytes 32 (2 ^ 127))), c.ok = true ∧ c.iso = false) ∧
    (∃ c ∈ packC (Cref.unpack (leBytes 32 (2 ^ 255 - 20))), c.ok = true ∧ c.iso = false) ∧
    ((mulC (Cref.unpack (leBytes 32 (2 ^ 26 - 2 ^ 24))) (Cref.unpack (leBytes 32 (2 ^ 20)))).ok = true ∧
      (mulC (Cref.unpack (leBytes 32 (2 ^ 26 - 2 ^ 24))) (Cref.unpack (leBytes 32 (2 ^ 20)))).iso = false) := by
  decide +kernel

end Ristretto.Props
