import Verif.Model.AsmLeak
import Verif.Proofs.Asm

/-!
# The memory accesses of the assembly depend on its arguments only
-/

namespace Ristretto.Proofs.Asm
open Model Model.Asm Model.Alias
set_option autoImplicit false

/-- Which argument a register is known to hold. -/
abbrev Known := Reg → Option Nat

def Known.set (k : Known) (r : Reg) (v : Option Nat) : Known := fun x => if x = r then v else k x

/-- What is known after an instruction. -/
def kstep (k : Known) : Instr → Known
  | .movArg off dst => k.set dst (some off)
  | .movImm _ dst => k.set dst none
  | .mov src dst => k.set dst (k src)
  | .load _ _ dst => k.set dst none
  | .store _ _ _ => k
  | .mulq _ _ => (k.set .ax none).set .dx none
  | .imul3 _ _ dst => k.set dst none
  | .addq _ dst => k.set dst none
  | .adcq _ dst => k.set dst none
  | .andq _ dst => k.set dst none
  | .shlq _ dst => k.set dst none
  | .shrq _ dst => k.set dst none
  | .shld _ _ hi => k.set hi none
  | .ret => k

/-- The access of an instruction, by argument; the base register has to be known. -/
def kaccess (k : Known) : Instr → Option (List (Bool × Nat × Nat))
  | .load off base _ | .mulq off base => do
    let a ← k base
    let i ← limbIdx off
    some [(false, a, i)]
  | .store _ off base => do
    let a ← k base
    let i ← limbIdx off
    some [(true, a, i)]
  | _ => some []

/-- The accesses of a sequence of instructions, by argument. -/
def ktrace : Known → List Instr → Option (List (Bool × Nat × Nat))
  | _, [] => some []
  | k, i :: is => do
    let a ← kaccess k i
    let r ← ktrace (kstep k i) is
    some (a ++ r)

/-- The registers hold what is known of them. -/
def KRel (args : Nat → Addr) (k : Known) (s : Cpu) : Prop := ∀ r off, k r = some off → s.reg r = .ptr (args off)

theorem KRel.set {args : Nat → Addr} {k : Known} {s : Cpu} (h : KRel args k s) (r : Reg) (v : Option Nat) (w : Val)
    (hv : ∀ off, v = some off → w = .ptr (args off)) : KRel args (k.set r v) (s.set r w) := by
  intro x off hx
  simp only [Known.set, Cpu.set] at *
  by_cases hr : x = r
  · rw [if_pos hr] at hx ⊢; exact hv off hx
  · rw [if_neg hr] at hx ⊢; exact h x off hx

theorem kRel_step {args : Nat → Addr} {k : Known} {s s' : Cpu} (h : KRel args k s) (i : Instr)
    (hs : step args s i = some s') : KRel args (kstep k i) s' := by
  have hn : ∀ (r : Reg) (w : Val), KRel args (k.set r none) (s.set r w) := fun r w => h.set r none w (by simp)
  cases i with
  | movArg off dst =>
    simp only [step, Option.some.injEq] at hs; subst hs
    exact h.set _ _ _ (by rintro off' he; cases he; rfl)
  | movImm imm dst => simp only [step, Option.some.injEq] at hs; subst hs; exact hn _ _
  | mov src dst =>
    simp only [step, Option.some.injEq] at hs; subst hs
    exact h.set _ _ _ (fun off he => h src off he)
  | load off base dst =>
    simp only [step, Option.bind_eq_bind, Option.bind_eq_some_iff, Option.some.injEq] at hs
    obtain ⟨a, -, j, -, rfl⟩ := hs; exact hn _ _
  | store src off base =>
    simp only [step, Option.bind_eq_bind, Option.bind_eq_some_iff, Option.some.injEq] at hs
    obtain ⟨a, -, j, -, x, -, rfl⟩ := hs; exact h
  | mulq off base =>
    simp only [step, Option.bind_eq_bind, Option.bind_eq_some_iff, Option.some.injEq] at hs
    obtain ⟨a, -, j, -, x, -, rfl⟩ := hs
    exact (hn _ _).set _ _ _ (by simp)
  | imul3 imm src dst =>
    simp only [step, Option.bind_eq_bind, Option.bind_eq_some_iff, Option.some.injEq] at hs
    obtain ⟨x, -, rfl⟩ := hs; exact hn _ _
  | addq src dst =>
    simp only [step, Option.bind_eq_bind, Option.bind_eq_some_iff, Option.some.injEq] at hs
    obtain ⟨x, -, y, -, rfl⟩ := hs; exact hn _ _
  | adcq src dst =>
    simp only [step, Option.bind_eq_bind, Option.bind_eq_some_iff, Option.some.injEq] at hs
    obtain ⟨x, -, y, -, c, -, rfl⟩ := hs; exact hn _ _
  | andq src dst =>
    simp only [step, Option.bind_eq_bind, Option.bind_eq_some_iff, Option.some.injEq] at hs
    obtain ⟨x, -, y, -, rfl⟩ := hs; exact hn _ _
  | shlq imm dst =>
    simp only [step, Option.bind_eq_bind, Option.bind_eq_some_iff, Option.some.injEq] at hs
    obtain ⟨y, -, rfl⟩ := hs; exact hn _ _
  | shrq imm dst =>
    simp only [step, Option.bind_eq_bind, Option.bind_eq_some_iff, Option.some.injEq] at hs
    obtain ⟨y, -, rfl⟩ := hs; exact hn _ _
  | shld imm lo hi =>
    simp only [step, Option.bind_eq_bind, Option.bind_eq_some_iff, Option.some.injEq] at hs
    obtain ⟨x, -, y, -, rfl⟩ := hs; exact hn _ _
  | ret => simp only [step, Option.some.injEq] at hs; subst hs; exact h

/-- The addresses filled in. -/
def fill (args : Nat → Addr) (l : List (Bool × Nat × Nat)) : List Access := l.map fun x => ⟨x.1, args x.2.1, x.2.2⟩

theorem access_eq {args : Nat → Addr} {k : Known} {s : Cpu} (h : KRel args k s) (i : Instr)
    {l : List (Bool × Nat × Nat)} (hl : kaccess k i = some l) : access s i = fill args l := by
  have hp : ∀ r off, k r = some off → s.ptr r = some (args off) := by
    intro r off hr; simp only [Cpu.ptr, h r off hr]
  cases i <;> simp only [kaccess, Option.bind_eq_bind, Option.bind_eq_some_iff, Option.some.injEq] at hl
  case load off base dst => obtain ⟨a, ha, j, hj, rfl⟩ := hl; simp only [access, hp base a ha, hj]; rfl
  case store src off base => obtain ⟨a, ha, j, hj, rfl⟩ := hl; simp only [access, hp base a ha, hj]; rfl
  case mulq off base => obtain ⟨a, ha, j, hj, rfl⟩ := hl; simp only [access, hp base a ha, hj]; rfl
  all_goals subst hl; rfl

theorem trace_eq (args : Nat → Addr) (is : List Instr) : ∀ (k : Known) (s : Cpu) (l : List (Bool × Nat × Nat)),
    KRel args k s → ktrace k is = some l → (exec args s is).isSome → trace args s is = fill args l := by
  induction is with
  | nil => intro k s l _ hl _; simp only [ktrace, Option.some.injEq] at hl; subst hl; rfl
  | cons i is ih =>
    intro k s l h hl hs
    simp only [ktrace, Option.bind_eq_bind, Option.bind_eq_some_iff, Option.some.injEq] at hl
    obtain ⟨a, ha, r, hr, rfl⟩ := hl
    simp only [Model.Asm.exec] at hs
    cases hst : step args s i with
    | none => rw [hst] at hs; simp at hs
    | some s' =>
      rw [hst] at hs
      simp only [trace, hst, access_eq h i ha, ih _ s' r (kRel_step h i hst) hr (by simpa using hs)]
      simp [fill]

theorem feMulTrace_eq (reg : Reg → Val) (out a b : Addr) (m : FMem) {l : List (Bool × Nat × Nat)}
    (h : ktrace (fun _ => none) feMulProg = some l) : feMulTrace reg out a b m =
      fill (fun off => if off = 0 then out else if off = 8 then a else b) l := by
  apply trace_eq _ _ (fun _ => none) _ l (by intro r off h; cases h) h
  have := feMulI_eq reg out a b m
  unfold feMulI at this
  cases he : exec (fun off => if off = 0 then out else if off = 8 then a else b) ⟨reg, none, m⟩ feMulProg with
  | none => rw [he] at this; cases this
  | some s => rfl

theorem feSquareTrace_eq (reg : Reg → Val) (out a : Addr) (m : FMem) {l : List (Bool × Nat × Nat)}
    (h : ktrace (fun _ => none) feSquareProg = some l) : feSquareTrace reg out a m =
      fill (fun off => if off = 0 then out else a) l := by
  apply trace_eq _ _ (fun _ => none) _ l (by intro r off h; cases h) h
  have := feSquareI_eq reg out a m
  unfold feSquareI at this
  cases he : exec (fun off => if off = 0 then out else a) ⟨reg, none, m⟩ feSquareProg with
  | none => rw [he] at this; cases this
  | some s => rfl

end Ristretto.Proofs.Asm
