import Verif.Model.AsmCall
import Verif.Proofs.AsmField

/-!
# Which registers the assembly changes
-/

set_option autoImplicit false

namespace Ristretto.Proofs.Asm
open Ristretto Ristretto.Model Ristretto.Model.Alias Ristretto.Model.Asm Ristretto.Proofs.Fe51

/-- The registers an instruction may change. -/
def dsts : Instr → List Reg
  | .movArg _ d | .movImm _ d | .mov _ d | .load _ _ d | .imul3 _ _ d | .addq _ d | .adcq _ d | .andq _ d | .shlq _ d | .shrq _ d
  | .shld _ _ d => [d]
  | .mulq _ _ => [.ax, .dx]
  | .store _ _ _ | .ret => []

theorem step_frame (args : Nat → Addr) (s s' : Cpu) (i : Instr) (r : Reg) (hr : r ∉ dsts i) (h : step args s i = some s') :
    s'.reg r = s.reg r := by
  cases i <;>
    simp only [dsts, List.mem_cons, List.not_mem_nil, or_false, not_or] at hr <;>
    simp only [step, Option.bind_eq_bind, Option.bind_eq_some_iff, Option.some.injEq] at h
  case mulq => obtain ⟨_, _, _, _, _, _, rfl⟩ := h; simp [Cpu.set, hr]
  case store => obtain ⟨_, _, _, _, _, _, rfl⟩ := h; rfl
  case ret => subst h; rfl
  case movArg => subst h; simp [Cpu.set, hr]
  case movImm => subst h; simp [Cpu.set, hr]
  case mov => subst h; simp [Cpu.set, hr]
  case load => obtain ⟨_, _, _, _, rfl⟩ := h; simp [Cpu.set, hr]
  case imul3 => obtain ⟨_, _, rfl⟩ := h; simp [Cpu.set, hr]
  case addq => obtain ⟨_, _, _, _, rfl⟩ := h; simp [Cpu.set, hr]
  case adcq => obtain ⟨_, _, _, _, _, _, rfl⟩ := h; simp [Cpu.set, hr]
  case andq => obtain ⟨_, _, _, _, rfl⟩ := h; simp [Cpu.set, hr]
  case shlq => obtain ⟨_, _, rfl⟩ := h; simp [Cpu.set, hr]
  case shrq => obtain ⟨_, _, rfl⟩ := h; simp [Cpu.set, hr]
  case shld => obtain ⟨_, _, _, _, rfl⟩ := h; simp [Cpu.set, hr]

theorem exec_frame (args : Nat → Addr) (r : Reg) : ∀ (p : List Instr) (s s' : Cpu), (∀ i ∈ p, r ∉ dsts i) →
    Asm.exec args s p = some s' → s'.reg r = s.reg r
  | [], s, s', _, h => by simp only [Asm.exec, Option.some.injEq] at h; rw [h]
  | i :: p, s, s', hp, h => by
    simp only [Asm.exec, Option.bind_eq_bind, Option.bind_eq_some_iff] at h
    obtain ⟨s1, h1, h2⟩ := h
    rw [exec_frame args r p s1 s' (fun j hj => hp j (List.mem_cons_of_mem _ hj)) h2]
    exact step_frame args s s1 i r (hp i List.mem_cons_self) h1

/-- The lowest coefficient of the product. -/
def coef0 (X Y : Fe51) : UInt64 × UInt64 :=
  mulAcc (mulAcc (mulAcc (mulAcc (bitsMul64 X.l0 Y.l0) (X.l1 * 19) Y.l4) (X.l2 * 19) Y.l3) (X.l3 * 19) Y.l2) (X.l4 * 19) Y.l1

theorem feMulCpu_bp (reg : Reg → Val) (out a b : Addr) (m : FMem) :
    ∃ s, feMulCpu reg out a b m = some s ∧
      s.reg .bp = .num ((coef0 (m a) (m b)).1 <<< 13 ||| (coef0 (m a) (m b)).2 >>> 51) := by
  have h0 := feMulI_eq reg out a b m
  rw [feMulI, Option.map_eq_some_iff] at h0
  obtain ⟨s, h, -⟩ := h0
  refine ⟨s, h, ?_⟩
  obtain ⟨args, hargs⟩ : ∃ args : Nat → Addr, args = (fun off => if off = 0 then out else if off = 8 then a else b) := ⟨_, rfl⟩
  rw [← hargs] at h
  have a0 : args 0 = out := by rw [hargs]; rfl
  have a8 : args 8 = a := by rw [hargs]; rfl
  have a16 : args 16 = b := by rw [hargs]; rfl
  clear hargs
  have hp : feMulProg = mulArgs ++ (mulR0 ++ ((mulR1 ++ mulR2 ++ mulR3 ++ mulR4 ++ [.movImm 2251799813685247 .ax]) ++
    ([.shld 13 .si .bp] ++ (mulCarry.drop 2 ++ mulCarry2 ++ mulStore)))) := rfl
  rw [hp, exec_append] at h
  obtain ⟨s0, e0, m0, hb0, hc0⟩ : ∃ s0, Asm.exec args ⟨reg, none, m⟩ mulArgs = some s0 ∧ s0.mem = m ∧
      s0.reg .bx = .ptr a ∧ s0.reg .cx = .ptr b := by
    refine ⟨_, rfl, rfl, ?_, ?_⟩ <;> simp [Cpu.set, a8, a16]
  obtain ⟨s1, e1, k1, l1, h1, n1⟩ := coef_run args .bx .cx .si .bp a b ⟨0, .plain, 0⟩
    [⟨8, (.imul 19), 32⟩, ⟨16, (.imul 19), 24⟩, ⟨24, (.imul 19), 16⟩, ⟨32, (.imul 19), 8⟩] s0 (by decide) hb0 hc0 (by decide)
  rw [← mulR0_eq] at e1
  rw [m0] at l1 h1
  change _ = Val.num (coef0 (m a) (m b)).2 at l1
  change _ = Val.num (coef0 (m a) (m b)).1 at h1
  rw [e0, Option.bind_some, exec_append, e1, Option.bind_some, exec_append] at h
  obtain ⟨s2, e2, h⟩ := Option.bind_eq_some_iff.1 h
  have l2 := (exec_frame args .si _ _ _ (by decide) e2).trans l1
  have h2 := (exec_frame args .bp _ _ _ (by decide) e2).trans h1
  rw [exec_append] at h
  obtain ⟨s3, e3, h⟩ := Option.bind_eq_some_iff.1 h
  rw [exec_frame args .bp _ _ _ (by decide) h]
  simp only [Asm.exec, step, Cpu.num, l2, h2, Option.bind_eq_bind, Option.bind_some, Option.some.injEq] at e3
  subst e3
  simp [Cpu.set, show (64 - 13 : UInt64) = 51 from rfl]

theorem coef0_hi (a b : Fe51) (ha : Bd (2 ^ 54) a) (hb : Bd (2 ^ 54) b) :
    ((coef0 a b).1 <<< 13 ||| (coef0 a b).2 >>> 51).toNat =
      (a.l0.toNat * b.l0.toNat + 19 * (a.l1.toNat * b.l4.toNat + a.l2.toNat * b.l3.toNat + a.l3.toNat * b.l2.toNat +
        a.l4.toNat * b.l1.toNat)) / 2 ^ 51 := by
  obtain ⟨a0, a1, a2, a3, a4⟩ := a
  obtain ⟨b0, b1, b2, b3, b4⟩ := b
  obtain ⟨ha0, ha1, ha2, ha3, ha4⟩ := ha
  obtain ⟨hb0, hb1, hb2, hb3, hb4⟩ := hb
  simp only at ha0 ha1 ha2 ha3 ha4 hb0 hb1 hb2 hb3 hb4
  have k19 : (19 : UInt64).toNat = 19 := rfl
  have s1 := scale a1 19 (by rw [k19]; omega)
  have s2 := scale a2 19 (by rw [k19]; omega)
  have s3 := scale a3 19 (by rw [k19]; omega)
  have s4 := scale a4 19 (by rw [k19]; omega)
  rw [k19] at s1 s2 s3 s4
  have B : ∀ {x y : UInt64}, x.toNat ≤ 2 ^ 54 → y.toNat ≤ 2 ^ 54 → x.toNat * y.toNat ≤ 2 ^ 108 :=
    fun hx hy => (Nat.mul_le_mul hx hy).trans (by norm_num)
  have b00 := B ha0 hb0
  have b14 := B ha1 hb4
  have b23 := B ha2 hb3
  have b32 := B ha3 hb2
  have b41 := B ha4 hb1
  have e0 := mulAcc5 a0 b0 (a1 * 19) b4 (a2 * 19) b3 (a3 * 19) b2 (a4 * 19) b1
    (by omega) (by rw [s1, Nat.mul_assoc]; omega) (by rw [s2, Nat.mul_assoc]; omega)
    (by rw [s3, Nat.mul_assoc]; omega) (by rw [s4, Nat.mul_assoc]; omega)
  simp only [s1, s2, s3, s4, Nat.mul_assoc] at e0
  rw [coef0, hi51 _ (by rw [e0]; omega), e0]
  congr 1
  dsimp only
  ring

theorem feSquareCpu_bp (reg : Reg → Val) (out a : Addr) (m : FMem) :
    ∃ s, feSquareCpu reg out a m = some s ∧ s.reg .bp = reg .bp := by
  have h0 := feSquareI_eq reg out a m
  rw [feSquareI, Option.map_eq_some_iff] at h0
  obtain ⟨s, h, -⟩ := h0
  exact ⟨s, h, exec_frame _ .bp _ _ _ (by decide) h⟩

end Ristretto.Proofs.Asm
