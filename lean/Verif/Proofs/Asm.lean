import Verif.Model.Asm
import Verif.Proofs.Alias

set_option autoImplicit false

namespace Ristretto.Proofs.Asm
open Ristretto Ristretto.Model Ristretto.Model.Alias Ristretto.Model.Asm

theorem exec_append (args : Nat → Addr) : ∀ (p q : List Instr) (s : Cpu),
    Asm.exec args s (p ++ q) = (Asm.exec args s p).bind fun s' => Asm.exec args s' q
  | [], q, s => rfl
  | i :: p, q, s => by
    simp only [List.cons_append, Asm.exec, Option.bind_eq_bind]
    cases step args s i with
    | none => rfl
    | some s' => simp only [Option.bind_some]; exact exec_append args p q s'

/-- How the first factor of a product is prepared. -/
inductive Pre where
  | plain
  | imul (k : UInt64)
  | dbl

/-- The instructions that put the first factor into `AX`. -/
def Pre.prog (b : Reg) (off : Nat) : Pre → List Instr
  | .plain => [.load off b .ax]
  | .imul k => [.load off b .dx, .imul3 k .dx .ax]
  | .dbl => [.load off b .ax, .shlq 1 .ax]

/-- The first factor. -/
def Pre.val (x : UInt64) : Pre → UInt64
  | .plain => x
  | .imul k => x * k
  | .dbl => x <<< 1

/-- Same memory, and the same registers outside `ch`. -/
structure Keeps (s s' : Cpu) (ch : List Reg) : Prop where
  mem : s'.mem = s.mem
  reg : ∀ r, r ∉ ch → s'.reg r = s.reg r

theorem Keeps.trans {s s' s'' : Cpu} {c c' : List Reg} (h : Keeps s s' c) (h' : Keeps s' s'' c') :
    Keeps s s'' (c ++ c') :=
  ⟨h'.mem.trans h.mem, fun r hr => by
    rw [List.mem_append, not_or] at hr
    rw [h'.reg r hr.2, h.reg r hr.1]⟩

theorem Keeps.mono {s s' : Cpu} {c c' : List Reg} (h : Keeps s s' c) (hc : ∀ r ∈ c, r ∈ c') :
    Keeps s s' c' := ⟨h.mem, fun r hr => h.reg r fun h => hr (hc r h)⟩

theorem pre_run (args : Nat → Addr) (s : Cpu) (b : Reg) (off i : Nat) (x : Addr) (hb : s.reg b = .ptr x)
    (hi : limbIdx off = some i) (p : Pre) :
    ∃ s', Asm.exec args s (p.prog b off) = some s' ∧ Keeps s s' [.ax, .dx] ∧
      s'.reg .ax = .num (p.val (rd s.mem x i)) := by
  cases p with
  | plain =>
    refine ⟨s.set .ax (.num (rd s.mem x i)), ?_, ⟨rfl, ?_⟩, ?_⟩
    · simp [Pre.prog, Asm.exec, step, Cpu.ptr, hb, hi]
    · intro r hr; simp at hr; simp [Cpu.set, hr]
    · simp [Cpu.set, Pre.val]
  | imul k =>
    refine ⟨{ (s.set .dx (.num (rd s.mem x i))).set .ax (.num (rd s.mem x i * k)) with cf := none }, ?_,
      ⟨rfl, ?_⟩, ?_⟩
    · simp [Pre.prog, Asm.exec, step, Cpu.ptr, Cpu.num, Cpu.set, hb, hi]
    · intro r hr; simp at hr; simp [Cpu.set, hr]
    · simp [Cpu.set, Pre.val]
  | dbl =>
    refine ⟨{ (s.set .ax (.num (rd s.mem x i))).set .ax (.num (rd s.mem x i <<< 1)) with cf := none }, ?_,
      ⟨rfl, ?_⟩, ?_⟩
    · simp [Pre.prog, Asm.exec, step, Cpu.ptr, Cpu.num, Cpu.set, hb, hi]
    · intro r hr; simp at hr; simp [Cpu.set, hr]
    · simp [Cpu.set, Pre.val]

/-- `AX` and `DX` hold numbers. -/
def Nums (s : Cpu) : Prop := ∃ u v, s.reg .ax = .num u ∧ s.reg .dx = .num v

/-- The first product: moved to the accumulator. -/
theorem first_run (args : Nat → Addr) (s : Cpu) (c lo hi : Reg) (off j : Nat) (y : Addr) (v : UInt64)
    (hc : s.reg c = .ptr y) (hj : limbIdx off = some j) (ha : s.reg .ax = .num v)
    (h1 : lo ≠ .ax) (h2 : lo ≠ .dx) (h3 : lo ≠ hi) (h4 : hi ≠ .ax) (h5 : hi ≠ .dx) :
    ∃ s', Asm.exec args s [.mulq off c, .mov .ax lo, .mov .dx hi] = some s' ∧
      Keeps s s' [.ax, .dx, lo, hi] ∧
      s'.reg lo = .num (bitsMul64 v (rd s.mem y j)).2 ∧
      s'.reg hi = .num (bitsMul64 v (rd s.mem y j)).1 ∧ Nums s' := by
  obtain ⟨p, hp⟩ : ∃ p, p = bitsMul64 v (rd s.mem y j) := ⟨_, rfl⟩
  rw [← hp]
  refine ⟨{ (((s.set .ax (.num p.2)).set .dx (.num p.1)).set lo (.num p.2)).set hi (.num p.1) with
    cf := none }, ?_, ⟨rfl, ?_⟩, ?_, ?_, p.2, p.1, ?_, ?_⟩
  · simp [Asm.exec, step, Cpu.ptr, Cpu.num, hc, hj, ha, Cpu.set, ← hp, Ne.symm h2]
  · intro r hr; simp at hr; simp [Cpu.set, hr]
  · simp [Cpu.set, h3]
  · simp [Cpu.set]
  · simp [Cpu.set, Ne.symm h1, Ne.symm h4]
  · simp [Cpu.set, Ne.symm h2, Ne.symm h5]

/-- A further product: added to the accumulator. -/
theorem acc_run (args : Nat → Addr) (s : Cpu) (c lo hi : Reg) (off j : Nat) (y : Addr) (v : UInt64)
    (acc : UInt64 × UInt64)
    (hc : s.reg c = .ptr y) (hj : limbIdx off = some j) (ha : s.reg .ax = .num v)
    (hlo : s.reg lo = .num acc.2) (hhi : s.reg hi = .num acc.1)
    (h1 : lo ≠ .ax) (h2 : lo ≠ .dx) (h3 : lo ≠ hi) (h4 : hi ≠ .ax) (h5 : hi ≠ .dx) :
    ∃ s', Asm.exec args s [.mulq off c, .addq .ax lo, .adcq .dx hi] = some s' ∧
      Keeps s s' [.ax, .dx, lo, hi] ∧
      s'.reg lo = .num (mulAcc acc v (rd s.mem y j)).2 ∧
      s'.reg hi = .num (mulAcc acc v (rd s.mem y j)).1 ∧ Nums s' := by
  unfold mulAcc
  simp only
  obtain ⟨p, hp⟩ : ∃ p, p = bitsMul64 v (rd s.mem y j) := ⟨_, rfl⟩
  rw [← hp]
  obtain ⟨q, hq⟩ : ∃ q, q = bitsAdd64 acc.2 p.2 0 := ⟨_, rfl⟩
  rw [← hq]
  obtain ⟨q', hq'⟩ : ∃ q', q' = bitsAdd64 acc.1 p.1 q.2 := ⟨_, rfl⟩
  rw [← hq']
  refine ⟨{ (((s.set .ax (.num p.2)).set .dx (.num p.1)).set lo (.num q.1)).set hi (.num q'.1) with
    cf := some q'.2 }, ?_, ⟨rfl, ?_⟩, ?_, ?_, p.2, p.1, ?_, ?_⟩
  · simp [Asm.exec, step, Cpu.ptr, Cpu.num, hc, hj, ha, hlo, hhi, Cpu.set, ← hp, Ne.symm h2, h1, h2,
      h4, h5, Ne.symm h3, ← hq, ← hq']
  · intro r hr; simp at hr; simp [Cpu.set, hr]
  · simp [Cpu.set, h3]
  · simp [Cpu.set]
  · simp [Cpu.set, Ne.symm h1, Ne.symm h4]
  · simp [Cpu.set, Ne.symm h2, Ne.symm h5]

/-- One product of a coefficient. -/
structure Mac where
  xo : Nat
  pre : Pre
  yo : Nat

/-- The instructions that add a product. -/
def Mac.prog (b c lo hi : Reg) (m : Mac) : List Instr :=
  m.pre.prog b m.xo ++ [.mulq m.yo c, .addq .ax lo, .adcq .dx hi]

/-- The instructions for a coefficient. -/
def coefProg (b c lo hi : Reg) (m : Mac) (ms : List Mac) : List Instr :=
  (m.pre.prog b m.xo ++ [.mulq m.yo c, .mov .ax lo, .mov .dx hi]) ++ (ms.map (Mac.prog b c lo hi)).flatten

/-- The factors. -/
def Mac.fst (m : Mac) (X : Fe51) : UInt64 := m.pre.val (limb X (m.xo / 8))
def Mac.snd (m : Mac) (Y : Fe51) : UInt64 := limb Y (m.yo / 8)

/-- The offsets are those of limbs. -/
def Mac.ok (m : Mac) : Prop := limbIdx m.xo = some (m.xo / 8) ∧ limbIdx m.yo = some (m.yo / 8)

instance (m : Mac) : Decidable m.ok := by unfold Mac.ok; infer_instance

theorem macs_run (args : Nat → Addr) (b c lo hi : Reg) (x y : Addr)
    (h1 : lo ≠ .ax) (h2 : lo ≠ .dx) (h3 : lo ≠ hi) (h4 : hi ≠ .ax) (h5 : hi ≠ .dx)
    (hbn : b ∉ [Reg.ax, .dx, lo, hi]) (hcn : c ∉ [Reg.ax, .dx, lo, hi]) :
    ∀ (ms : List Mac) (s : Cpu) (acc : UInt64 × UInt64), (∀ m ∈ ms, m.ok) →
    s.reg b = .ptr x → s.reg c = .ptr y → s.reg lo = .num acc.2 → s.reg hi = .num acc.1 →
    Nums s →
    ∃ s', Asm.exec args s (ms.map (Mac.prog b c lo hi)).flatten = some s' ∧
      Keeps s s' [.ax, .dx, lo, hi] ∧
      s'.reg lo = .num (ms.foldl (fun a m => mulAcc a (m.fst (s.mem x)) (m.snd (s.mem y))) acc).2 ∧
      s'.reg hi = .num (ms.foldl (fun a m => mulAcc a (m.fst (s.mem x)) (m.snd (s.mem y))) acc).1 ∧
      Nums s'
  | [], s, acc, _, _, _, hlo, hhi, hn => ⟨s, rfl, ⟨rfl, fun _ _ => rfl⟩, hlo, hhi, hn⟩
  | m :: ms, s, acc, hm, hb, hc, hlo, hhi, _ => by
    obtain ⟨o1, o2⟩ := hm m List.mem_cons_self
    obtain ⟨s1, e1, k1, v1⟩ := pre_run args s b m.xo _ x hb o1 m.pre
    have nd : ∀ r, r ∉ [Reg.ax, .dx, lo, hi] → r ∉ [Reg.ax, .dx] := by
      intro r hr h; exact hr (by simp at h ⊢; tauto)
    have hlo1 : s1.reg lo = .num acc.2 := (k1.reg lo (by simp [h1, h2])).trans hlo
    have hhi1 : s1.reg hi = .num acc.1 := (k1.reg hi (by simp [h4, h5])).trans hhi
    obtain ⟨s2, e2, k2, v2, v2', n2⟩ := acc_run args s1 c lo hi m.yo _ y _ acc
      ((k1.reg c (nd c hcn)).trans hc) o2 v1 hlo1 hhi1 h1 h2 h3 h4 h5
    have k12 : Keeps s s2 [.ax, .dx, lo, hi] := (k1.trans k2).mono (by simp)
    obtain ⟨s3, e3, k3, v3, v3', n3⟩ := macs_run args b c lo hi x y h1 h2 h3 h4 h5 hbn hcn ms s2 _
      (fun m' h' => hm m' (List.mem_cons_of_mem _ h')) ((k12.reg b hbn).trans hb)
      ((k12.reg c hcn).trans hc) v2 v2' n2
    refine ⟨s3, ?_, (k12.trans k3).mono (by simp), ?_, ?_, n3⟩
    · rw [List.map_cons, List.flatten_cons, exec_append, Mac.prog, exec_append, e1, Option.bind_some, e2,
        Option.bind_some, e3]
    · rw [v3, k12.mem, k1.mem]; rfl
    · rw [v3', k12.mem, k1.mem]; rfl

theorem coef_run (args : Nat → Addr) (b c lo hi : Reg) (x y : Addr) (m : Mac) (ms : List Mac) (s : Cpu)
    (hok : ∀ m' ∈ m :: ms, m'.ok) (hb : s.reg b = .ptr x) (hc : s.reg c = .ptr y)
    (hn : (lo ≠ .ax ∧ lo ≠ .dx ∧ lo ≠ hi ∧ hi ≠ .ax ∧ hi ≠ .dx) ∧
      b ∉ [Reg.ax, .dx, lo, hi] ∧ c ∉ [Reg.ax, .dx, lo, hi]) :
    ∃ s', Asm.exec args s (coefProg b c lo hi m ms) = some s' ∧ Keeps s s' [.ax, .dx, lo, hi] ∧
      s'.reg lo = .num (ms.foldl (fun a m => mulAcc a (m.fst (s.mem x)) (m.snd (s.mem y)))
        (bitsMul64 (m.fst (s.mem x)) (m.snd (s.mem y)))).2 ∧
      s'.reg hi = .num (ms.foldl (fun a m => mulAcc a (m.fst (s.mem x)) (m.snd (s.mem y)))
        (bitsMul64 (m.fst (s.mem x)) (m.snd (s.mem y)))).1 ∧ Nums s' := by
  obtain ⟨⟨h1, h2, h3, h4, h5⟩, hbn, hcn⟩ := hn
  obtain ⟨o1, o2⟩ := hok m List.mem_cons_self
  obtain ⟨s1, e1, k1, v1⟩ := pre_run args s b m.xo _ x hb o1 m.pre
  have nd : ∀ r, r ∉ [Reg.ax, .dx, lo, hi] → r ∉ [Reg.ax, .dx] := by
    intro r hr h; exact hr (by simp at h ⊢; tauto)
  obtain ⟨s2, e2, k2, v2, v2', n2⟩ := first_run args s1 c lo hi m.yo _ y _
    ((k1.reg c (nd c hcn)).trans hc) o2 v1 h1 h2 h3 h4 h5
  have k12 : Keeps s s2 [.ax, .dx, lo, hi] := (k1.trans k2).mono (by simp)
  obtain ⟨s3, e3, k3, v3, v3', n3⟩ := macs_run args b c lo hi x y h1 h2 h3 h4 h5 hbn hcn ms s2 _
    (fun m' h' => hok m' (List.mem_cons_of_mem _ h')) ((k12.reg b hbn).trans hb)
    ((k12.reg c hcn).trans hc) v2 v2' n2
  refine ⟨s3, ?_, (k12.trans k3).mono (by simp), ?_, ?_, n3⟩
  · rw [coefProg, exec_append, exec_append, e1, Option.bind_some, e2, Option.bind_some, e3]
  · rw [v3, k12.mem, k1.mem]; rfl
  · rw [v3', k12.mem, k1.mem]; rfl

/-! ### Instructions on numbers only -/

/-- The same instructions on registers that hold numbers. -/
def stepN (R : Reg → UInt64) : Instr → Reg → UInt64
  | .movImm imm dst => fun k => if k = dst then imm else R k
  | .mov src dst => fun k => if k = dst then R src else R k
  | .imul3 imm src dst => fun k => if k = dst then R src * imm else R k
  | .addq src dst => fun k => if k = dst then R dst + R src else R k
  | .andq src dst => fun k => if k = dst then R dst &&& R src else R k
  | .shrq imm dst => fun k => if k = dst then R dst >>> imm else R k
  | .shld imm lo hi => fun k => if k = hi then R hi <<< imm ||| R lo >>> (64 - imm) else R k
  | _ => R

/-- The registers an instruction on numbers uses. -/
def usesN : Instr → Option (List Reg)
  | .movImm _ dst => some [dst]
  | .mov src dst => some [src, dst]
  | .imul3 _ src dst => some [src, dst]
  | .addq src dst => some [src, dst]
  | .andq src dst => some [src, dst]
  | .shrq _ dst => some [dst]
  | .shld _ lo hi => some [lo, hi]
  | _ => none

/-- Only instructions on the registers `live`. -/
def OnlyN (live : List Reg) (i : Instr) : Prop := match usesN i with
  | some l => ∀ r ∈ l, r ∈ live
  | none => False

instance (live : List Reg) (i : Instr) : Decidable (OnlyN live i) := by
  unfold OnlyN; split <;> infer_instance

theorem stepN_run (args : Nat → Addr) (live : List Reg) (s : Cpu) (R : Reg → UInt64) (i : Instr)
    (ho : OnlyN live i) (hR : ∀ r ∈ live, s.reg r = .num (R r)) :
    ∃ s', step args s i = some s' ∧ Keeps s s' live ∧ ∀ r ∈ live, s'.reg r = .num (stepN R i r) := by
  cases i <;> simp only [OnlyN, usesN] at ho
  case movImm imm dst =>
    refine ⟨_, rfl, ⟨rfl, fun r hr => ?_⟩, fun r hr => ?_⟩
    · simp only [Cpu.set]; rw [if_neg]; rintro rfl; exact hr (ho _ (by simp))
    · simp only [Cpu.set, stepN]; split <;> [rfl; exact hR r hr]
  case mov src dst =>
    refine ⟨_, rfl, ⟨rfl, fun r hr => ?_⟩, fun r hr => ?_⟩
    · simp only [Cpu.set]; rw [if_neg]; rintro rfl; exact hr (ho _ (by simp))
    · simp only [Cpu.set, stepN]; split <;> [exact hR _ (ho _ (by simp)); exact hR r hr]
  case imul3 imm src dst =>
    have h0 := hR src (ho _ (by simp))
    have h1 := hR dst (ho _ (by simp))
    simp only [step, Cpu.num, h0, h1, Option.bind_eq_bind, Option.bind_some]
    refine ⟨_, rfl, ⟨rfl, fun r hr => ?_⟩, fun r hr => ?_⟩
    · simp only [Cpu.set]; rw [if_neg]; rintro rfl; exact hr (ho _ (by simp))
    · simp only [Cpu.set, stepN]; split <;> [rfl; exact hR r hr]
  case addq src dst =>
    have h0 := hR src (ho _ (by simp))
    have h1 := hR dst (ho _ (by simp))
    simp only [step, Cpu.num, h0, h1, Option.bind_eq_bind, Option.bind_some]
    refine ⟨_, rfl, ⟨rfl, fun r hr => ?_⟩, fun r hr => ?_⟩
    · simp only [Cpu.set]; rw [if_neg]; rintro rfl; exact hr (ho _ (by simp))
    · simp only [Cpu.set, stepN, bitsAdd64, UInt64.add_zero]; split <;> [rfl; exact hR r hr]
  case andq src dst =>
    have h0 := hR src (ho _ (by simp))
    have h1 := hR dst (ho _ (by simp))
    simp only [step, Cpu.num, h0, h1, Option.bind_eq_bind, Option.bind_some]
    refine ⟨_, rfl, ⟨rfl, fun r hr => ?_⟩, fun r hr => ?_⟩
    · simp only [Cpu.set]; rw [if_neg]; rintro rfl; exact hr (ho _ (by simp))
    · simp only [Cpu.set, stepN]; split <;> [rfl; exact hR r hr]
  case shrq imm dst =>
    have h0 := hR dst (ho _ (by simp))
    simp only [step, Cpu.num, h0, Option.bind_eq_bind, Option.bind_some]
    refine ⟨_, rfl, ⟨rfl, fun r hr => ?_⟩, fun r hr => ?_⟩
    · simp only [Cpu.set]; rw [if_neg]; rintro rfl; exact hr (ho _ (by simp))
    · simp only [Cpu.set, stepN]; split <;> [rfl; exact hR r hr]
  case shld imm lo hi =>
    have h0 := hR lo (ho _ (by simp))
    have h1 := hR hi (ho _ (by simp))
    simp only [step, Cpu.num, h0, h1, Option.bind_eq_bind, Option.bind_some]
    refine ⟨_, rfl, ⟨rfl, fun r hr => ?_⟩, fun r hr => ?_⟩
    · simp only [Cpu.set]; rw [if_neg]; rintro rfl; exact hr (ho _ (by simp))
    · simp only [Cpu.set, stepN]; split <;> [rfl; exact hR r hr]

theorem execN_run (args : Nat → Addr) (live : List Reg) : ∀ (p : List Instr) (s : Cpu) (R : Reg → UInt64),
    (∀ i ∈ p, OnlyN live i) → (∀ r ∈ live, s.reg r = .num (R r)) →
    ∃ s', Asm.exec args s p = some s' ∧ Keeps s s' live ∧
      ∀ r ∈ live, s'.reg r = .num (p.foldl stepN R r)
  | [], s, R, _, hR => ⟨s, rfl, ⟨rfl, fun _ _ => rfl⟩, hR⟩
  | i :: p, s, R, hp, hR => by
    obtain ⟨s1, e1, k1, v1⟩ := stepN_run args live s R i (hp i List.mem_cons_self) hR
    obtain ⟨s2, e2, k2, v2⟩ := execN_run args live p s1 _ (fun j hj => hp j (List.mem_cons_of_mem _ hj)) v1
    refine ⟨s2, ?_, (k1.trans k2).mono (by simp), v2⟩
    rw [Asm.exec, e1]; exact e2

/-! ### The two functions -/

/-- The reduction, from the coefficients `(high word, low word)`. -/
def reduceAsm (c0 c1 c2 c3 c4 : UInt64 × UInt64) : Fe51 :=
  let m : UInt64 := 2251799813685247
  let r0 : UInt64 := (c0.2 &&& m) + ((c4.1 <<< 13) ||| (c4.2 >>> 51)) * 19
  let r1 : UInt64 := (c1.2 &&& m) + ((c0.1 <<< 13) ||| (c0.2 >>> 51)) + r0 >>> 51
  let r2 : UInt64 := (c2.2 &&& m) + ((c1.1 <<< 13) ||| (c1.2 >>> 51)) + r1 >>> 51
  let r3 : UInt64 := (c3.2 &&& m) + ((c2.1 <<< 13) ||| (c2.2 >>> 51)) + r2 >>> 51
  let r4 : UInt64 := (c4.2 &&& m) + ((c3.1 <<< 13) ||| (c3.2 >>> 51)) + r3 >>> 51
  ⟨(r0 &&& m) + r4 >>> 51 * 19, r1 &&& m, r2 &&& m,
    r3 &&& m, r4 &&& m⟩

theorem mulCarry_val (R : Reg → UInt64) :
    let F := (mulCarry ++ mulCarry2).foldl stepN R
    (⟨F .si, F .r8, F .r10, F .r12, F .r14⟩ : Fe51) =
      reduceAsm (R .bp, R .si) (R .r9, R .r8) (R .r11, R .r10) (R .r13, R .r12) (R .r15, R .r14) := by
  simp only [mulCarry, mulCarry2, List.cons_append, List.nil_append, List.foldl_cons, List.foldl_nil,
    stepN, reduceAsm, reduceCtorEq, if_true, if_false, show (64 - 13 : UInt64) = 51 from rfl]

theorem sqCarry_val (R : Reg → UInt64) :
    let F := (sqCarry ++ sqCarry2).foldl stepN R
    (⟨F .cx, F .r9, F .r11, F .r13, F .r15⟩ : Fe51) =
      reduceAsm (R .r8, R .cx) (R .r10, R .r9) (R .r12, R .r11) (R .r14, R .r13) (R .bx, R .r15) := by
  simp only [sqCarry, sqCarry2, List.cons_append, List.nil_append, List.foldl_cons, List.foldl_nil,
    stepN, reduceAsm, reduceCtorEq, if_true, if_false, show (64 - 13 : UInt64) = 51 from rfl]

/-- A coefficient as a function of the operands. -/
def coef (X Y : Fe51) (m : Mac) (ms : List Mac) : UInt64 × UInt64 :=
  ms.foldl (fun a m => mulAcc a (m.fst X) (m.snd Y)) (bitsMul64 (m.fst X) (m.snd Y))

theorem upd_store (m : FMem) (o : Addr) (v : Fe51) :
    wr (wr (wr (wr (wr m o 0 v.l0) o 1 v.l1) o 2 v.l2) o 3 v.l3) o 4 v.l4 = assign m o v := by
  exact Alias.storeI_eq o v m

/-- What `feMul` computes. -/
def asmMul (X Y : Fe51) : Fe51 :=
  let c0 := mulAcc (mulAcc (mulAcc (mulAcc (bitsMul64 X.l0 Y.l0) (X.l1 * 19) Y.l4) (X.l2 * 19) Y.l3) (X.l3 * 19) Y.l2) (X.l4 * 19) Y.l1
  let c1 := mulAcc (mulAcc (mulAcc (mulAcc (bitsMul64 X.l0 Y.l1) X.l1 Y.l0) (X.l2 * 19) Y.l4) (X.l3 * 19) Y.l3) (X.l4 * 19) Y.l2
  let c2 := mulAcc (mulAcc (mulAcc (mulAcc (bitsMul64 X.l0 Y.l2) X.l1 Y.l1) X.l2 Y.l0) (X.l3 * 19) Y.l4) (X.l4 * 19) Y.l3
  let c3 := mulAcc (mulAcc (mulAcc (mulAcc (bitsMul64 X.l0 Y.l3) X.l1 Y.l2) X.l2 Y.l1) X.l3 Y.l0) (X.l4 * 19) Y.l4
  let c4 := mulAcc (mulAcc (mulAcc (mulAcc (bitsMul64 X.l0 Y.l4) X.l1 Y.l3) X.l2 Y.l2) X.l3 Y.l1) X.l4 Y.l0
  reduceAsm c0 c1 c2 c3 c4

theorem mulR0_eq : mulR0 = coefProg .bx .cx .si .bp ⟨0, .plain, 0⟩
    [⟨8, (.imul 19), 32⟩, ⟨16, (.imul 19), 24⟩, ⟨24, (.imul 19), 16⟩, ⟨32, (.imul 19), 8⟩] := rfl
theorem mulR1_eq : mulR1 = coefProg .bx .cx .r8 .r9 ⟨0, .plain, 8⟩
    [⟨8, .plain, 0⟩, ⟨16, (.imul 19), 32⟩, ⟨24, (.imul 19), 24⟩, ⟨32, (.imul 19), 16⟩] := rfl
theorem mulR2_eq : mulR2 = coefProg .bx .cx .r10 .r11 ⟨0, .plain, 16⟩
    [⟨8, .plain, 8⟩, ⟨16, .plain, 0⟩, ⟨24, (.imul 19), 32⟩, ⟨32, (.imul 19), 24⟩] := rfl
theorem mulR3_eq : mulR3 = coefProg .bx .cx .r12 .r13 ⟨0, .plain, 24⟩
    [⟨8, .plain, 16⟩, ⟨16, .plain, 8⟩, ⟨24, .plain, 0⟩, ⟨32, (.imul 19), 32⟩] := rfl
theorem mulR4_eq : mulR4 = coefProg .bx .cx .r14 .r15 ⟨0, .plain, 32⟩
    [⟨8, .plain, 24⟩, ⟨16, .plain, 16⟩, ⟨24, .plain, 8⟩, ⟨32, .plain, 0⟩] := rfl

/-- What `feSquare` computes. -/
def asmSquare (X : Fe51) : Fe51 :=
  let c0 := mulAcc (mulAcc (bitsMul64 X.l0 X.l0) (X.l1 * 38) X.l4) (X.l2 * 38) X.l3
  let c1 := mulAcc (mulAcc (bitsMul64 (X.l0 <<< 1) X.l1) (X.l2 * 38) X.l4) (X.l3 * 19) X.l3
  let c2 := mulAcc (mulAcc (bitsMul64 (X.l0 <<< 1) X.l2) X.l1 X.l1) (X.l3 * 38) X.l4
  let c3 := mulAcc (mulAcc (bitsMul64 (X.l0 <<< 1) X.l3) (X.l1 <<< 1) X.l2) (X.l4 * 19) X.l4
  let c4 := mulAcc (mulAcc (bitsMul64 (X.l0 <<< 1) X.l4) (X.l1 <<< 1) X.l3) X.l2 X.l2
  reduceAsm c0 c1 c2 c3 c4

theorem sqR0_eq : sqR0 = coefProg .si .si .cx .r8 ⟨0, .plain, 0⟩
    [⟨8, (.imul 38), 32⟩, ⟨16, (.imul 38), 24⟩] := rfl
theorem sqR1_eq : sqR1 = coefProg .si .si .r9 .r10 ⟨0, .dbl, 8⟩
    [⟨16, (.imul 38), 32⟩, ⟨24, (.imul 19), 24⟩] := rfl
theorem sqR2_eq : sqR2 = coefProg .si .si .r11 .r12 ⟨0, .dbl, 16⟩
    [⟨8, .plain, 8⟩, ⟨24, (.imul 38), 32⟩] := rfl
theorem sqR3_eq : sqR3 = coefProg .si .si .r13 .r14 ⟨0, .dbl, 24⟩
    [⟨8, .dbl, 16⟩, ⟨32, (.imul 19), 32⟩] := rfl
theorem sqR4_eq : sqR4 = coefProg .si .si .r15 .bx ⟨0, .dbl, 32⟩
    [⟨8, .dbl, 24⟩, ⟨16, .plain, 16⟩] := rfl

theorem feMulI_eq (reg : Reg → Val) (out a b : Addr) (m : FMem) :
    feMulI reg out a b m = some (assign m out (asmMul (m a) (m b))) := by
  unfold feMulI
  obtain ⟨args, hargs⟩ : ∃ args : Nat → Addr, args = (fun off => if off = 0 then out else if off = 8 then a else b) := ⟨_, rfl⟩
  rw [← hargs]
  have a0 : args 0 = out := by rw [hargs]; rfl
  have a8 : args 8 = a := by rw [hargs]; rfl
  have a16 : args 16 = b := by rw [hargs]; rfl
  clear hargs
  obtain ⟨s0, e0, m0, hd0, hb0, hc0⟩ : ∃ s0, Asm.exec args ⟨reg, none, m⟩ mulArgs = some s0 ∧ s0.mem = m ∧
      s0.reg .di = .ptr out ∧ s0.reg .bx = .ptr a ∧ s0.reg .cx = .ptr b := by
    refine ⟨_, rfl, rfl, ?_, ?_, ?_⟩ <;> simp [Cpu.set, a0, a8, a16]
  obtain ⟨s1, e1, k1, l1, h1, n1⟩ := coef_run args .bx .cx .si .bp a b ⟨0, .plain, 0⟩
    [⟨8, (.imul 19), 32⟩, ⟨16, (.imul 19), 24⟩, ⟨24, (.imul 19), 16⟩, ⟨32, (.imul 19), 8⟩] s0 (by decide) hb0 hc0 (by decide)
  rw [← mulR0_eq] at e1
  rw [m0] at l1 h1
  have m1 : s1.mem = m := k1.mem.trans m0
  have hd1 := (k1.reg .di (by decide)).trans hd0
  have hb1 := (k1.reg .bx (by decide)).trans hb0
  have hc1 := (k1.reg .cx (by decide)).trans hc0
  obtain ⟨s2, e2, k2, l2, h2, n2⟩ := coef_run args .bx .cx .r8 .r9 a b ⟨0, .plain, 8⟩
    [⟨8, .plain, 0⟩, ⟨16, (.imul 19), 32⟩, ⟨24, (.imul 19), 24⟩, ⟨32, (.imul 19), 16⟩] s1 (by decide) hb1 hc1 (by decide)
  rw [← mulR1_eq] at e2
  rw [m1] at l2 h2
  have m2 : s2.mem = m := k2.mem.trans m1
  have hd2 := (k2.reg .di (by decide)).trans hd1
  have hb2 := (k2.reg .bx (by decide)).trans hb1
  have hc2 := (k2.reg .cx (by decide)).trans hc1
  obtain ⟨s3, e3, k3, l3, h3, n3⟩ := coef_run args .bx .cx .r10 .r11 a b ⟨0, .plain, 16⟩
    [⟨8, .plain, 8⟩, ⟨16, .plain, 0⟩, ⟨24, (.imul 19), 32⟩, ⟨32, (.imul 19), 24⟩] s2 (by decide) hb2 hc2 (by decide)
  rw [← mulR2_eq] at e3
  rw [m2] at l3 h3
  have m3 : s3.mem = m := k3.mem.trans m2
  have hd3 := (k3.reg .di (by decide)).trans hd2
  have hb3 := (k3.reg .bx (by decide)).trans hb2
  have hc3 := (k3.reg .cx (by decide)).trans hc2
  obtain ⟨s4, e4, k4, l4, h4, n4⟩ := coef_run args .bx .cx .r12 .r13 a b ⟨0, .plain, 24⟩
    [⟨8, .plain, 16⟩, ⟨16, .plain, 8⟩, ⟨24, .plain, 0⟩, ⟨32, (.imul 19), 32⟩] s3 (by decide) hb3 hc3 (by decide)
  rw [← mulR3_eq] at e4
  rw [m3] at l4 h4
  have m4 : s4.mem = m := k4.mem.trans m3
  have hd4 := (k4.reg .di (by decide)).trans hd3
  have hb4 := (k4.reg .bx (by decide)).trans hb3
  have hc4 := (k4.reg .cx (by decide)).trans hc3
  obtain ⟨s5, e5, k5, l5, h5, n5⟩ := coef_run args .bx .cx .r14 .r15 a b ⟨0, .plain, 32⟩
    [⟨8, .plain, 24⟩, ⟨16, .plain, 16⟩, ⟨24, .plain, 8⟩, ⟨32, .plain, 0⟩] s4 (by decide) hb4 hc4 (by decide)
  rw [← mulR4_eq] at e5
  rw [m4] at l5 h5
  have m5 : s5.mem = m := k5.mem.trans m4
  have hd5 := (k5.reg .di (by decide)).trans hd4
  have L0 := ((k5.reg .si (by decide)).trans ((k4.reg .si (by decide)).trans ((k3.reg .si (by decide)).trans ((k2.reg .si (by decide)).trans l1))))
  have H0 := ((k5.reg .bp (by decide)).trans ((k4.reg .bp (by decide)).trans ((k3.reg .bp (by decide)).trans ((k2.reg .bp (by decide)).trans h1))))
  have L1 := ((k5.reg .r8 (by decide)).trans ((k4.reg .r8 (by decide)).trans ((k3.reg .r8 (by decide)).trans l2)))
  have H1 := ((k5.reg .r9 (by decide)).trans ((k4.reg .r9 (by decide)).trans ((k3.reg .r9 (by decide)).trans h2)))
  have L2 := ((k5.reg .r10 (by decide)).trans ((k4.reg .r10 (by decide)).trans l3))
  have H2 := ((k5.reg .r11 (by decide)).trans ((k4.reg .r11 (by decide)).trans h3))
  have L3 := ((k5.reg .r12 (by decide)).trans l4)
  have H3 := ((k5.reg .r13 (by decide)).trans h4)
  have L4 := l5
  have H4 := h5
  obtain ⟨u, v, hax, hdx⟩ := n5
  obtain ⟨c0, hc0e⟩ : ∃ c, c = coef (m a) (m b) ⟨0, .plain, 0⟩
    [⟨8, (.imul 19), 32⟩, ⟨16, (.imul 19), 24⟩, ⟨24, (.imul 19), 16⟩, ⟨32, (.imul 19), 8⟩] := ⟨_, rfl⟩
  change _ = Val.num (coef (m a) (m b) ⟨0, .plain, 0⟩
    [⟨8, (.imul 19), 32⟩, ⟨16, (.imul 19), 24⟩, ⟨24, (.imul 19), 16⟩, ⟨32, (.imul 19), 8⟩]).2 at L0
  change _ = Val.num (coef (m a) (m b) ⟨0, .plain, 0⟩
    [⟨8, (.imul 19), 32⟩, ⟨16, (.imul 19), 24⟩, ⟨24, (.imul 19), 16⟩, ⟨32, (.imul 19), 8⟩]).1 at H0
  rw [← hc0e] at L0 H0
  obtain ⟨c1, hc1e⟩ : ∃ c, c = coef (m a) (m b) ⟨0, .plain, 8⟩
    [⟨8, .plain, 0⟩, ⟨16, (.imul 19), 32⟩, ⟨24, (.imul 19), 24⟩, ⟨32, (.imul 19), 16⟩] := ⟨_, rfl⟩
  change _ = Val.num (coef (m a) (m b) ⟨0, .plain, 8⟩
    [⟨8, .plain, 0⟩, ⟨16, (.imul 19), 32⟩, ⟨24, (.imul 19), 24⟩, ⟨32, (.imul 19), 16⟩]).2 at L1
  change _ = Val.num (coef (m a) (m b) ⟨0, .plain, 8⟩
    [⟨8, .plain, 0⟩, ⟨16, (.imul 19), 32⟩, ⟨24, (.imul 19), 24⟩, ⟨32, (.imul 19), 16⟩]).1 at H1
  rw [← hc1e] at L1 H1
  obtain ⟨c2, hc2e⟩ : ∃ c, c = coef (m a) (m b) ⟨0, .plain, 16⟩
    [⟨8, .plain, 8⟩, ⟨16, .plain, 0⟩, ⟨24, (.imul 19), 32⟩, ⟨32, (.imul 19), 24⟩] := ⟨_, rfl⟩
  change _ = Val.num (coef (m a) (m b) ⟨0, .plain, 16⟩
    [⟨8, .plain, 8⟩, ⟨16, .plain, 0⟩, ⟨24, (.imul 19), 32⟩, ⟨32, (.imul 19), 24⟩]).2 at L2
  change _ = Val.num (coef (m a) (m b) ⟨0, .plain, 16⟩
    [⟨8, .plain, 8⟩, ⟨16, .plain, 0⟩, ⟨24, (.imul 19), 32⟩, ⟨32, (.imul 19), 24⟩]).1 at H2
  rw [← hc2e] at L2 H2
  obtain ⟨c3, hc3e⟩ : ∃ c, c = coef (m a) (m b) ⟨0, .plain, 24⟩
    [⟨8, .plain, 16⟩, ⟨16, .plain, 8⟩, ⟨24, .plain, 0⟩, ⟨32, (.imul 19), 32⟩] := ⟨_, rfl⟩
  change _ = Val.num (coef (m a) (m b) ⟨0, .plain, 24⟩
    [⟨8, .plain, 16⟩, ⟨16, .plain, 8⟩, ⟨24, .plain, 0⟩, ⟨32, (.imul 19), 32⟩]).2 at L3
  change _ = Val.num (coef (m a) (m b) ⟨0, .plain, 24⟩
    [⟨8, .plain, 16⟩, ⟨16, .plain, 8⟩, ⟨24, .plain, 0⟩, ⟨32, (.imul 19), 32⟩]).1 at H3
  rw [← hc3e] at L3 H3
  obtain ⟨c4, hc4e⟩ : ∃ c, c = coef (m a) (m b) ⟨0, .plain, 32⟩
    [⟨8, .plain, 24⟩, ⟨16, .plain, 16⟩, ⟨24, .plain, 8⟩, ⟨32, .plain, 0⟩] := ⟨_, rfl⟩
  change _ = Val.num (coef (m a) (m b) ⟨0, .plain, 32⟩
    [⟨8, .plain, 24⟩, ⟨16, .plain, 16⟩, ⟨24, .plain, 8⟩, ⟨32, .plain, 0⟩]).2 at L4
  change _ = Val.num (coef (m a) (m b) ⟨0, .plain, 32⟩
    [⟨8, .plain, 24⟩, ⟨16, .plain, 16⟩, ⟨24, .plain, 8⟩, ⟨32, .plain, 0⟩]).1 at H4
  rw [← hc4e] at L4 H4
  obtain ⟨R, hR⟩ : ∃ R : Reg → UInt64, R = fun r => match r with
    | .ax => u
    | .dx => v
    | .si => c0.2
    | .bp => c0.1
    | .r8 => c1.2
    | .r9 => c1.1
    | .r10 => c2.2
    | .r11 => c2.1
    | .r12 => c3.2
    | .r13 => c3.1
    | .r14 => c4.2
    | .r15 => c4.1
    | _ => 0 := ⟨_, rfl⟩
  obtain ⟨s6, e6, k6, v6⟩ := execN_run args [.ax, .dx, .si, .bp, .r8, .r9, .r10, .r11, .r12, .r13, .r14, .r15]
    (mulCarry ++ mulCarry2) s5 R (by decide) (by
      subst hR
      intro r hr
      simp only [List.mem_cons, List.not_mem_nil, or_false] at hr
      rcases hr with rfl | rfl | rfl | rfl | rfl | rfl | rfl | rfl | rfl | rfl | rfl | rfl
      all_goals assumption)
  have hval := mulCarry_val R
  obtain ⟨F, hF⟩ : ∃ F, F = (mulCarry ++ mulCarry2).foldl stepN R := ⟨_, rfl⟩
  rw [← hF] at hval v6
  simp only at hval
  have hd6 := (k6.reg .di (by decide)).trans hd5
  have m6 : s6.mem = m := k6.mem.trans m5
  have w0 := v6 .si (by decide)
  have w1 := v6 .r8 (by decide)
  have w2 := v6 .r10 (by decide)
  have w3 := v6 .r12 (by decide)
  have w4 := v6 .r14 (by decide)
  obtain ⟨s7, e7, m7⟩ : ∃ s7, Asm.exec args s6 mulStore = some s7 ∧
      s7.mem = assign m out ⟨F .si, F .r8, F .r10, F .r12, F .r14⟩ := by
    refine ⟨{ s6 with mem := assign m out ⟨F .si, F .r8, F .r10, F .r12, F .r14⟩ }, ?_, rfl⟩
    rw [← upd_store]
    simp [mulStore, Asm.exec, step, Cpu.num, Cpu.ptr, limbIdx, hd6, w0, w1, w2, w3, w4, m6]
  rw [feMulProg, exec_append, exec_append, exec_append, exec_append, exec_append, exec_append, exec_append,
    exec_append, e0, Option.bind_some, e1, Option.bind_some, e2, Option.bind_some, e3, Option.bind_some,
    e4, Option.bind_some, e5, Option.bind_some]
  rw [exec_append] at e6
  cases h6 : Asm.exec args s5 mulCarry with
  | none => rw [h6] at e6; exact absurd e6 (by simp)
  | some s5' =>
    rw [h6, Option.bind_some] at e6
    rw [Option.bind_some, e6, Option.bind_some, e7, Option.map_some, m7, hval]
    subst hR
    rw [hc0e, hc1e, hc2e, hc3e, hc4e]
    rfl

theorem feSquareI_eq (reg : Reg → Val) (out a : Addr) (m : FMem) :
    feSquareI reg out a m = some (assign m out (asmSquare (m a))) := by
  unfold feSquareI
  obtain ⟨args, hargs⟩ : ∃ args : Nat → Addr, args = (fun off => if off = 0 then out else a) := ⟨_, rfl⟩
  rw [← hargs]
  have a0 : args 0 = out := by rw [hargs]; rfl
  have a8 : args 8 = a := by rw [hargs]; rfl
  clear hargs
  obtain ⟨s0, e0, m0, hd0, hb0⟩ : ∃ s0, Asm.exec args ⟨reg, none, m⟩ sqArgs = some s0 ∧ s0.mem = m ∧
      s0.reg .di = .ptr out ∧ s0.reg .si = .ptr a := by
    refine ⟨_, rfl, rfl, ?_, ?_⟩ <;> simp [Cpu.set, a0, a8]
  obtain ⟨s1, e1, k1, l1, h1, n1⟩ := coef_run args .si .si .cx .r8 a a ⟨0, .plain, 0⟩
    [⟨8, (.imul 38), 32⟩, ⟨16, (.imul 38), 24⟩] s0 (by decide) hb0 hb0 (by decide)
  rw [← sqR0_eq] at e1
  rw [m0] at l1 h1
  have m1 : s1.mem = m := k1.mem.trans m0
  have hd1 := (k1.reg .di (by decide)).trans hd0
  have hb1 := (k1.reg .si (by decide)).trans hb0
  obtain ⟨s2, e2, k2, l2, h2, n2⟩ := coef_run args .si .si .r9 .r10 a a ⟨0, .dbl, 8⟩
    [⟨16, (.imul 38), 32⟩, ⟨24, (.imul 19), 24⟩] s1 (by decide) hb1 hb1 (by decide)
  rw [← sqR1_eq] at e2
  rw [m1] at l2 h2
  have m2 : s2.mem = m := k2.mem.trans m1
  have hd2 := (k2.reg .di (by decide)).trans hd1
  have hb2 := (k2.reg .si (by decide)).trans hb1
  obtain ⟨s3, e3, k3, l3, h3, n3⟩ := coef_run args .si .si .r11 .r12 a a ⟨0, .dbl, 16⟩
    [⟨8, .plain, 8⟩, ⟨24, (.imul 38), 32⟩] s2 (by decide) hb2 hb2 (by decide)
  rw [← sqR2_eq] at e3
  rw [m2] at l3 h3
  have m3 : s3.mem = m := k3.mem.trans m2
  have hd3 := (k3.reg .di (by decide)).trans hd2
  have hb3 := (k3.reg .si (by decide)).trans hb2
  obtain ⟨s4, e4, k4, l4, h4, n4⟩ := coef_run args .si .si .r13 .r14 a a ⟨0, .dbl, 24⟩
    [⟨8, .dbl, 16⟩, ⟨32, (.imul 19), 32⟩] s3 (by decide) hb3 hb3 (by decide)
  rw [← sqR3_eq] at e4
  rw [m3] at l4 h4
  have m4 : s4.mem = m := k4.mem.trans m3
  have hd4 := (k4.reg .di (by decide)).trans hd3
  have hb4 := (k4.reg .si (by decide)).trans hb3
  obtain ⟨s5, e5, k5, l5, h5, n5⟩ := coef_run args .si .si .r15 .bx a a ⟨0, .dbl, 32⟩
    [⟨8, .dbl, 24⟩, ⟨16, .plain, 16⟩] s4 (by decide) hb4 hb4 (by decide)
  rw [← sqR4_eq] at e5
  rw [m4] at l5 h5
  have m5 : s5.mem = m := k5.mem.trans m4
  have hd5 := (k5.reg .di (by decide)).trans hd4
  have L0 := ((k5.reg .cx (by decide)).trans ((k4.reg .cx (by decide)).trans ((k3.reg .cx (by decide)).trans ((k2.reg .cx (by decide)).trans l1))))
  have H0 := ((k5.reg .r8 (by decide)).trans ((k4.reg .r8 (by decide)).trans ((k3.reg .r8 (by decide)).trans ((k2.reg .r8 (by decide)).trans h1))))
  have L1 := ((k5.reg .r9 (by decide)).trans ((k4.reg .r9 (by decide)).trans ((k3.reg .r9 (by decide)).trans l2)))
  have H1 := ((k5.reg .r10 (by decide)).trans ((k4.reg .r10 (by decide)).trans ((k3.reg .r10 (by decide)).trans h2)))
  have L2 := ((k5.reg .r11 (by decide)).trans ((k4.reg .r11 (by decide)).trans l3))
  have H2 := ((k5.reg .r12 (by decide)).trans ((k4.reg .r12 (by decide)).trans h3))
  have L3 := ((k5.reg .r13 (by decide)).trans l4)
  have H3 := ((k5.reg .r14 (by decide)).trans h4)
  have L4 := l5
  have H4 := h5
  obtain ⟨u, v, hax, hdx⟩ := n5
  obtain ⟨c0, hc0e⟩ : ∃ c, c = coef (m a) (m a) ⟨0, .plain, 0⟩
    [⟨8, (.imul 38), 32⟩, ⟨16, (.imul 38), 24⟩] := ⟨_, rfl⟩
  change _ = Val.num (coef (m a) (m a) ⟨0, .plain, 0⟩
    [⟨8, (.imul 38), 32⟩, ⟨16, (.imul 38), 24⟩]).2 at L0
  change _ = Val.num (coef (m a) (m a) ⟨0, .plain, 0⟩
    [⟨8, (.imul 38), 32⟩, ⟨16, (.imul 38), 24⟩]).1 at H0
  rw [← hc0e] at L0 H0
  obtain ⟨c1, hc1e⟩ : ∃ c, c = coef (m a) (m a) ⟨0, .dbl, 8⟩
    [⟨16, (.imul 38), 32⟩, ⟨24, (.imul 19), 24⟩] := ⟨_, rfl⟩
  change _ = Val.num (coef (m a) (m a) ⟨0, .dbl, 8⟩
    [⟨16, (.imul 38), 32⟩, ⟨24, (.imul 19), 24⟩]).2 at L1
  change _ = Val.num (coef (m a) (m a) ⟨0, .dbl, 8⟩
    [⟨16, (.imul 38), 32⟩, ⟨24, (.imul 19), 24⟩]).1 at H1
  rw [← hc1e] at L1 H1
  obtain ⟨c2, hc2e⟩ : ∃ c, c = coef (m a) (m a) ⟨0, .dbl, 16⟩
    [⟨8, .plain, 8⟩, ⟨24, (.imul 38), 32⟩] := ⟨_, rfl⟩
  change _ = Val.num (coef (m a) (m a) ⟨0, .dbl, 16⟩
    [⟨8, .plain, 8⟩, ⟨24, (.imul 38), 32⟩]).2 at L2
  change _ = Val.num (coef (m a) (m a) ⟨0, .dbl, 16⟩
    [⟨8, .plain, 8⟩, ⟨24, (.imul 38), 32⟩]).1 at H2
  rw [← hc2e] at L2 H2
  obtain ⟨c3, hc3e⟩ : ∃ c, c = coef (m a) (m a) ⟨0, .dbl, 24⟩
    [⟨8, .dbl, 16⟩, ⟨32, (.imul 19), 32⟩] := ⟨_, rfl⟩
  change _ = Val.num (coef (m a) (m a) ⟨0, .dbl, 24⟩
    [⟨8, .dbl, 16⟩, ⟨32, (.imul 19), 32⟩]).2 at L3
  change _ = Val.num (coef (m a) (m a) ⟨0, .dbl, 24⟩
    [⟨8, .dbl, 16⟩, ⟨32, (.imul 19), 32⟩]).1 at H3
  rw [← hc3e] at L3 H3
  obtain ⟨c4, hc4e⟩ : ∃ c, c = coef (m a) (m a) ⟨0, .dbl, 32⟩
    [⟨8, .dbl, 24⟩, ⟨16, .plain, 16⟩] := ⟨_, rfl⟩
  change _ = Val.num (coef (m a) (m a) ⟨0, .dbl, 32⟩
    [⟨8, .dbl, 24⟩, ⟨16, .plain, 16⟩]).2 at L4
  change _ = Val.num (coef (m a) (m a) ⟨0, .dbl, 32⟩
    [⟨8, .dbl, 24⟩, ⟨16, .plain, 16⟩]).1 at H4
  rw [← hc4e] at L4 H4
  obtain ⟨R, hR⟩ : ∃ R : Reg → UInt64, R = fun r => match r with
    | .ax => u
    | .dx => v
    | .cx => c0.2
    | .r8 => c0.1
    | .r9 => c1.2
    | .r10 => c1.1
    | .r11 => c2.2
    | .r12 => c2.1
    | .r13 => c3.2
    | .r14 => c3.1
    | .r15 => c4.2
    | .bx => c4.1
    | _ => 0 := ⟨_, rfl⟩
  obtain ⟨s6, e6, k6, v6⟩ := execN_run args [.ax, .dx, .cx, .r8, .r9, .r10, .r11, .r12, .r13, .r14, .r15, .bx]
    (sqCarry ++ sqCarry2) s5 R (by decide) (by
      subst hR
      intro r hr
      simp only [List.mem_cons, List.not_mem_nil, or_false] at hr
      rcases hr with rfl | rfl | rfl | rfl | rfl | rfl | rfl | rfl | rfl | rfl | rfl | rfl
      all_goals assumption)
  have hval := sqCarry_val R
  obtain ⟨F, hF⟩ : ∃ F, F = (sqCarry ++ sqCarry2).foldl stepN R := ⟨_, rfl⟩
  rw [← hF] at hval v6
  simp only at hval
  have hd6 := (k6.reg .di (by decide)).trans hd5
  have m6 : s6.mem = m := k6.mem.trans m5
  have w0 := v6 .cx (by decide)
  have w1 := v6 .r9 (by decide)
  have w2 := v6 .r11 (by decide)
  have w3 := v6 .r13 (by decide)
  have w4 := v6 .r15 (by decide)
  obtain ⟨s7, e7, m7⟩ : ∃ s7, Asm.exec args s6 sqStore = some s7 ∧
      s7.mem = assign m out ⟨F .cx, F .r9, F .r11, F .r13, F .r15⟩ := by
    refine ⟨{ s6 with mem := assign m out ⟨F .cx, F .r9, F .r11, F .r13, F .r15⟩ }, ?_, rfl⟩
    rw [← upd_store]
    simp [sqStore, Asm.exec, step, Cpu.num, Cpu.ptr, limbIdx, hd6, w0, w1, w2, w3, w4, m6]
  rw [feSquareProg, exec_append, exec_append, exec_append, exec_append, exec_append, exec_append, exec_append,
    exec_append, e0, Option.bind_some, e1, Option.bind_some, e2, Option.bind_some, e3, Option.bind_some,
    e4, Option.bind_some, e5, Option.bind_some]
  rw [exec_append] at e6
  cases h6 : Asm.exec args s5 sqCarry with
  | none => rw [h6] at e6; exact absurd e6 (by simp)
  | some s5' =>
    rw [h6, Option.bind_some] at e6
    rw [Option.bind_some, e6, Option.bind_some, e7, Option.map_some, m7, hval]
    subst hR
    rw [hc0e, hc1e, hc2e, hc3e, hc4e]
    rfl

end Ristretto.Proofs.Asm
