import Verif.Model.Alias

/-!
# The amd64 assembly

edwards25519/field_amd64.s and field_amd64.go: the multiplication used on amd64 with Go before 1.13
(`+build amd64,!go1.13,!forcegeneric`); everything else is shared with the default build.

The instructions are given one by one (Go's assembler syntax, the destination comes last) with an
interpreter.  A register holds a number or a pointer to a field element; the carry flag is undefined
after instructions other than `ADDQ` and `ADCQ`, and using it then, like using a number as a
pointer or an access outside the five limbs, is an error (`none`).
-/

namespace Ristretto.Model.Asm
open Ristretto.Model.Alias

/-- The registers that occur. -/
inductive Reg where
  | ax | bx | cx | dx | si | di | bp | r8 | r9 | r10 | r11 | r12 | r13 | r14 | r15
deriving DecidableEq

/-- The contents of a register. -/
inductive Val where
  | num (x : UInt64)
  | ptr (a : Addr)

/-- The instructions that occur. -/
inductive Instr where
  /-- `MOVQ name+off(FP), dst`: the argument at offset `off` -/
  | movArg (off : Nat) (dst : Reg)
  /-- `MOVQ $imm, dst` -/
  | movImm (imm : UInt64) (dst : Reg)
  /-- `MOVQ src, dst` -/
  | mov (src dst : Reg)
  /-- `MOVQ off(base), dst` -/
  | load (off : Nat) (base dst : Reg)
  /-- `MOVQ src, off(base)` -/
  | store (src : Reg) (off : Nat) (base : Reg)
  /-- `MULQ off(base)`: `DX:AX := AX * off(base)` -/
  | mulq (off : Nat) (base : Reg)
  /-- `IMUL3Q $imm, src, dst`: the low 64 bits of the product -/
  | imul3 (imm : UInt64) (src dst : Reg)
  /-- `ADDQ src, dst` -/
  | addq (src dst : Reg)
  /-- `ADCQ src, dst` -/
  | adcq (src dst : Reg)
  /-- `ANDQ src, dst` -/
  | andq (src dst : Reg)
  /-- `SHLQ $imm, dst` -/
  | shlq (imm : UInt64) (dst : Reg)
  /-- `SHRQ $imm, dst` -/
  | shrq (imm : UInt64) (dst : Reg)
  /-- `SHLQ $imm, lo, hi` (`SHLD`): shifts `hi` left and fills it with the high bits of `lo` -/
  | shld (imm : UInt64) (lo hi : Reg)
  /-- `RET` -/
  | ret

/-- Registers, carry flag and memory. -/
structure Cpu where
  reg : Reg → Val
  cf : Option UInt64
  mem : FMem

/-- The register `r` receives `v`. -/
def Cpu.set (s : Cpu) (r : Reg) (v : Val) : Cpu := { s with reg := fun k => if k = r then v else s.reg k }

/-- The number in `r`. -/
def Cpu.num (s : Cpu) (r : Reg) : Option UInt64 := match s.reg r with | .num x => some x | .ptr _ => none

/-- The pointer in `r`. -/
def Cpu.ptr (s : Cpu) (r : Reg) : Option Addr := match s.reg r with | .ptr a => some a | .num _ => none

/-- The index of the limb at byte offset `off`. -/
def limbIdx (off : Nat) : Option Nat := if off % 8 = 0 ∧ off < 40 then some (off / 8) else none

/-- One instruction.  `args off` is the pointer argument at offset `off`. -/
def step (args : Nat → Addr) (s : Cpu) : Instr → Option Cpu
  | .movArg off dst => some (s.set dst (.ptr (args off)))
  | .movImm imm dst => some (s.set dst (.num imm))
  | .mov src dst => some (s.set dst (s.reg src))
  | .load off base dst => do
    let a ← s.ptr base
    let i ← limbIdx off
    some (s.set dst (.num (rd s.mem a i)))
  | .store src off base => do
    let a ← s.ptr base
    let i ← limbIdx off
    let x ← s.num src
    some { s with mem := wr s.mem a i x }
  | .mulq off base => do
    let a ← s.ptr base
    let i ← limbIdx off
    let x ← s.num .ax
    let p := bitsMul64 x (rd s.mem a i)
    some { (s.set .ax (.num p.2)).set .dx (.num p.1) with cf := none }
  | .imul3 imm src dst => do
    let x ← s.num src
    some { s.set dst (.num (x * imm)) with cf := none }
  | .addq src dst => do
    let x ← s.num src
    let y ← s.num dst
    let r := bitsAdd64 y x 0
    some { s.set dst (.num r.1) with cf := some r.2 }
  | .adcq src dst => do
    let x ← s.num src
    let y ← s.num dst
    let c ← s.cf
    let r := bitsAdd64 y x c
    some { s.set dst (.num r.1) with cf := some r.2 }
  | .andq src dst => do
    let x ← s.num src
    let y ← s.num dst
    some { s.set dst (.num (y &&& x)) with cf := none }
  | .shlq imm dst => do
    let y ← s.num dst
    some { s.set dst (.num (y <<< imm)) with cf := none }
  | .shrq imm dst => do
    let y ← s.num dst
    some { s.set dst (.num (y >>> imm)) with cf := none }
  | .shld imm lo hi => do
    let x ← s.num lo
    let y ← s.num hi
    some { s.set hi (.num ((y <<< imm) ||| (x >>> (64 - imm)))) with cf := none }
  | .ret => some s

/-- A sequence of instructions. -/
def exec (args : Nat → Addr) : Cpu → List Instr → Option Cpu
  | s, [] => some s
  | s, i :: is => do
    let s' ← step args s i
    exec args s' is

/-- `feMul`: the arguments (field_amd64.s:7-10). -/
def mulArgs : List Instr :=
  [.movArg 0 .di, .movArg 8 .bx, .movArg 16 .cx]

/-- `feMul`: the coefficient `r0` (field_amd64.s:11-40). -/
def mulR0 : List Instr :=
  [.load 0 .bx .ax, .mulq 0 .cx, .mov .ax .si, .mov .dx .bp, .load 8 .bx .dx, .imul3 19 .dx .ax,
   .mulq 32 .cx, .addq .ax .si, .adcq .dx .bp, .load 16 .bx .dx, .imul3 19 .dx .ax,
   .mulq 24 .cx, .addq .ax .si, .adcq .dx .bp, .load 24 .bx .dx, .imul3 19 .dx .ax,
   .mulq 16 .cx, .addq .ax .si, .adcq .dx .bp, .load 32 .bx .dx, .imul3 19 .dx .ax, .mulq 8 .cx,
   .addq .ax .si, .adcq .dx .bp]

/-- `feMul`: the coefficient `r1` (field_amd64.s:41-69). -/
def mulR1 : List Instr :=
  [.load 0 .bx .ax, .mulq 8 .cx, .mov .ax .r8, .mov .dx .r9, .load 8 .bx .ax, .mulq 0 .cx,
   .addq .ax .r8, .adcq .dx .r9, .load 16 .bx .dx, .imul3 19 .dx .ax, .mulq 32 .cx,
   .addq .ax .r8, .adcq .dx .r9, .load 24 .bx .dx, .imul3 19 .dx .ax, .mulq 24 .cx,
   .addq .ax .r8, .adcq .dx .r9, .load 32 .bx .dx, .imul3 19 .dx .ax, .mulq 16 .cx,
   .addq .ax .r8, .adcq .dx .r9]

/-- `feMul`: the coefficient `r2` (field_amd64.s:70-97). -/
def mulR2 : List Instr :=
  [.load 0 .bx .ax, .mulq 16 .cx, .mov .ax .r10, .mov .dx .r11, .load 8 .bx .ax, .mulq 8 .cx,
   .addq .ax .r10, .adcq .dx .r11, .load 16 .bx .ax, .mulq 0 .cx, .addq .ax .r10,
   .adcq .dx .r11, .load 24 .bx .dx, .imul3 19 .dx .ax, .mulq 32 .cx, .addq .ax .r10,
   .adcq .dx .r11, .load 32 .bx .dx, .imul3 19 .dx .ax, .mulq 24 .cx, .addq .ax .r10,
   .adcq .dx .r11]

/-- `feMul`: the coefficient `r3` (field_amd64.s:98-124). -/
def mulR3 : List Instr :=
  [.load 0 .bx .ax, .mulq 24 .cx, .mov .ax .r12, .mov .dx .r13, .load 8 .bx .ax, .mulq 16 .cx,
   .addq .ax .r12, .adcq .dx .r13, .load 16 .bx .ax, .mulq 8 .cx, .addq .ax .r12,
   .adcq .dx .r13, .load 24 .bx .ax, .mulq 0 .cx, .addq .ax .r12, .adcq .dx .r13,
   .load 32 .bx .dx, .imul3 19 .dx .ax, .mulq 32 .cx, .addq .ax .r12, .adcq .dx .r13]

/-- `feMul`: the coefficient `r4` (field_amd64.s:125-151). -/
def mulR4 : List Instr :=
  [.load 0 .bx .ax, .mulq 32 .cx, .mov .ax .r14, .mov .dx .r15, .load 8 .bx .ax, .mulq 24 .cx,
   .addq .ax .r14, .adcq .dx .r15, .load 16 .bx .ax, .mulq 16 .cx, .addq .ax .r14,
   .adcq .dx .r15, .load 24 .bx .ax, .mulq 8 .cx, .addq .ax .r14, .adcq .dx .r15,
   .load 32 .bx .ax, .mulq 0 .cx, .addq .ax .r14, .adcq .dx .r15]

/-- `feMul`: the high parts (field_amd64.s:152-169). -/
def mulCarry : List Instr :=
  [.movImm 2251799813685247 .ax, .shld 13 .si .bp, .andq .ax .si, .shld 13 .r8 .r9,
   .andq .ax .r8, .addq .bp .r8, .shld 13 .r10 .r11, .andq .ax .r10, .addq .r9 .r10,
   .shld 13 .r12 .r13, .andq .ax .r12, .addq .r11 .r12, .shld 13 .r14 .r15, .andq .ax .r14,
   .addq .r13 .r14, .imul3 19 .r15 .r15, .addq .r15 .si]

/-- `feMul`: the second carry (field_amd64.s:170-191). -/
def mulCarry2 : List Instr :=
  [.mov .si .dx, .shrq 51 .dx, .addq .dx .r8, .mov .r8 .dx, .shrq 51 .dx, .andq .ax .si,
   .addq .dx .r10, .mov .r10 .dx, .shrq 51 .dx, .andq .ax .r8, .addq .dx .r12, .mov .r12 .dx,
   .shrq 51 .dx, .andq .ax .r10, .addq .dx .r14, .mov .r14 .dx, .shrq 51 .dx, .andq .ax .r12,
   .imul3 19 .dx .dx, .addq .dx .si, .andq .ax .r14]

/-- `feMul`: the result (field_amd64.s:192-197). -/
def mulStore : List Instr :=
  [.store .si 0 .di, .store .r8 8 .di, .store .r10 16 .di, .store .r12 24 .di,
   .store .r14 32 .di, .ret]

/-- `feMul` (field_amd64.s:5-197). -/
def feMulProg : List Instr :=
  mulArgs ++ mulR0 ++ mulR1 ++ mulR2 ++ mulR3 ++ mulR4 ++ mulCarry ++ mulCarry2 ++ mulStore

/-- `feSquare`: the arguments (field_amd64.s:201-203). -/
def sqArgs : List Instr :=
  [.movArg 0 .di, .movArg 8 .si]

/-- `feSquare`: the coefficient `r0` (field_amd64.s:204-221). -/
def sqR0 : List Instr :=
  [.load 0 .si .ax, .mulq 0 .si, .mov .ax .cx, .mov .dx .r8, .load 8 .si .dx, .imul3 38 .dx .ax,
   .mulq 32 .si, .addq .ax .cx, .adcq .dx .r8, .load 16 .si .dx, .imul3 38 .dx .ax,
   .mulq 24 .si, .addq .ax .cx, .adcq .dx .r8]

/-- `feSquare`: the coefficient `r1` (field_amd64.s:222-240). -/
def sqR1 : List Instr :=
  [.load 0 .si .ax, .shlq 1 .ax, .mulq 8 .si, .mov .ax .r9, .mov .dx .r10, .load 16 .si .dx,
   .imul3 38 .dx .ax, .mulq 32 .si, .addq .ax .r9, .adcq .dx .r10, .load 24 .si .dx,
   .imul3 19 .dx .ax, .mulq 24 .si, .addq .ax .r9, .adcq .dx .r10]

/-- `feSquare`: the coefficient `r2` (field_amd64.s:241-258). -/
def sqR2 : List Instr :=
  [.load 0 .si .ax, .shlq 1 .ax, .mulq 16 .si, .mov .ax .r11, .mov .dx .r12, .load 8 .si .ax,
   .mulq 8 .si, .addq .ax .r11, .adcq .dx .r12, .load 24 .si .dx, .imul3 38 .dx .ax,
   .mulq 32 .si, .addq .ax .r11, .adcq .dx .r12]

/-- `feSquare`: the coefficient `r3` (field_amd64.s:259-277). -/
def sqR3 : List Instr :=
  [.load 0 .si .ax, .shlq 1 .ax, .mulq 24 .si, .mov .ax .r13, .mov .dx .r14, .load 8 .si .ax,
   .shlq 1 .ax, .mulq 16 .si, .addq .ax .r13, .adcq .dx .r14, .load 32 .si .dx,
   .imul3 19 .dx .ax, .mulq 32 .si, .addq .ax .r13, .adcq .dx .r14]

/-- `feSquare`: the coefficient `r4` (field_amd64.s:278-295). -/
def sqR4 : List Instr :=
  [.load 0 .si .ax, .shlq 1 .ax, .mulq 32 .si, .mov .ax .r15, .mov .dx .bx, .load 8 .si .ax,
   .shlq 1 .ax, .mulq 24 .si, .addq .ax .r15, .adcq .dx .bx, .load 16 .si .ax, .mulq 16 .si,
   .addq .ax .r15, .adcq .dx .bx]

/-- `feSquare`: the high parts (field_amd64.s:296-314). -/
def sqCarry : List Instr :=
  [.movImm 2251799813685247 .ax, .shld 13 .cx .r8, .andq .ax .cx, .shld 13 .r9 .r10,
   .andq .ax .r9, .addq .r8 .r9, .shld 13 .r11 .r12, .andq .ax .r11, .addq .r10 .r11,
   .shld 13 .r13 .r14, .andq .ax .r13, .addq .r12 .r13, .shld 13 .r15 .bx, .andq .ax .r15,
   .addq .r14 .r15, .imul3 19 .bx .dx, .addq .dx .cx]

/-- `feSquare`: the second carry (field_amd64.s:315-336). -/
def sqCarry2 : List Instr :=
  [.mov .cx .dx, .shrq 51 .dx, .addq .dx .r9, .mov .r9 .dx, .shrq 51 .dx, .andq .ax .cx,
   .addq .dx .r11, .mov .r11 .dx, .shrq 51 .dx, .andq .ax .r9, .addq .dx .r13, .mov .r13 .dx,
   .shrq 51 .dx, .andq .ax .r11, .addq .dx .r15, .mov .r15 .dx, .shrq 51 .dx, .andq .ax .r13,
   .imul3 19 .dx .dx, .addq .dx .cx, .andq .ax .r15]

/-- `feSquare`: the result (field_amd64.s:337-342). -/
def sqStore : List Instr :=
  [.store .cx 0 .di, .store .r9 8 .di, .store .r11 16 .di, .store .r13 24 .di,
   .store .r15 32 .di, .ret]

/-- `feSquare` (field_amd64.s:200-342). -/
def feSquareProg : List Instr :=
  sqArgs ++ sqR0 ++ sqR1 ++ sqR2 ++ sqR3 ++ sqR4 ++ sqCarry ++ sqCarry2 ++ sqStore

/-- The memory after `feMul(out, a, b)` (field_amd64.go:7), from any contents `reg` of the registers. -/
def feMulI (reg : Reg → Val) (out a b : Addr) (m : FMem) : Option FMem :=
  (exec (fun off => if off = 0 then out else if off = 8 then a else b) ⟨reg, none, m⟩ feMulProg).map
    (·.mem)

/-- The memory after `feSquare(out, a)` (field_amd64.go:10). -/
def feSquareI (reg : Reg → Val) (out a : Addr) (m : FMem) : Option FMem :=
  (exec (fun off => if off = 0 then out else a) ⟨reg, none, m⟩ feSquareProg).map (·.mem)

/-- `FieldElement.Mul` (field_amd64.go:13-16). -/
def mulI (reg : Reg → Val) (fe a b : Addr) (m : FMem) : Option FMem := feMulI reg fe a b m
/-- `FieldElement.Square` (field_amd64.go:19-22). -/
def squareI (reg : Reg → Val) (fe a : Addr) (m : FMem) : Option FMem := feSquareI reg fe a m
/-- `FieldElement.DoubledSquare` (field_amd64.go:25-28). -/
def doubledSquareI (reg : Reg → Val) (fe a : Addr) (m : FMem) : Option FMem :=
  (feSquareI reg fe a m).map (addI fe fe fe)

/-- The product, as a function of the operands. -/
def mulF (a b : Fe51) : Fe51 :=
  match mulI (fun _ => .num 0) ⟨.var 0, 0⟩ ⟨.var 1, 0⟩ ⟨.var 2, 0⟩
      (fun x => if x = ⟨.var 1, 0⟩ then a else b) with
  | some m => m ⟨.var 0, 0⟩
  | none => FieldOps.feZero

/-- The square, as a function of the operand. -/
def squareF (a : Fe51) : Fe51 :=
  match squareI (fun _ => .num 0) ⟨.var 0, 0⟩ ⟨.var 1, 0⟩ (fun _ => a) with
  | some m => m ⟨.var 0, 0⟩
  | none => FieldOps.feZero

/-- The doubled square, as a function of the operand. -/
def doubledSquareF (a : Fe51) : Fe51 :=
  match doubledSquareI (fun _ => .num 0) ⟨.var 0, 0⟩ ⟨.var 1, 0⟩ (fun _ => a) with
  | some m => m ⟨.var 0, 0⟩
  | none => FieldOps.feZero

/-- Field elements of the assembly build: the limbs of `Fe51`. -/
def FeAsm : Type := Fe51

/-- The assembly build: field_radix51.go with field_amd64.go. -/
instance : FieldOps FeAsm :=
  { (inferInstance : FieldOps Fe51) with
    mul := mulF
    square := squareF
    doubledSquare := doubledSquareF }

end Ristretto.Model.Asm
