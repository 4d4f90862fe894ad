import Verif.Model.Asm

/-!
# What the amd64 assembly reveals

The memory accesses of field_amd64.s, in the order in which they are made.  The instruction set of the file has no
jumps; the accesses are what an observer of control flow and memory sees (the time an instruction takes is not modelled).
-/

namespace Ristretto.Model.Asm
open Ristretto.Model.Alias

/-- An access: whether it writes, the field element, and the limb. -/
structure Access where
  write : Bool
  addr : Addr
  limb : Nat
deriving DecidableEq

/-- The access an instruction makes (the addressing modes of field_amd64.s). -/
def access (s : Cpu) : Instr → List Access
  | .load off base _ | .mulq off base =>
    match s.ptr base, limbIdx off with
    | some a, some i => [⟨false, a, i⟩]
    | _, _ => []
  | .store _ off base =>
    match s.ptr base, limbIdx off with
    | some a, some i => [⟨true, a, i⟩]
    | _, _ => []
  | _ => []

/-- The accesses of a sequence of instructions. -/
def trace (args : Nat → Addr) : Cpu → List Instr → List Access
  | _, [] => []
  | s, i :: is => access s i ++ match step args s i with
    | some s' => trace args s' is
    | none => []

/-- The accesses of `feMul` (field_amd64.s:7-199). -/
def feMulTrace (reg : Reg → Val) (out a b : Addr) (m : FMem) : List Access :=
  trace (fun off => if off = 0 then out else if off = 8 then a else b) ⟨reg, none, m⟩ feMulProg

/-- The accesses of `feSquare` (field_amd64.s:200-342). -/
def feSquareTrace (reg : Reg → Val) (out a : Addr) (m : FMem) : List Access :=
  trace (fun off => if off = 0 then out else a) ⟨reg, none, m⟩ feSquareProg

end Ristretto.Model.Asm
