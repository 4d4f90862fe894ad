import Verif.Model.Asm

/-!
# The registers after a call of the amd64 assembly

Go reserves BP for the frame pointer of the caller.  The assembler saves and restores it in functions that have a frame; the functions of
field_amd64.s have none (`$0`, field_amd64.s:6, 200) and no instruction that would do it.
-/

namespace Ristretto.Model.Asm
open Ristretto.Model.Alias
set_option autoImplicit false

/-- Registers and memory after `feMul(out, a, b)` (field_amd64.s:6-197). -/
def feMulCpu (reg : Reg → Val) (out a b : Addr) (m : FMem) : Option Cpu :=
  exec (fun off => if off = 0 then out else if off = 8 then a else b) ⟨reg, none, m⟩ feMulProg

/-- Registers and memory after `feSquare(out, a)` (field_amd64.s:200-342). -/
def feSquareCpu (reg : Reg → Val) (out a : Addr) (m : FMem) : Option Cpu :=
  exec (fun off => if off = 0 then out else a) ⟨reg, none, m⟩ feSquareProg

end Ristretto.Model.Asm
