import Verif.Model.ObliviousMachine
import Verif.Model.BaseTable
import Verif.Spec.Sha2

/-!
# The hash functions and the base table on words that nobody knows

SHA-256 and SHA-512 (`Spec/Sha2.lean`) over the expressions of `Model/Oblivious.lean`.  The code calls those of Go's standard library (ristretto.go:205,251,288,326,
scalar.go:384,400).
-/

namespace Ristretto.Model.Obl
set_option autoImplicit false
open Sha2

instance {t : Ty} : Inhabited (Sx t) := ⟨.lit (t.ops.ofNat 0)⟩

/-- The words of SHA-256 (compare `Sha2.ops32`). -/
def sops32 : WordOps UInt32 U8 U32 where
  byte := fun b => .lit b
  const := fun c => .lit c
  ofBytes := fun l => l.foldl (fun a b => (a <<< 8) ||| b.toUInt32) 0
  toBytes := fun w => [(w >>> 24).toUInt8, (w >>> 16).toUInt8, (w >>> 8).toUInt8, w.toUInt8]
  add := (· + ·)
  and := (· &&& ·)
  xor := (· ^^^ ·)
  not := fun a => a ^^^ 0xffffffff
  rotr := fun a n => (a >>> n) ||| (a <<< (32 - n))
  shr := fun a n => a >>> n

/-- The words of SHA-512 (compare `Sha2.ops64`). -/
def sops64 : WordOps UInt64 U8 U64 where
  byte := fun b => .lit b
  const := fun c => .lit c
  ofBytes := fun l => l.foldl (fun a b => (a <<< 8) ||| b.toUInt64) 0
  toBytes := fun w => [(w >>> 56).toUInt8, (w >>> 48).toUInt8, (w >>> 40).toUInt8, (w >>> 32).toUInt8, (w >>> 24).toUInt8,
    (w >>> 16).toUInt8, (w >>> 8).toUInt8, w.toUInt8]
  add := (· + ·)
  and := (· &&& ·)
  xor := (· ^^^ ·)
  not := fun a => a ^^^ 0xffffffffffffffff
  rotr := fun a n => (a >>> n) ||| (a <<< (64 - n))
  shr := fun a n => a >>> n

/-- `crypto/sha256.Sum256`. -/
def sha256S (l : List U8) : SBytes 32 := Vector.ofFn fun i => (hash sops32 params256 l).getD i.val 0
/-- `crypto/sha512.Sum512`. -/
def sha512S (l : List U8) : SBytes 64 := Vector.ofFn fun i => (hash sops64 params512 l).getD i.val 0

/-- A field element whose limbs are constants. -/
def feLits (a : Fe51) : FeS := ⟨.lit a.l0, .lit a.l1, .lit a.l2, .lit a.l3, .lit a.l4⟩

/-- The hash functions and the table of table_radix51.go, whose entries are constants. -/
def goSEnv : SEnv FeS where
  sha256 := sha256S
  sha512 := sha512S
  baseTab := baseTable.map (·.map fun e => ⟨feLits e.YPlusX, feLits e.YMinusX, feLits e.XY2D⟩)

end Ristretto.Model.Obl
