import Verif.Model.Oblivious25
import Verif.Spec.Timing

/-!
# Vocabulary of C79: the values of expressions

How the words nobody knows (`Name`) are the words of the memory a program starts from and of the arguments of its calls, and what the value of
a symbolic memory and of a symbolic result is.
-/

namespace Ristretto
open Model Model.Obl
set_option autoImplicit false

/-- The byte arguments of a call. -/
def argBytes : Cmd → List UInt8
  | .pSetBytes _ b | .pSetElligator _ b | .pRand _ b | .sSetBytes _ b | .sSetBytesStrict _ b => b.toList
  | .pSetLizard _ b | .pLizardInto _ b => b.toList
  | .sSetReduced _ b | .sRand _ b => b.toList
  | .pDerive _ l | .pDeriveDalek _ l | .pUnmarshalBinary _ l | .sDerive _ l | .sDeriveShort _ l | .sUnmarshalBinary _ l => l
  | _ => []

/-- The flag given to `ConditionalSet`. -/
def argBit : Cmd → Int32
  | .pCondSet _ _ b | .sCondSet _ _ b => bit b
  | _ => 0

/-- The number given to `SetUint64`. -/
def argNum : Cmd → UInt64
  | .sSetUint64 _ x => x
  | _ => 0

/-- How field elements `K` over expressions stand for field elements `F`. -/
class Sym (K : Type) (F : outParam Type) where
  /-- the value of a field element nobody knows -/
  val : ((t : Ty) → Name → t.Val) → K → F
  /-- limb `l` of a field element; of another type than that of the limbs it is zero -/
  limb : F → (t : Ty) → Nat → t.Val

/-- Five limbs of type `uint64`. -/
instance : Sym FeS Fe51 where
  val := fun ρ a => ⟨ev ρ a.l0, ev ρ a.l1, ev ρ a.l2, ev ρ a.l3, ev ρ a.l4⟩
  limb := fun a => fun
    | .u64, 0 => a.l0
    | .u64, 1 => a.l1
    | .u64, 2 => a.l2
    | .u64, 3 => a.l3
    | .u64, 4 => a.l4
    | t, _ => t.ops.ofNat 0

/-- Ten limbs of type `int32`. -/
instance : Sym FeT Fe25 where
  val := fun ρ a => ⟨ev ρ a.l0, ev ρ a.l1, ev ρ a.l2, ev ρ a.l3, ev ρ a.l4, ev ρ a.l5, ev ρ a.l6, ev ρ a.l7, ev ρ a.l8, ev ρ a.l9⟩
  limb := fun a => fun
    | .i32, 0 => a.l0
    | .i32, 1 => a.l1
    | .i32, 2 => a.l2
    | .i32, 3 => a.l3
    | .i32, 4 => a.l4
    | .i32, 5 => a.l5
    | .i32, 6 => a.l6
    | .i32, 7 => a.l7
    | .i32, 8 => a.l8
    | .i32, 9 => a.l9
    | t, _ => t.ops.ofNat 0

/-- Coordinate `c` of a point. -/
def coord {F : Type} (p : ExtPt F) : Nat → F
  | 0 => p.X
  | 1 => p.Y
  | 2 => p.Z
  | _ => p.T

/-- Coordinate `c` of a table entry. -/
def ncoord {F : Type} (p : NielsPt F) : Nat → F
  | 0 => p.YPlusX
  | 1 => p.YMinusX
  | _ => p.XY2D

section
variable (K : Type) {F : Type} [FieldOps F] [Sym K F]

/-- The words of the memory `m` a program starts from and of the arguments of its calls `prog`. -/
def words (m : Mem F) (prog : List Cmd) : (t : Ty) → Name → t.Val
  | t, .pt p c l => Sym.limb K (coord (m.pts p) c) t l
  | .u32, .sc s w => (m.scs s).toList.getD w 0
  | t, .tab k i j c l => Sym.limb K (ncoord (((m.tabs k).getD i []).getD j NielsPt.zero) c) t l
  | .u8, .arg k j => (argBytes (prog.getD k (.pZero 0))).getD j 0
  | .i32, .arg k _ => argBit (prog.getD k (.pZero 0))
  | .u64, .arg k _ => argNum (prog.getD k (.pZero 0))
  | t, _ => t.ops.ofNat 0

end

variable (ρ : (t : Ty) → Name → t.Val)

section
variable {K F : Type} [Sym K F]

/-- The value of a point. -/
def valPt (p : ExtPt K) : ExtPt F := ⟨Sym.val ρ p.X, Sym.val ρ p.Y, Sym.val ρ p.Z, Sym.val ρ p.T⟩
/-- The value of a table entry. -/
def valNp (p : NielsPt K) : NielsPt F := ⟨Sym.val ρ p.YPlusX, Sym.val ρ p.YMinusX, Sym.val ρ p.XY2D⟩

/-- The values of the contents of the variables. -/
def valMem (m : SMem K) : Mem F where
  pts := fun p => valPt ρ (m.pts p)
  scs := fun s => (m.scs s).map (ev ρ)
  tabs := fun t => (m.tabs t).map (·.map (valNp ρ))

end

/-- The value of a result. -/
def valOut : SOut → Out
  | .unit => .unit
  | .bool b => .bool b
  | .isZero x => .bool ((ev ρ x : Int32) == 0)
  | .isOne x => .bool ((ev ρ x : Int32) == 1)
  | .same x y => .bool (decide ((x.map (ev ρ) : Scalar) = y.map (ev ρ)))
  | .int32 x => .int32 (ev ρ x)
  | .bytes l => .bytes (l.map (ev ρ))
  | .lizardInto buf n =>
    if (ev ρ n : UInt8) = 1 then .lizardInto .nil (some (buf.map (ev ρ)))
    else if (ev ρ n : UInt8) = 0 then .lizardInto .noPreimage (some (buf.map (ev ρ)))
    else .lizardInto .multiple none

/-- The two pairs of hash functions agree, and the tables of the base point too. -/
structure SameEnv {K F : Type} [FieldOps F] [Sym K F] (e : SEnv K) (e' : Env F) : Prop where
  sha256 : ∀ (ρ : (t : Ty) → Name → t.Val) (l : List U8), (e.sha256 l).map (ev ρ) = e'.sha256 (l.map (ev ρ))
  sha512 : ∀ (ρ : (t : Ty) → Name → t.Val) (l : List U8), (e.sha512 l).map (ev ρ) = e'.sha512 (l.map (ev ρ))
  baseTab : ∀ (ρ : (t : Ty) → Name → t.Val), e.baseTab.map (·.map (valNp ρ)) = e'.baseTab

end Ristretto
