import Verif.Model.CrefCoords
import Verif.Model.CrefApi
import Verif.Model.Loops

/-!
# The functions of cref.c on memory

Model/Cref.lean and Model/CrefApi.lean give the functions of cref.c as functions from values to values.  Here they are written again
statement by statement, on memory: every `fe25519` is a cell, which a function reads and writes through pointers; pointers may coincide, and
may point to the coordinates of points.  Local variables are cells as well and start unset: reading an unset cell is `none`.

A structure is an object whose fields are numbered in the order of the declaration: `group_ge` has x, y, z, t (cref.h:122-128),
`ge25519_p1p1` has x, z, y, t (cref.c:2029-2035), `ge25519_p2` x, y, z (cref.c:2037-2042), `ge25519_aff` x, y (cref.c:2044-2048).  The casts
between pointers to these types keep the address.

Simplified: the arithmetic of one `fe25519` is a single step (the functions in cref.c read all limbs of their arguments before they write
the first limb of the result; `fe25519_cmov` works limb by limb, each depending only on the same limb of the arguments).  Byte buffers and
scalars are values (for scalars in memory see Model/CrefLoops.lean).  Local variables of different functions have different numbers.
-/

set_option autoImplicit false

namespace Ristretto.Model.CrefPtr
open Ristretto Ristretto.Model
open Ristretto.Model.Cref (CrefOps CrefTab AffPt Sc toByte cnot Coord FeRef COut CMem)
open Ristretto.Model.Loops (forLt forDown get)

/-- A variable: a `fe25519` or a `group_ge` of the client, or local variable `k`. -/
inductive Obj
  | fe (n : Nat)
  | pt (n : Nat)
  | loc (k : Nat)
deriving DecidableEq

/-- The address of field number `off` of a variable. -/
structure Addr where
  obj : Obj
  off : Nat
deriving DecidableEq

/-- `&p->...`, by the number of the field (cref.h:122-128). -/
abbrev fld (p : Obj) (off : Nat) : Addr := ⟨p, off⟩

/-- The address of a local `fe25519`. -/
abbrev lc (k : Nat) : Addr := ⟨.loc k, 0⟩

/-- Memory: `none` is a cell that has not been set. -/
abbrev PMem (F : Type) := Addr → Option F

/-- An argument of type `const fe25519 *`: an address, or one of the constants (cref.c:602-607, 2019-2021). -/
inductive Arg (F : Type)
  | adr (a : Addr)
  | con (v : F)

instance {F : Type} : Coe Addr (Arg F) := ⟨.adr⟩

section
variable {F : Type}

/-- Load. -/
def PMem.ld (m : PMem F) : Arg F → Option F
  | .adr a => m a
  | .con v => some v

/-- Store. -/
def PMem.upd (m : PMem F) (a : Addr) (v : F) : PMem F := fun b => if b = a then some v else m b

/-- Local variables `lo..hi-1` come into existence. -/
def PMem.decl (m : PMem F) (lo hi : Nat) : PMem F := fun b =>
  match b.obj with
  | .loc k => if lo ≤ k ∧ k < hi then none else m b
  | _ => m b

/-- Assignment of a `fe25519`. -/
def copy (r : Addr) (x : Arg F) (m : PMem F) : Option (PMem F) := do some (m.upd r (← m.ld x))

/-- A function of one argument, from pointer to pointer. -/
def op1 (f : F → F) (r : Addr) (x : Arg F) (m : PMem F) : Option (PMem F) := do
  let a ← m.ld x
  some (m.upd r (f a))

/-- A function of two arguments. -/
def op2 (f : F → F → F) (r : Addr) (x y : Arg F) (m : PMem F) : Option (PMem F) := do
  let a ← m.ld x
  let b ← m.ld y
  some (m.upd r (f a b))

variable [O : CrefOps F]

/-- `fe25519_unpack` (cref.c:640-711). -/
def unpack (r : Addr) (buf : Bytes 32) (m : PMem F) : Option (PMem F) := some (m.upd r (O.unpack buf))
/-- `fe25519_pack` (cref.c:713-813). -/
def pack (x : Arg F) (m : PMem F) : Option (Bytes 32) := do some (O.pack (← m.ld x))
/-- `fe25519_setone` (cref.c:876-888). -/
def setone (r : Addr) (m : PMem F) : Option (PMem F) := some (m.upd r O.one)
/-- `fe25519_setzero` (cref.c:894-906). -/
def setzero (r : Addr) (m : PMem F) : Option (PMem F) := some (m.upd r O.zero)
/-- `fe25519_neg` (cref.c:919-951). -/
def neg (r : Addr) (x : Arg F) : PMem F → Option (PMem F) := op1 O.neg r x
/-- `fe25519_add` (cref.c:971-1013). -/
def add (r : Addr) (x y : Arg F) : PMem F → Option (PMem F) := op2 O.add r x y
/-- `fe25519_sub` (cref.c:1037-1079). -/
def sub (r : Addr) (x y : Arg F) : PMem F → Option (PMem F) := op2 O.sub r x y
/-- `fe25519_mul` (cref.c:1114-1330). -/
def mul (r : Addr) (x y : Arg F) : PMem F → Option (PMem F) := op2 O.mul r x y
/-- `fe25519_square` (cref.c:1343-1473). -/
def square (r : Addr) (x : Arg F) : PMem F → Option (PMem F) := op1 O.square r x
/-- `fe25519_square_double` (cref.c:1833-1973). -/
def squareDouble (r : Addr) (x : Arg F) : PMem F → Option (PMem F) := op1 O.squareDouble r x
/-- `fe25519_cmov` (cref.c:863-869). -/
def cmov (r : Addr) (x : Arg F) (b : UInt8) (m : PMem F) : Option (PMem F) := do
  let a ← m.ld r
  let v ← m.ld x
  some (m.upd r (O.cmov a v b))
/-- `fe25519_iszero` (cref.c:815-823). -/
def iszero (x : Arg F) (m : PMem F) : Option Int32 := do some (Cref.iszero (← m.ld x))
/-- `fe25519_isnegative` (cref.c:838-843). -/
def isnegative (x : Arg F) (m : PMem F) : Option Int32 := do some (Cref.isnegative (← m.ld x))

/-! ## Functions that call others -/

/-- `fe25519_iseq` (cref.c:845-850). -/
def iseq (x y : Arg F) (m : PMem F) : Option (Int32 × PMem F) := do
  let t : Addr := lc 0
  let m := m.decl 0 1
  let m ← sub t x y m
  let r ← iszero t m
  some (r, m)

/-- `fe25519_isone` (cref.c:825-828). -/
def isone (x : Arg F) (m : PMem F) : Option (Int32 × PMem F) := iseq x (.con O.one) m

/-- `fe25519_double` (cref.c:1016-1018). -/
def double (r : Addr) (x : Arg F) (m : PMem F) : Option (PMem F) := add r x x m

/-- `fe25519_triple` (cref.c:1020-1023). -/
def triple (r : Addr) (x : Arg F) (m : PMem F) : Option (PMem F) := do
  let m ← add r x x m
  add r r x m

/-- `fe25519_square(r,x); for (i = 1;i < n;++i) fe25519_square(r,r);` as in cref.c:1535. -/
def squares (n : Nat) (r : Addr) (x : Arg F) (m : PMem F) : Option (PMem F) := do
  let m ← square r x m
  forLt 1 n 1 (fun _ m => square r r m) m

/-- `fe25519_invert` (cref.c:1476-1646). -/
def invert (out z : Addr) (m : PMem F) : Option (PMem F) := do
  let t0 : Addr := lc 1
  let t1 : Addr := lc 2
  let t2 : Addr := lc 3
  let t3 : Addr := lc 4
  let m := m.decl 1 5
  let m ← squares 1 t0 z m
  let m ← squares 2 t1 t0 m
  let m ← mul t1 z t1 m
  let m ← mul t0 t0 t1 m
  let m ← squares 1 t2 t0 m
  let m ← mul t1 t1 t2 m
  let m ← squares 5 t2 t1 m
  let m ← mul t1 t2 t1 m
  let m ← squares 10 t2 t1 m
  let m ← mul t2 t2 t1 m
  let m ← squares 20 t3 t2 m
  let m ← mul t2 t3 t2 m
  let m ← squares 10 t2 t2 m
  let m ← mul t1 t2 t1 m
  let m ← squares 50 t2 t1 m
  let m ← mul t2 t2 t1 m
  let m ← squares 100 t3 t2 m
  let m ← mul t2 t3 t2 m
  let m ← squares 50 t2 t2 m
  let m ← mul t1 t2 t1 m
  let m ← squares 5 t1 t1 m
  mul out t1 t0 m

/-- `fe25519_pow2523` (cref.c:1648-1817). -/
def pow2523 (out z : Addr) (m : PMem F) : Option (PMem F) := do
  let t0 : Addr := lc 5
  let t1 : Addr := lc 6
  let t2 : Addr := lc 7
  let m := m.decl 5 8
  let m ← squares 1 t0 z m
  let m ← squares 2 t1 t0 m
  let m ← mul t1 z t1 m
  let m ← mul t0 t0 t1 m
  let m ← squares 1 t0 t0 m
  let m ← mul t0 t1 t0 m
  let m ← squares 5 t1 t0 m
  let m ← mul t0 t1 t0 m
  let m ← squares 10 t1 t0 m
  let m ← mul t1 t1 t0 m
  let m ← squares 20 t2 t1 m
  let m ← mul t1 t2 t1 m
  let m ← squares 10 t1 t1 m
  let m ← mul t0 t1 t0 m
  let m ← squares 50 t1 t0 m
  let m ← mul t1 t1 t0 m
  let m ← squares 100 t2 t1 m
  let m ← mul t1 t2 t1 m
  let m ← squares 50 t1 t1 m
  let m ← mul t0 t1 t0 m
  let m ← squares 2 t0 t0 m
  mul out t0 z m

/-- `fe25519_invsqrt` (cref.c:1983-2003). -/
def invsqrt (r x : Addr) (m : PMem F) : Option (PMem F) := do
  let den2 : Addr := lc 10
  let den3 : Addr := lc 11
  let den4 : Addr := lc 12
  let den6 : Addr := lc 13
  let chk : Addr := lc 14
  let t : Addr := lc 15
  let m := m.decl 10 16
  let m ← square den2 x m
  let m ← mul den3 den2 x m
  let m ← square den4 den2 m
  let m ← mul den6 den2 den4 m
  let m ← mul t den6 x m
  let m ← pow2523 t t m
  let m ← mul t t den3 m
  let m ← square chk t m
  let m ← mul chk chk x m
  let (c, m) ← isone chk m
  let m ← if c = 0 then mul t t (.con O.sqrtm1) m else some m
  copy r t m

/-- `fe25519_sqrt` (cref.c:1976-1981). -/
def sqrt (r x : Addr) (m : PMem F) : Option (PMem F) := do
  let t : Addr := lc 16
  let m := m.decl 16 17
  let m ← invsqrt t x m
  mul r t x m

/-- `fe25519_invsqrti` (cref.c:2303-2338). -/
def invsqrti (r x : Addr) (m : PMem F) : Option (Int32 × PMem F) := do
  let den2 : Addr := lc 20
  let den3 : Addr := lc 21
  let den4 : Addr := lc 22
  let den6 : Addr := lc 23
  let chk : Addr := lc 24
  let t : Addr := lc 25
  let corr : Addr := lc 26
  let m := m.decl 20 27
  let m ← square den2 x m
  let m ← mul den3 den2 x m
  let m ← square den4 den2 m
  let m ← mul den6 den2 den4 m
  let m ← mul t den6 x m
  let m ← pow2523 t t m
  let m ← mul t t den3 m
  let m ← square chk t m
  let m ← mul chk chk x m
  let (inCaseA, m) ← isone chk m
  let (inCaseD, m) ← iseq chk (.con O.sqrtm1) m
  let m ← neg chk chk m
  let (inCaseB, m) ← isone chk m
  let m ← setone corr m
  let m ← cmov corr (.con O.sqrtm1) (toByte (inCaseB + inCaseD)) m
  let m ← mul t t corr m
  let m ← copy r t m
  some (inCaseA + inCaseB, m)

/-- `fe25519_abs` (cref.c:2281-2287). -/
def abs (x y : Addr) (m : PMem F) : Option (PMem F) := do
  let negY : Addr := lc 27
  let m := m.decl 27 28
  let m ← copy x y m
  let m ← neg negY y m
  cmov x negY (toByte (← isnegative x m)) m

/-- `fe25519_sqrti` (cref.c:2290-2300). -/
def sqrti (r x : Addr) (m : PMem F) : Option (Int32 × PMem F) := do
  let t : Addr := lc 28
  let corr : Addr := lc 29
  let m := m.decl 28 30
  let (b, m) ← invsqrti t x m
  let m ← setone corr m
  let m ← cmov corr (.con O.sqrtm1) (toByte (1 - b)) m
  let m ← mul t t corr m
  let m ← mul r t x m
  some (b, m)

/-! ## Points -/

/-- `ge25519_mixadd2` (cref.c:2057-2078). -/
def mixadd2 (r q : Obj) (m : PMem F) : Option (PMem F) := do
  let a : Addr := lc 130
  let b : Addr := lc 131
  let t1 : Addr := lc 132
  let t2 : Addr := lc 133
  let c : Addr := lc 134
  let d : Addr := lc 135
  let e : Addr := lc 136
  let f : Addr := lc 137
  let g : Addr := lc 138
  let h : Addr := lc 139
  let qt : Addr := lc 140
  let m := m.decl 130 141
  let m ← mul qt (fld q 0) (fld q 1) m
  let m ← sub a (fld r 1) (fld r 0) m
  let m ← add b (fld r 1) (fld r 0) m
  let m ← sub t1 (fld q 1) (fld q 0) m
  let m ← add t2 (fld q 1) (fld q 0) m
  let m ← mul a a t1 m
  let m ← mul b b t2 m
  let m ← sub e b a m
  let m ← add h b a m
  let m ← mul c (fld r 3) qt m
  let m ← mul c c (.con O.ec2d) m
  let m ← add d (fld r 2) (fld r 2) m
  let m ← sub f d c m
  let m ← add g d c m
  let m ← mul (fld r 0) e f m
  let m ← mul (fld r 1) h g m
  let m ← mul (fld r 2) g f m
  mul (fld r 3) e h m

/-- `p1p1_to_p2` (cref.c:2080-2085). -/
def p1p1ToP2 (r p : Obj) (m : PMem F) : Option (PMem F) := do
  let m ← mul (fld r 0) (fld p 0) (fld p 3) m
  let m ← mul (fld r 1) (fld p 2) (fld p 1) m
  mul (fld r 2) (fld p 1) (fld p 3) m

/-- `p1p1_to_p3` (cref.c:2087-2091).  The cast to `ge25519_p2 *` keeps the address. -/
def p1p1ToP3 (r p : Obj) (m : PMem F) : Option (PMem F) := do
  let m ← p1p1ToP2 r p m
  mul (fld r 3) (fld p 0) (fld p 2) m

/-- `add_p1p1` (cref.c:2093-2111). -/
def addP1p1 (r p q : Obj) (m : PMem F) : Option (PMem F) := do
  let a : Addr := lc 40
  let b : Addr := lc 41
  let c : Addr := lc 42
  let d : Addr := lc 43
  let t : Addr := lc 44
  let m := m.decl 40 45
  let m ← sub a (fld p 1) (fld p 0) m
  let m ← sub t (fld q 1) (fld q 0) m
  let m ← mul a a t m
  let m ← add b (fld p 0) (fld p 1) m
  let m ← add t (fld q 0) (fld q 1) m
  let m ← mul b b t m
  let m ← mul c (fld p 3) (fld q 3) m
  let m ← mul c c (.con O.ec2d) m
  let m ← mul d (fld p 2) (fld q 2) m
  let m ← add d d d m
  let m ← sub (fld r 0) b a m
  let m ← sub (fld r 3) d c m
  let m ← add (fld r 1) d c m
  add (fld r 2) b a m

/-- `dbl_p1p1` (cref.c:2114-2129). -/
def dblP1p1 (r p : Obj) (m : PMem F) : Option (PMem F) := do
  let a : Addr := lc 45
  let b : Addr := lc 46
  let c : Addr := lc 47
  let d : Addr := lc 48
  let m := m.decl 45 49
  let m ← square a (fld p 0) m
  let m ← square b (fld p 1) m
  let m ← squareDouble c (fld p 2) m
  let m ← neg d a m
  let m ← add (fld r 0) (fld p 0) (fld p 1) m
  let m ← square (fld r 0) (fld r 0) m
  let m ← sub (fld r 0) (fld r 0) a m
  let m ← sub (fld r 0) (fld r 0) b m
  let m ← add (fld r 1) d b m
  let m ← sub (fld r 3) (fld r 1) c m
  sub (fld r 2) d b m

/-- `group_ge_add` (cref.c:2401-2406). -/
def geAdd (r x y : Obj) (m : PMem F) : Option (PMem F) := do
  let t : Obj := .loc 50
  let m := m.decl 50 51
  let m ← addP1p1 t x y m
  p1p1ToP3 r t m

/-- `group_ge_double` (cref.c:2408-2413).  The cast to `ge25519_p2 *` keeps the address. -/
def geDouble (r x : Obj) (m : PMem F) : Option (PMem F) := do
  let t : Obj := .loc 51
  let m := m.decl 51 52
  let m ← dblP1p1 t x m
  p1p1ToP3 r t m

/-- `group_ge_negate` (cref.c:2415-2421). -/
def geNeg (r x : Obj) (m : PMem F) : Option (PMem F) := do
  let m ← neg (fld r 0) (fld x 0) m
  let m ← copy (fld r 1) (fld x 1) m
  let m ← copy (fld r 2) (fld x 2) m
  neg (fld r 3) (fld x 3) m

/-- `group_ge_unpack` (cref.c:2206-2278). -/
def geUnpack (r : Obj) (x : Bytes 32) (m : PMem F) : Option (Int32 × PMem F) := do
  let s : Addr := lc 60
  let s2 : Addr := lc 61
  let chk : Addr := lc 62
  let yden : Addr := lc 63
  let ynum : Addr := lc 64
  let yden2 : Addr := lc 65
  let xden2 : Addr := lc 66
  let isr : Addr := lc 67
  let xdeninv : Addr := lc 68
  let ydeninv : Addr := lc 69
  let t : Addr := lc 70
  let m := m.decl 60 71
  let m ← unpack s x m
  let ret ← isnegative s m
  let m ← square s2 s m
  let m ← add yden (.con O.one) s2 m
  let m ← sub ynum (.con O.one) s2 m
  let m ← square yden2 yden m
  let m ← square xden2 ynum m
  let m ← mul xden2 xden2 (.con O.ecd) m
  let m ← add xden2 xden2 yden2 m
  let m ← neg xden2 xden2 m
  let m ← mul t xden2 yden2 m
  let m ← invsqrt isr t m
  let m ← square chk isr m
  let m ← mul chk chk t m
  let (c, m) ← isone chk m
  let ret := ret ||| cnot c
  let m ← mul xdeninv isr yden m
  let m ← mul ydeninv xdeninv isr m
  let m ← mul ydeninv ydeninv xden2 m
  let m ← mul (fld r 0) s xdeninv m
  let m ← double (fld r 0) (fld r 0) m
  let b := toByte (← isnegative (fld r 0) m)
  let m ← neg t (fld r 0) m
  let m ← cmov (fld r 0) t b m
  let m ← mul (fld r 1) ynum ydeninv m
  let m ← copy (fld r 2) (.con O.one) m
  let m ← mul (fld r 3) (fld r 0) (fld r 1) m
  let ret := ret ||| (← isnegative (fld r 3) m)
  let ret := ret ||| (← iszero (fld r 1) m)
  let m ← cmov (fld r 0) (.con O.zero) (toByte ret) m
  let m ← cmov (fld r 1) (.con O.zero) (toByte ret) m
  let m ← cmov (fld r 2) (.con O.zero) (toByte ret) m
  let m ← cmov (fld r 3) (.con O.zero) (toByte ret) m
  some (-ret, m)

/-- `group_ge_pack` (cref.c:2341-2399): the contents of the buffer. -/
def gePack (x : Obj) (m : PMem F) : Option (Bytes 32) := do
  let d : Addr := lc 80
  let u1 : Addr := lc 81
  let u2 : Addr := lc 82
  let isr : Addr := lc 83
  let i1 : Addr := lc 84
  let i2 : Addr := lc 85
  let zinv : Addr := lc 86
  let deninv : Addr := lc 87
  let nx : Addr := lc 88
  let ny : Addr := lc 89
  let s : Addr := lc 90
  let m := m.decl 80 91
  let m ← add d (fld x 2) (fld x 1) m
  let m ← sub u1 (fld x 2) (fld x 1) m
  let m ← mul u1 u1 d m
  let m ← mul u2 (fld x 0) (fld x 1) m
  let m ← square isr u2 m
  let m ← mul isr isr u1 m
  let m ← invsqrt isr isr m
  let m ← mul i1 isr u1 m
  let m ← mul i2 isr u2 m
  let m ← mul zinv i1 i2 m
  let m ← mul zinv zinv (fld x 3) m
  let m ← mul d zinv (fld x 3) m
  let b := toByte (cnot (← isnegative d m))
  let m ← mul nx (fld x 1) (.con O.sqrtm1) m
  let m ← mul ny (fld x 0) (.con O.sqrtm1) m
  let m ← mul deninv (.con O.magic) i1 m
  let m ← cmov nx (fld x 0) b m
  let m ← cmov ny (fld x 1) b m
  let m ← cmov deninv i2 b m
  let m ← mul d nx zinv m
  let b := toByte (← isnegative d m)
  let m ← neg d ny m
  let m ← cmov ny d b m
  let m ← sub s (fld x 2) ny m
  let m ← mul s s deninv m
  let b := toByte (← isnegative s m)
  let m ← neg d s m
  let m ← cmov s d b m
  pack s m

/-- `group_ge_from_jacobi_quartic` (cref.c:2571-2592). -/
def fromJacobiQuartic (x : Obj) (s t : Addr) (m : PMem F) : Option (PMem F) := do
  let res : Obj := .loc 100
  let s2 : Addr := lc 101
  let m := m.decl 100 102
  let m ← square s2 s m
  let m ← double (fld res 0) s m
  let m ← mul (fld res 0) (fld res 0) (.con O.magic) m
  let m ← copy (fld res 1) t m
  let m ← sub (fld res 2) (.con O.one) s2 m
  let m ← add (fld res 3) (.con O.one) s2 m
  p1p1ToP3 x res m

/-- `group_ge_elligator` (cref.c:2596-2649). -/
def geElligator (x : Obj) (r0 : Addr) (m : PMem F) : Option (PMem F) := do
  let r : Addr := lc 110
  let rPlusD : Addr := lc 111
  let rPlusOne : Addr := lc 112
  let ecd2 : Addr := lc 113
  let D : Addr := lc 114
  let N : Addr := lc 115
  let ND : Addr := lc 116
  let sqrt : Addr := lc 117
  let twiddle : Addr := lc 118
  let sgn : Addr := lc 119
  let s : Addr := lc 120
  let t : Addr := lc 121
  let dMinusOneSquared : Addr := lc 122
  let rSubOne : Addr := lc 123
  let r0i : Addr := lc 124
  let sNeg : Addr := lc 125
  let m := m.decl 110 126
  let m ← mul r0i r0 (.con O.sqrtm1) m
  let m ← mul r r0 r0i m
  let m ← add rPlusD (.con O.ecd) r m
  let m ← mul D (.con O.ecd) r m
  let m ← add D D (.con O.one) m
  let m ← mul D D rPlusD m
  let m ← neg D D m
  let m ← square ecd2 (.con O.ecd) m
  let m ← sub N ecd2 (.con O.one) m
  let m ← neg N N m
  let m ← add rPlusOne r (.con O.one) m
  let m ← mul N N rPlusOne m
  let m ← mul ND N D m
  let (b, m) ← invsqrti sqrt ND m
  let m ← abs sqrt sqrt m
  let m ← setone twiddle m
  let m ← cmov twiddle r0i (toByte (1 - b)) m
  let m ← setone sgn m
  let m ← cmov sgn (.con O.m1) (toByte (1 - b)) m
  let m ← mul sqrt sqrt twiddle m
  let m ← mul s sqrt N m
  let m ← neg t sgn m
  let m ← mul t sqrt t m
  let m ← mul t s t m
  let m ← sub dMinusOneSquared (.con O.ecd) (.con O.one) m
  let m ← square dMinusOneSquared dMinusOneSquared m
  let m ← mul t dMinusOneSquared t m
  let m ← sub rSubOne r (.con O.one) m
  let m ← mul t rSubOne t m
  let m ← sub t t (.con O.one) m
  let m ← neg sNeg s m
  let m ← cmov s sNeg (if (← isnegative s m) = b then 1 else 0) m
  fromJacobiQuartic x s t m

/-- `group_ge_equals` (cref.c:2482-2498). -/
def geEquals (x y : Obj) (m : PMem F) : Option (Int32 × PMem F) := do
  let x1y2 : Addr := lc 200
  let x2y1 : Addr := lc 201
  let x1x2 : Addr := lc 202
  let y1y2 : Addr := lc 203
  let m := m.decl 200 204
  let m ← mul x1y2 (fld x 0) (fld y 1) m
  let m ← mul x2y1 (fld y 0) (fld x 1) m
  let (r, m) ← iseq x1y2 x2y1 m
  let m ← mul x1x2 (fld x 0) (fld y 0) m
  let m ← mul y1y2 (fld x 1) (fld y 1) m
  let (r1, m) ← iseq x1x2 y1y2 m
  let r := r ||| r1
  some (r, m)

/-- `group_ge_isneutral` (cref.c:2500-2513). -/
def geIsNeutral (x : Obj) (m : PMem F) : Option (Int32 × PMem F) := do
  let t : Obj := .loc 204
  let m := m.decl 204 205
  let m ← geDouble t x m
  let m ← geDouble t t m
  let m ← geDouble t t m
  let r := 1 - (← iszero (fld t 0) m)
  let (c, m) ← iseq (fld t 1) (fld t 2) m
  let r := r ||| (1 - c)
  some (1 - r, m)

/-- Assignment of a `group_ge` constant, as in cref.c:2440. -/
def setPt (r : Obj) (v : ExtPt F) (m : PMem F) : PMem F :=
  (((m.upd (fld r 0) v.X).upd (fld r 1) v.Y).upd (fld r 2) v.Z).upd (fld r 3) v.T

/-- Assignment of a `group_ge`, as in cref.c:2176. -/
def copyPt (r x : Obj) (m : PMem F) : Option (PMem F) := do
  let X ← m (fld x 0)
  let Y ← m (fld x 1)
  let Z ← m (fld x 2)
  let T ← m (fld x 3)
  some (setPt r ⟨X, Y, Z, T⟩ m)

/-! ## Scalar multiplication -/

/-- `cmov_aff` (cref.c:2132-2136) with an entry of the constant table. -/
def cmovAff (r : Obj) (p : AffPt F) (b : UInt8) (m : PMem F) : Option (PMem F) := do
  let m ← cmov (fld r 0) (.con p.x) b m
  cmov (fld r 1) (.con p.y) b m

/-- `choose_t_aff` (cref.c:2156-2166); `tab` is `ge25519_base_multiples_affine`. -/
def chooseTAff (tab : List (AffPt F)) (t : Obj) (pos : Int) (b : Int8) (m : PMem F) : Option (PMem F) := do
  let v : Addr := lc 150
  let m := m.decl 150 151
  let e ← get tab (5 * pos + 0)
  let m := (m.upd (fld t 0) e.x).upd (fld t 1) e.y
  let m ← cmovAff t (← get tab (5 * pos + 1)) (Cref.groupStaticEqual b 1 ||| Cref.groupStaticEqual b (-1)) m
  let m ← cmovAff t (← get tab (5 * pos + 2)) (Cref.groupStaticEqual b 2 ||| Cref.groupStaticEqual b (-2)) m
  let m ← cmovAff t (← get tab (5 * pos + 3)) (Cref.groupStaticEqual b 3 ||| Cref.groupStaticEqual b (-3)) m
  let m ← cmovAff t (← get tab (5 * pos + 4)) (Cref.groupStaticEqual b (-4)) m
  let m ← neg v (fld t 0) m
  cmov (fld t 0) v (Cref.negative b) m

/-- One round of the loop of `choose_t` (cref.c:2177-2184); `pre` is the number of the first local variable of the array, `j` a `signed
char`.  -/
def chooseRound (t : Obj) (pre : Nat) (b : Int8) (j : Int) (m : PMem F) : Option (PMem F) := do
  let c := Cref.groupStaticEqual b (Int8.ofInt j) ||| Cref.groupStaticEqual (-b) (Int8.ofInt j)
  let p : Obj := .loc (pre + j.toNat)
  let m ← cmov (fld t 0) (fld p 0) c m
  let m ← cmov (fld t 1) (fld p 1) c m
  let m ← cmov (fld t 2) (fld p 2) c m
  cmov (fld t 3) (fld p 3) c m

/-- `choose_t` (cref.c:2169-2189). -/
def chooseT (t : Obj) (pre : Nat) (b : Int8) (m : PMem F) : Option (PMem F) := do
  let v : Addr := lc 151
  let m := m.decl 151 152
  let m ← copyPt t (.loc pre) m
  let m ← forLt 1 17 1 (chooseRound t pre b) m
  let m ← neg v (fld t 0) m
  let m ← cmov (fld t 0) v (Cref.negative b) m
  let m ← neg v (fld t 3) m
  cmov (fld t 3) v (Cref.negative b) m

/-- One round of the loop of the precomputation (cref.c:2434-2438); `precomp[i]` is local variable `170 + i`. -/
def precompRound (i : Int) (m : PMem F) : Option (PMem F) := do
  let m ← geDouble (.loc (170 + i.toNat)) (.loc (170 + (i / 2).toNat)) m
  geAdd (.loc (170 + (i + 1).toNat)) (.loc (170 + i.toNat)) (.loc (170 + 1)) m

/-- One round of the main loop (cref.c:2441-2449) for the digit `w`. -/
def multRound (r : Obj) (w : Int8) (m : PMem F) : Option (PMem F) := do
  let t : Obj := .loc 160
  let m ← forLt 0 5 1 (fun _ m => geDouble r r m) m
  let m ← chooseT t 170 w m
  geAdd r r t m

/-- `group_ge_scalarmult` (cref.c:2423-2450).  The digits `win5` are a value (Model/CrefLoops.lean has them as an array). -/
def geScalarMult (r x : Obj) (s : Sc) (m : PMem F) : Option (PMem F) := do
  let m := m.decl 160 187
  let win5 := Cref.window5 s
  let m := setPt (.loc 170) Cref.neutral m
  let m ← copyPt (.loc (170 + 1)) x m
  let m ← forLt 2 16 2 precompRound m
  let m ← geDouble (.loc (170 + 16)) (.loc (170 + 8)) m
  let m := setPt r Cref.neutral m
  forDown 50 (fun i m => do multRound r (← get win5 i) m) m

/-- `group_ge_scalarmult_base` (cref.c:2452-2467).  The cast to `ge25519_aff *` keeps the address. -/
def geScalarMultBase (tab : List (AffPt F)) (r : Obj) (s : Sc) (m : PMem F) : Option (PMem F) := do
  let t : Obj := .loc 190
  let m := m.decl 190 191
  let b := Cref.window3 s
  let m ← chooseTAff tab r 0 (← get b 0) m
  let m ← copy (fld r 2) (.con O.one) m
  let m ← mul (fld r 3) (fld r 0) (fld r 1) m
  forLt 1 85 1 (fun i m => do
    let m ← chooseTAff tab t i (← get b i) m
    mixadd2 r t m) m

/-- One round of the loop of `group_ge_multiscalarmult` (cref.c:2475-2479). -/
def multiStep (scs : Nat → Sc) (r : Obj) (m : PMem F) (xs : Nat × Nat) : Option (PMem F) := do
  let t : Obj := .loc 192
  let m ← geScalarMult t (.pt xs.1) (scs xs.2) m
  geAdd r r t m

/-- `group_ge_multiscalarmult` (cref.c:2469-2480). -/
def geMultiScalarMult (scs : Nat → Sc) (r : Obj) (xs : List (Nat × Nat)) (m : PMem F) : Option (PMem F) := do
  let m := m.decl 192 193
  let m := setPt r Cref.neutral m
  xs.foldlM (multiStep scs r) m

/-! ## Programs -/

/-- The address a pointer of the client has (cref.go:58-72). -/
def adr : FeRef → Addr
  | .var n => ⟨.fe n, 0⟩
  | .coord g .X => ⟨.pt g, 0⟩
  | .coord g .Y => ⟨.pt g, 1⟩
  | .coord g .Z => ⟨.pt g, 2⟩
  | .coord g .T => ⟨.pt g, 3⟩

/-- A call.  Arguments of type `fe25519 *` are any pointers.  Scalars are set to any value; the functions on scalars are in
Model/CrefLoops.lean. -/
inductive QCmd
  | setSc (s : Nat) (v : Sc)
  | feUnpack (r : FeRef) (buf : Bytes 32)
  | fePack (x : FeRef)
  | feSetOne (r : FeRef)
  | feSetZero (r : FeRef)
  | feNeg (r x : FeRef)
  | feAdd (r x y : FeRef)
  | feSub (r x y : FeRef)
  | feDouble (r x : FeRef)
  | feTriple (r x : FeRef)
  | feMul (r x y : FeRef)
  | feSquare (r x : FeRef)
  | feSquareDouble (r x : FeRef)
  | feInvert (r x : FeRef)
  | fePow2523 (r x : FeRef)
  | feInvsqrt (r x : FeRef)
  | feSqrt (r x : FeRef)
  | feInvsqrti (r x : FeRef)
  | feSqrti (r x : FeRef)
  | feAbs (r x : FeRef)
  | feCmov (r x : FeRef) (b : UInt8)
  | feIsZero (x : FeRef)
  | feIsOne (x : FeRef)
  | feIsNegative (x : FeRef)
  | feIsEq (x y : FeRef)
  | geUnpack (g : Nat) (buf : Bytes 32)
  | gePack (g : Nat)
  | geFromJacobiQuartic (g : Nat) (s t : FeRef)
  | geElligator (g : Nat) (f : FeRef)
  | geNeg (g x : Nat)
  | geAdd (g x y : Nat)
  | geDouble (g x : Nat)
  | geScalarMult (g x s : Nat)
  | geScalarMultBase (g s : Nat)
  | geMultiScalarMult (g : Nat) (xs : List (Nat × Nat))
  | geEquals (x y : Nat)
  | geIsNeutral (x : Nat)

variable [T : CrefTab F]

/-- The state: memory and the scalars. -/
structure PState (F : Type) where
  mem : PMem F
  scs : Nat → Sc

/-- One call. -/
def pexec (st : PState F) : QCmd → Option (PState F × COut)
  | .setSc s v => some ({ st with scs := fun k => if k = s then v else st.scs k }, .unit)
  | .feUnpack r buf => do some ({ st with mem := ← unpack (adr r) buf st.mem }, .unit)
  | .fePack x => do some (st, .bytes (← pack (adr x) st.mem))
  | .feSetOne r => do some ({ st with mem := ← setone (adr r) st.mem }, .unit)
  | .feSetZero r => do some ({ st with mem := ← setzero (adr r) st.mem }, .unit)
  | .feNeg r x => do some ({ st with mem := ← neg (adr r) (adr x) st.mem }, .unit)
  | .feAdd r x y => do some ({ st with mem := ← add (adr r) (adr x) (adr y) st.mem }, .unit)
  | .feSub r x y => do some ({ st with mem := ← sub (adr r) (adr x) (adr y) st.mem }, .unit)
  | .feDouble r x => do some ({ st with mem := ← double (adr r) (adr x) st.mem }, .unit)
  | .feTriple r x => do some ({ st with mem := ← triple (adr r) (adr x) st.mem }, .unit)
  | .feMul r x y => do some ({ st with mem := ← mul (adr r) (adr x) (adr y) st.mem }, .unit)
  | .feSquare r x => do some ({ st with mem := ← square (adr r) (adr x) st.mem }, .unit)
  | .feSquareDouble r x => do some ({ st with mem := ← squareDouble (adr r) (adr x) st.mem }, .unit)
  | .feInvert r x => do some ({ st with mem := ← invert (adr r) (adr x) st.mem }, .unit)
  | .fePow2523 r x => do some ({ st with mem := ← pow2523 (adr r) (adr x) st.mem }, .unit)
  | .feInvsqrt r x => do some ({ st with mem := ← invsqrt (adr r) (adr x) st.mem }, .unit)
  | .feSqrt r x => do some ({ st with mem := ← sqrt (adr r) (adr x) st.mem }, .unit)
  | .feInvsqrti r x => do
    let (i, m) ← invsqrti (adr r) (adr x) st.mem
    some ({ st with mem := m }, .int i)
  | .feSqrti r x => do
    let (i, m) ← sqrti (adr r) (adr x) st.mem
    some ({ st with mem := m }, .int i)
  | .feAbs r x => do some ({ st with mem := ← abs (adr r) (adr x) st.mem }, .unit)
  | .feCmov r x b => do some ({ st with mem := ← cmov (adr r) (adr x) b st.mem }, .unit)
  | .feIsZero x => do some (st, .int (← iszero (adr x) st.mem))
  | .feIsOne x => do
    let (i, m) ← isone (adr x) st.mem
    some ({ st with mem := m }, .int i)
  | .feIsNegative x => do some (st, .int (← isnegative (adr x) st.mem))
  | .feIsEq x y => do
    let (i, m) ← iseq (adr x) (adr y) st.mem
    some ({ st with mem := m }, .int i)
  | .geUnpack g buf => do
    let (i, m) ← geUnpack (.pt g) buf st.mem
    some ({ st with mem := m }, .int i)
  | .gePack g => do some (st, .bytes (← gePack (.pt g) st.mem))
  | .geFromJacobiQuartic g s t => do some ({ st with mem := ← fromJacobiQuartic (.pt g) (adr s) (adr t) st.mem }, .unit)
  | .geElligator g f => do some ({ st with mem := ← geElligator (.pt g) (adr f) st.mem }, .unit)
  | .geNeg g x => do some ({ st with mem := ← geNeg (.pt g) (.pt x) st.mem }, .unit)
  | .geAdd g x y => do some ({ st with mem := ← geAdd (.pt g) (.pt x) (.pt y) st.mem }, .unit)
  | .geDouble g x => do some ({ st with mem := ← geDouble (.pt g) (.pt x) st.mem }, .unit)
  | .geScalarMult g x s => do some ({ st with mem := ← geScalarMult (.pt g) (.pt x) (st.scs s) st.mem }, .unit)
  | .geScalarMultBase g s => do some ({ st with mem := ← geScalarMultBase T.tab (.pt g) (st.scs s) st.mem }, .unit)
  | .geMultiScalarMult g xs => do some ({ st with mem := ← geMultiScalarMult st.scs (.pt g) xs st.mem }, .unit)
  | .geEquals x y => do
    let (i, m) ← geEquals (.pt x) (.pt y) st.mem
    some ({ st with mem := m }, .int i)
  | .geIsNeutral x => do
    let (i, m) ← geIsNeutral (.pt x) st.mem
    some ({ st with mem := m }, .int i)

/-- A program. -/
def prun : PState F → List QCmd → Option (PState F × List COut)
  | st, [] => some (st, [])
  | st, c :: cs => do
    let r ← pexec st c
    let rs ← prun r.1 cs
    some (rs.1, r.2 :: rs.2)

end

end Ristretto.Model.CrefPtr
