import Verif.Model.CrefField
import Verif.Model.Curve

/-!
# The group of the C reference implementation (cref/cref.go, cref/cref.c)

Everything that the exported functions of package `cref` reach.  `CrefOps` lists the field functions of cref.c that
are written on limbs (Model/CrefField); the other functions are written once against that list.  A C `int` is an
`Int32`, `unsigned char` a `UInt8`, `signed char` and `char` an `Int8`.  Results are computed into local variables
before any output is written, so that outputs may alias inputs: each function is modelled by the value it writes.
-/

namespace Ristretto.Model.Cref

/-- The limb-level part of fe25519.c and the constants of cref.c. -/
class CrefOps (F : Type) where
  /-- `fe25519_zero`, `fe25519_one`, `fe25519_sqrtm1`, `fe25519_m1` (cref.c:602-607) -/
  zero : F
  one : F
  sqrtm1 : F
  m1 : F
  /-- `ge25519_ecd`, `ge25519_ec2d`, `ge25519_magic` (cref.c:2019-2021) -/
  ecd : F
  ec2d : F
  magic : F
  add : F → F → F
  sub : F → F → F
  neg : F → F
  mul : F → F → F
  square : F → F
  squareDouble : F → F
  cmov : F → F → UInt8 → F
  pack : F → Bytes 32
  unpack : Bytes 32 → F

/-- The functions and constants of cref.c. -/
instance : CrefOps Fe25 where
  zero := ⟨0, 0, 0, 0, 0, 0, 0, 0, 0, 0⟩
  one := ⟨1, 0, 0, 0, 0, 0, 0, 0, 0, 0⟩
  sqrtm1 := ⟨-32595792, -7943725, 9377950, 3500415, 12389472, -272473, -25146209, -2005654, 326686, 11406482⟩
  m1 := ⟨-1, 0, 0, 0, 0, 0, 0, 0, 0, 0⟩
  ecd := ⟨-10913610, 13857413, -15372611, 6949391, 114729, -8787816, -6275908, -3247719, -18696448, -12055116⟩
  ec2d := ⟨-21827239, -5839606, -30745221, 13898782, 229458, 15978800, -12551817, -6495438, 29715968, 9444199⟩
  magic := ⟨-6111485, -4156064, 27798727, -12243468, 25904040, -120897, -20826367, 7060776, -6093568, 1986012⟩
  add := Cref.add
  sub := Cref.sub
  neg := Cref.neg
  mul := Cref.mul
  square := Cref.square
  squareDouble := Cref.squareDouble
  cmov := Cref.cmov
  pack := Cref.pack
  unpack := Cref.unpack

/-- C's `!x`. -/
def cnot (x : Int32) : Int32 := if x = 0 then 1 else 0

/-- `fe25519_c_static_equal` (cref.c:610-616). -/
def staticEqual (a b : UInt32) : UInt32 :=
  let x := a ^^^ b
  let x := x - 1
  let x := x >>> 31
  x

section
variable {F : Type} [O : CrefOps F]

/-- `fe25519_iszero` (cref.c:815-823). -/
def iszero (f : F) : Int32 :=
  let s := O.pack f
  let r := s.toList.foldl (fun (r : Int32) b => (r.toUInt32 ||| (1 - staticEqual 0 b.toUInt32)).toInt32) 0
  1 - r

/-- `fe25519_iseq` (cref.c:845-850). -/
def iseq (x y : F) : Int32 :=
  let t := O.sub x y
  iszero t

/-- `fe25519_isone` (cref.c:825-828). -/
def isone (x : F) : Int32 := iseq x O.one

/-- `fe25519_isnegative` (cref.c:838-843). -/
def isnegative (f : F) : Int32 :=
  let s := O.pack f
  (s[0] &&& 1).toUInt32.toInt32

/-- `fe25519_double` (cref.c:1016-1018). -/
def fdouble (x : F) : F := O.add x x

/-- `fe25519_square(&t,&t)` `n` times. -/
def sqN : Nat → F → F
  | 0, t => t
  | n + 1, t => sqN n (O.square t)

/-- `fe25519_pow2523` (cref.c:1648-1817). -/
def pow2523 (z : F) : F :=
  let t0 := O.square z
  let t1 := sqN 2 t0
  let t1 := O.mul z t1
  let t0 := O.mul t0 t1
  let t0 := O.square t0
  let t0 := O.mul t1 t0
  let t1 := sqN 5 t0
  let t0 := O.mul t1 t0
  let t1 := sqN 10 t0
  let t1 := O.mul t1 t0
  let t2 := sqN 20 t1
  let t1 := O.mul t2 t1
  let t1 := sqN 10 t1
  let t0 := O.mul t1 t0
  let t1 := sqN 50 t0
  let t1 := O.mul t1 t0
  let t2 := sqN 100 t1
  let t1 := O.mul t2 t1
  let t1 := sqN 50 t1
  let t0 := O.mul t1 t0
  let t0 := sqN 2 t0
  O.mul t0 z

/-- `fe25519_invsqrt` (cref.c:1983-2003). -/
def invsqrt (x : F) : F :=
  let den2 := O.square x
  let den3 := O.mul den2 x
  let den4 := O.square den2
  let den6 := O.mul den2 den4
  let t := O.mul den6 x
  let t := pow2523 t
  let t := O.mul t den3
  let chk := O.square t
  let chk := O.mul chk x
  if isone chk = 0 then O.mul t O.sqrtm1 else t

/-- `fe25519_invsqrti` (cref.c:2303-2338): the field element written and the value returned. -/
def invsqrti (x : F) : F × Int32 :=
  let den2 := O.square x
  let den3 := O.mul den2 x
  let den4 := O.square den2
  let den6 := O.mul den2 den4
  let t := O.mul den6 x
  let t := pow2523 t
  let t := O.mul t den3
  let chk := O.square t
  let chk := O.mul chk x
  let inCaseA := isone chk
  let inCaseD := iseq chk O.sqrtm1
  let chk := O.neg chk
  let inCaseB := isone chk
  let corr := O.one
  let corr := O.cmov corr O.sqrtm1 (toByte (inCaseB + inCaseD))
  let t := O.mul t corr
  (t, inCaseA + inCaseB)

/-- `fe25519_abs` (cref.c:2281-2287). -/
def fabs (y : F) : F :=
  let x := y
  let negY := O.neg y
  O.cmov x negY (toByte (isnegative x))

/-! ## Points

`group_ge` (cref.h) has the fields of `ExtendedPoint`, `ge25519_p1p1` (cref.c:2029-2035) those of `CompletedPoint`,
`ge25519_p2` (cref.c:2037-2042) those of `ProjectivePoint`: the same structures are used. -/

/-- `group_ge_neutral` (cref.c:2022-2025). -/
def neutral : ExtPt F := ⟨O.zero, O.one, O.one, O.zero⟩

/-- `p1p1_to_p3` (cref.c:2087-2091), with `p1p1_to_p2` (cref.c:2080-2085). -/
def p1p1ToP3 (p : ComplPt F) : ExtPt F :=
  ⟨O.mul p.X p.T, O.mul p.Y p.Z, O.mul p.Z p.T, O.mul p.X p.Y⟩

/-- `add_p1p1` (cref.c:2093-2111). -/
def addP1p1 (p q : ExtPt F) : ComplPt F :=
  let a := O.sub p.Y p.X
  let t := O.sub q.Y q.X
  let a := O.mul a t
  let b := O.add p.X p.Y
  let t := O.add q.X q.Y
  let b := O.mul b t
  let c := O.mul p.T q.T
  let c := O.mul c O.ec2d
  let d := O.mul p.Z q.Z
  let d := O.add d d
  { X := O.sub b a, T := O.sub d c, Z := O.add d c, Y := O.add b a }

/-- `dbl_p1p1` (cref.c:2114-2129) of the first three coordinates of a point. -/
def dblP1p1 (p : ExtPt F) : ComplPt F :=
  let a := O.square p.X
  let b := O.square p.Y
  let c := O.squareDouble p.Z
  let d := O.neg a
  let X := O.add p.X p.Y
  let X := O.square X
  let X := O.sub X a
  let X := O.sub X b
  let Z := O.add d b
  let T := O.sub Z c
  let Y := O.sub d b
  ⟨X, Y, Z, T⟩

/-- `group_ge_add` (cref.c:2401-2406); `GroupGe.Add` (cref.go:46-48). -/
def geAdd (x y : ExtPt F) : ExtPt F := p1p1ToP3 (addP1p1 x y)

/-- `group_ge_double` (cref.c:2408-2413); `GroupGe.Double` (cref.go:50-52). -/
def geDouble (x : ExtPt F) : ExtPt F := p1p1ToP3 (dblP1p1 x)

/-- `group_ge_negate` (cref.c:2415-2421); `GroupGe.Neg` (cref.go:42-44). -/
def geNeg (x : ExtPt F) : ExtPt F := ⟨O.neg x.X, x.Y, x.Z, O.neg x.T⟩

/-- `group_ge_unpack` (cref.c:2206-2278); `GroupGe.Unpack` (cref.go:34-36): the point written and the value
returned. -/
def geUnpack (x : Bytes 32) : ExtPt F × Int32 :=
  let s : F := O.unpack x
  let ret := isnegative s
  let s2 := O.square s
  let yden := O.add O.one s2
  let ynum := O.sub O.one s2
  let yden2 := O.square yden
  let xden2 := O.square ynum
  let xden2 := O.mul xden2 O.ecd
  let xden2 := O.add xden2 yden2
  let xden2 := O.neg xden2
  let t := O.mul xden2 yden2
  let isr := invsqrt t
  let chk := O.square isr
  let chk := O.mul chk t
  let ret := ret ||| cnot (isone chk)
  let xdeninv := O.mul isr yden
  let ydeninv := O.mul xdeninv isr
  let ydeninv := O.mul ydeninv xden2
  let X := O.mul s xdeninv
  let X := fdouble X
  let b := toByte (isnegative X)
  let t := O.neg X
  let X := O.cmov X t b
  let Y := O.mul ynum ydeninv
  let Z := O.one
  let T := O.mul X Y
  let ret := ret ||| isnegative T
  let ret := ret ||| iszero Y
  (⟨O.cmov X O.zero (toByte ret), O.cmov Y O.zero (toByte ret), O.cmov Z O.zero (toByte ret),
    O.cmov T O.zero (toByte ret)⟩, -ret)

/-- `group_ge_pack` (cref.c:2341-2399); `GroupGe.Pack` (cref.go:30-32). -/
def gePack (x : ExtPt F) : Bytes 32 :=
  let d := O.add x.Z x.Y
  let u1 := O.sub x.Z x.Y
  let u1 := O.mul u1 d
  let u2 := O.mul x.X x.Y
  let isr := O.square u2
  let isr := O.mul isr u1
  let isr := invsqrt isr
  let i1 := O.mul isr u1
  let i2 := O.mul isr u2
  let zinv := O.mul i1 i2
  let zinv := O.mul zinv x.T
  let d := O.mul zinv x.T
  let b := toByte (cnot (isnegative d))
  let nx := O.mul x.Y O.sqrtm1
  let ny := O.mul x.X O.sqrtm1
  let deninv := O.mul O.magic i1
  let nx := O.cmov nx x.X b
  let ny := O.cmov ny x.Y b
  let deninv := O.cmov deninv i2 b
  let d := O.mul nx zinv
  let b := toByte (isnegative d)
  let d := O.neg ny
  let ny := O.cmov ny d b
  let s := O.sub x.Z ny
  let s := O.mul s deninv
  let b := toByte (isnegative s)
  let d := O.neg s
  let s := O.cmov s d b
  O.pack s

/-- `group_ge_from_jacobi_quartic` (cref.c:2571-2592). -/
def fromJacobiQuartic (s t : F) : ExtPt F :=
  let s2 := O.square s
  let X := fdouble s
  let X := O.mul X O.magic
  let Z := t
  let Y := O.sub O.one s2
  let T := O.add O.one s2
  p1p1ToP3 ⟨X, Y, Z, T⟩

/-- `group_ge_elligator` (cref.c:2596-2649); `GroupGe.Elligator` (cref.go:38-40). -/
def geElligator (r0 : F) : ExtPt F :=
  let r0i := O.mul r0 O.sqrtm1
  let r := O.mul r0 r0i
  let rPlusD := O.add O.ecd r
  let D := O.mul O.ecd r
  let D := O.add D O.one
  let D := O.mul D rPlusD
  let D := O.neg D
  let ecd2 := O.square O.ecd
  let N := O.sub ecd2 O.one
  let N := O.neg N
  let rPlusOne := O.add r O.one
  let N := O.mul N rPlusOne
  let ND := O.mul N D
  let sb := invsqrti ND
  let sqrt := sb.1
  let b := sb.2
  let sqrt := fabs sqrt
  let twiddle := O.one
  let twiddle := O.cmov twiddle r0i (toByte (1 - b))
  let sgn := O.one
  let sgn := O.cmov sgn O.m1 (toByte (1 - b))
  let sqrt := O.mul sqrt twiddle
  let s := O.mul sqrt N
  let t := O.neg sgn
  let t := O.mul sqrt t
  let t := O.mul s t
  let dMinusOneSquared := O.sub O.ecd O.one
  let dMinusOneSquared := O.square dMinusOneSquared
  let t := O.mul dMinusOneSquared t
  let rSubOne := O.sub r O.one
  let t := O.mul rSubOne t
  let t := O.sub t O.one
  let sNeg := O.neg s
  let s := O.cmov s sNeg (if isnegative s = b then 1 else 0)
  fromJacobiQuartic s t

end

/-! ## Scalars -/

/-- `group_scalar` (cref.h): 32 digits of `crypto_uint32` in radix 256. -/
abbrev Sc := Vector UInt32 32

/-- The constant `m`, the order of the group (cref.c:9-10). -/
def mOrder : List UInt32 :=
  [0xED, 0xD3, 0xF5, 0x5C, 0x1A, 0x63, 0x12, 0x58, 0xD6, 0x9C, 0xF7, 0xA2, 0xDE, 0xF9, 0xDE, 0x14,
   0x00, 0x00, 0x00, 0x00, 0x00, 0x00, 0x00, 0x00, 0x00, 0x00, 0x00, 0x00, 0x00, 0x00, 0x00, 0x10]

/-- `lt` (cref.c:15-21). -/
def lt (a b : UInt32) : UInt32 :=
  let x := a
  let x := x - b
  let x := x >>> 31
  x

/-- The first loop of `reduce_add_sub` (cref.c:33-39) on the digits of `r` and `m`: the bytes `t` and the last
`b`. -/
def subLoop : UInt32 → List (UInt32 × UInt32) → List UInt8 × UInt32
  | pb, [] => ([], pb)
  | pb, (r, mi) :: rest =>
    let pb := pb + mi
    let b := lt r pb
    let t := (r - pb + (b <<< 8)).toUInt8
    let ts := subLoop b rest
    (t :: ts.1, ts.2)

/-- `reduce_add_sub` (cref.c:24-43). -/
def reduceAddSub (r : Sc) : Sc :=
  let tb := subLoop 0 (r.toList.zip mOrder)
  let mask := tb.2 - 1
  Vector.ofFn fun i => r[i] ^^^ (mask &&& (r[i] ^^^ (tb.1.getD i 0).toUInt32))

/-- `group_scalar_unpack` (cref.c:96-104); `GroupScalar.Unpack` (cref.go:78-80): the digits written. -/
def scUnpack (x : Bytes 32) : Sc :=
  let v : Sc := x.map UInt8.toUInt32
  let v := v.set 31 (v[31] &&& 0x1f)
  reduceAddSub v

/-- `group_scalar_pack` (cref.c:106-111); `GroupScalar.Pack` (cref.go:82-84): the bytes written. -/
def scPack (v : Sc) : Bytes 32 := v.map UInt32.toUInt8

/-- The conversion of a `crypto_uint32` to `signed char`. -/
def i8 (x : UInt32) : Int8 := x.toUInt8.toInt8

/-- One round `i` of the first loop of `scalar_window5` (cref.c:504-518): eight digits from `v[5i..5i+4]`.  The
exclusive or is on `signed char`. -/
def window5Chunk (a b c d e : UInt32) : List Int8 :=
  [ i8 (a &&& 31),
    i8 ((a >>> 5) &&& 31) ^^^ i8 ((b <<< 3) &&& 31),
    i8 ((b >>> 2) &&& 31),
    i8 ((b >>> 7) &&& 31) ^^^ i8 ((c <<< 1) &&& 31),
    i8 ((c >>> 4) &&& 31) ^^^ i8 ((d <<< 4) &&& 31),
    i8 ((d >>> 1) &&& 31),
    i8 ((d >>> 6) &&& 31) ^^^ i8 ((e <<< 2) &&& 31),
    i8 ((e >>> 3) &&& 31) ]

/-- The unsigned digits `scalar_window5` starts from (cref.c:504-522). -/
def window5Raw (v : Sc) : List Int8 :=
  window5Chunk v[0] v[1] v[2] v[3] v[4] ++
  window5Chunk v[5] v[6] v[7] v[8] v[9] ++
  window5Chunk v[10] v[11] v[12] v[13] v[14] ++
  window5Chunk v[15] v[16] v[17] v[18] v[19] ++
  window5Chunk v[20] v[21] v[22] v[23] v[24] ++
  window5Chunk v[25] v[26] v[27] v[28] v[29] ++
  [ i8 (v[30] &&& 31),
    i8 ((v[30] >>> 5) &&& 31) ^^^ i8 ((v[31] <<< 3) &&& 31),
    i8 ((v[31] >>> 2) &&& 31) ]

/-- "Making it signed" (cref.c:525-535).  `a` is the current value of `r[i]` and the list holds `r[i+1..50]`.  (The
plain `char` variable `carry` only holds 0 and 1, so it does not matter whether it is signed.) -/
def window5Sign : Int8 → Int8 → List Int8 → List Int8
  | carry, a, [] => [a + carry]
  | carry, a, b :: rest =>
    let a := a + carry
    let b := b + (a >>> 5)
    let a := a &&& 31
    let carry := a >>> 4
    let a := a - (carry <<< 5)
    a :: window5Sign carry b rest

/-- `scalar_window5` (cref.c:500-536). -/
def window5 (v : Sc) : List Int8 :=
  match window5Raw v with
  | [] => []
  | a :: rest => window5Sign 0 a rest

/-! ## Scalar multiplication -/

/-- `group_c_static_equal` (cref.c:2138-2147). -/
def groupStaticEqual (b c : Int8) : UInt8 :=
  let ub : UInt8 := b.toUInt8
  let uc : UInt8 := c.toUInt8
  let x : UInt8 := ub ^^^ uc
  let y : UInt32 := x.toUInt32
  let y := y - 1
  let y := y >>> 31
  y.toUInt8

/-- `negative` (cref.c:2149-2154). -/
def negative (b : Int8) : UInt8 :=
  let x : UInt64 := b.toInt64.toUInt64
  let x := x >>> 63
  x.toUInt8

section
variable {F : Type} [O : CrefOps F]

/-- The four conditional moves of one round of `choose_t` (cref.c:2180-2183). -/
def cmovPt (t p : ExtPt F) (c : UInt8) : ExtPt F :=
  ⟨O.cmov t.X p.X c, O.cmov t.Y p.Y c, O.cmov t.Z p.Z c, O.cmov t.T p.T c⟩

/-- The loop `for(j=1;j<=16;j++)` of `choose_t` (cref.c:2177-2184); `rest` is `pre[j..16]`. -/
def chooseLoop (b : Int8) : Int8 → List (ExtPt F) → ExtPt F → ExtPt F
  | _, [], t => t
  | j, e :: rest, t =>
    let c := groupStaticEqual b j ||| groupStaticEqual (-b) j
    chooseLoop b (j + 1) rest (cmovPt t e c)

/-- `choose_t` (cref.c:2169-2189). -/
def chooseT (pre : List (ExtPt F)) (b : Int8) : ExtPt F :=
  let t := chooseLoop b 1 pre.tail (pre.headD neutral)
  let v := O.neg t.X
  let X := O.cmov t.X v (negative b)
  let v := O.neg t.T
  let T := O.cmov t.T v (negative b)
  ⟨X, t.Y, t.Z, T⟩

/-- The array `precomp[0..16]` of `group_ge_scalarmult` (cref.c:2431-2439). -/
def precomp (x : ExtPt F) : List (ExtPt F) :=
  let p0 := neutral
  let p1 := x
  let p2 := geDouble p1
  let p3 := geAdd p2 p1
  let p4 := geDouble p2
  let p5 := geAdd p4 p1
  let p6 := geDouble p3
  let p7 := geAdd p6 p1
  let p8 := geDouble p4
  let p9 := geAdd p8 p1
  let p10 := geDouble p5
  let p11 := geAdd p10 p1
  let p12 := geDouble p6
  let p13 := geAdd p12 p1
  let p14 := geDouble p7
  let p15 := geAdd p14 p1
  let p16 := geDouble p8
  [p0, p1, p2, p3, p4, p5, p6, p7, p8, p9, p10, p11, p12, p13, p14, p15, p16]

/-- One iteration of the main loop of `group_ge_scalarmult` (cref.c:2442-2449) with digit `w`. -/
def multStep (pre : List (ExtPt F)) (r : ExtPt F) (w : Int8) : ExtPt F :=
  let r := geDouble r
  let r := geDouble r
  let r := geDouble r
  let r := geDouble r
  let r := geDouble r
  let t := chooseT pre w
  geAdd r t

/-- `group_ge_scalarmult` (cref.c:2423-2450); `GroupGe.ScalarMult` (cref.go:54-56). -/
def geScalarMult (x : ExtPt F) (s : Sc) : ExtPt F :=
  let win5 := window5 s
  let pre := precomp x
  win5.reverse.foldl (multStep pre) neutral

end

end Ristretto.Model.Cref
