import Verif.Model.CrefMachine
import Verif.Model.CrefScalar
import Verif.Model.CrefTable

/-!
# The rest of the C reference implementation

The functions of `cref.c` that `cref.go` does not export: the remaining field functions, multiplication of the base point,
multi-scalar multiplication, comparisons; and programs over all functions of `cref.c`.

`scalar_slide` (cref.c:538-580), which nothing calls, is in Model/CrefSlide.lean.
-/

namespace Ristretto.Model.Cref
set_option autoImplicit false

/-! ## Field -/

section
variable {F : Type} [O : CrefOps F]

/-- `fe25519_invert` (cref.c:1476-1646). -/
def invert (z : F) : F :=
  let t0 := O.square z
  let t1 := sqN 2 t0
  let t1 := O.mul z t1
  let t0 := O.mul t0 t1
  let t2 := O.square t0
  let t1 := O.mul t1 t2
  let t2 := sqN 5 t1
  let t1 := O.mul t2 t1
  let t2 := sqN 10 t1
  let t2 := O.mul t2 t1
  let t3 := sqN 20 t2
  let t2 := O.mul t3 t2
  let t2 := sqN 10 t2
  let t1 := O.mul t2 t1
  let t2 := sqN 50 t1
  let t2 := O.mul t2 t1
  let t3 := sqN 100 t2
  let t2 := O.mul t3 t2
  let t2 := sqN 50 t2
  let t1 := O.mul t2 t1
  let t1 := sqN 5 t1
  O.mul t1 t0

/-- `fe25519_sqrt` (cref.c:1976-1981). -/
def fsqrt (x : F) : F :=
  let t := invsqrt x
  O.mul t x

/-- `fe25519_sqrti` (cref.c:2290-2300): the field element written and the value returned. -/
def fsqrti (x : F) : F × Int32 :=
  let tb := invsqrti x
  let t := tb.1
  let b := tb.2
  let corr := O.one
  let corr := O.cmov corr O.sqrtm1 (toByte (1 - b))
  let t := O.mul t corr
  (O.mul t x, b)

/-- `fe25519_iseq_vartime` (cref.c:852-854). -/
def iseqVartime (x y : F) : Int32 := iseq x y

/-- `fe25519_getparity` (cref.c:954-956). -/
def getparity (x : F) : UInt8 := toByte (isnegative x)

end

/-- `fe25519_two`, `fe25519_msqrtm1` (cref.c:604, 606). -/
def feTwo : Fe25 := ⟨2, 0, 0, 0, 0, 0, 0, 0, 0, 0⟩
def feMsqrtm1 : Fe25 :=
  ⟨32595792, 7943725, -9377950, -3500415, -12389472, 272473, 25146209, 2005654, -326686, -11406482⟩

/-! ## Multiplication of the base point -/

/-- One round of the first loop of `scalar_window3` (cref.c:467-479): eight digits from `v[3i..3i+2]`. -/
def window3Chunk (a b c : UInt32) : List Int8 :=
  [ i8 (a &&& 7),
    i8 ((a >>> 3) &&& 7),
    i8 ((a >>> 6) &&& 7) ^^^ i8 ((b <<< 2) &&& 7),
    i8 ((b >>> 1) &&& 7),
    i8 ((b >>> 4) &&& 7),
    i8 ((b >>> 7) &&& 7) ^^^ i8 ((c <<< 1) &&& 7),
    i8 ((c >>> 2) &&& 7),
    i8 ((c >>> 5) &&& 7) ]

/-- The unsigned digits `scalar_window3` starts from (cref.c:467-485). -/
def window3Raw (v : Sc) : List Int8 :=
  window3Chunk v[0] v[1] v[2] ++
  window3Chunk v[3] v[4] v[5] ++
  window3Chunk v[6] v[7] v[8] ++
  window3Chunk v[9] v[10] v[11] ++
  window3Chunk v[12] v[13] v[14] ++
  window3Chunk v[15] v[16] v[17] ++
  window3Chunk v[18] v[19] v[20] ++
  window3Chunk v[21] v[22] v[23] ++
  window3Chunk v[24] v[25] v[26] ++
  window3Chunk v[27] v[28] v[29] ++
  [ i8 (v[30] &&& 7),
    i8 ((v[30] >>> 3) &&& 7),
    i8 ((v[30] >>> 6) &&& 7) ^^^ i8 ((v[31] <<< 2) &&& 7),
    i8 ((v[31] >>> 1) &&& 7),
    i8 ((v[31] >>> 4) &&& 7) ]

/-- "Making it signed" (cref.c:488-497).  `a` is the current value of `r[i]` and the list holds `r[i+1..84]`. -/
def window3Sign : Int8 → Int8 → List Int8 → List Int8
  | carry, a, [] => [a + carry]
  | carry, a, b :: rest =>
    let a := a + carry
    let b := b + (a >>> 3)
    let a := a &&& 7
    let carry := a >>> 2
    let a := a - (carry <<< 3)
    a :: window3Sign carry b rest

/-- `scalar_window3` (cref.c:463-498). -/
def window3 (v : Sc) : List Int8 :=
  match window3Raw v with
  | [] => []
  | a :: rest => window3Sign 0 a rest

section
variable {F : Type} [O : CrefOps F]

/-- `cmov_aff` (cref.c:2132-2136). -/
def cmovAff (r p : AffPt F) (b : UInt8) : AffPt F := ⟨O.cmov r.x p.x b, O.cmov r.y p.y b⟩

/-- `choose_t_aff` (cref.c:2156-2166).  `tab` is `ge25519_base_multiples_affine`; the indices are within it. -/
def chooseTAff (tab : List (AffPt F)) (pos : Nat) (b : Int8) : AffPt F :=
  let e := fun k => tab.getD (5 * pos + k) ⟨O.zero, O.zero⟩
  let t := e 0
  let t := cmovAff t (e 1) (groupStaticEqual b 1 ||| groupStaticEqual b (-1))
  let t := cmovAff t (e 2) (groupStaticEqual b 2 ||| groupStaticEqual b (-2))
  let t := cmovAff t (e 3) (groupStaticEqual b 3 ||| groupStaticEqual b (-3))
  let t := cmovAff t (e 4) (groupStaticEqual b (-4))
  let v := O.neg t.x
  ⟨O.cmov t.x v (negative b), t.y⟩

/-- `ge25519_mixadd2` (cref.c:2057-2078). -/
def mixadd2 (r : ExtPt F) (q : AffPt F) : ExtPt F :=
  let qt := O.mul q.x q.y
  let a := O.sub r.Y r.X
  let b := O.add r.Y r.X
  let t1 := O.sub q.y q.x
  let t2 := O.add q.y q.x
  let a := O.mul a t1
  let b := O.mul b t2
  let e := O.sub b a
  let h := O.add b a
  let c := O.mul r.T qt
  let c := O.mul c O.ec2d
  let d := O.add r.Z r.Z
  let f := O.sub d c
  let g := O.add d c
  ⟨O.mul e f, O.mul h g, O.mul g f, O.mul e h⟩

/-- The loop `for(i=1;i<85;i++)` of `group_ge_scalarmult_base` (cref.c:2462-2466); `rest` is `b[i..84]`. -/
def baseLoop (tab : List (AffPt F)) : Nat → List Int8 → ExtPt F → ExtPt F
  | _, [], r => r
  | i, b :: rest, r =>
    let t := chooseTAff tab i b
    baseLoop tab (i + 1) rest (mixadd2 r t)

/-- `group_ge_scalarmult_base` (cref.c:2452-2467) with the table `tab`. -/
def scalarMultBaseWith (tab : List (AffPt F)) (s : Sc) : ExtPt F :=
  let b := window3 s
  let t := chooseTAff tab 0 (b.headD 0)
  let r : ExtPt F := ⟨t.x, t.y, O.one, O.mul t.x t.y⟩
  baseLoop tab 1 b.tail r

/-- `group_ge_equals` (cref.c:2482-2498). -/
def geEquals (x y : ExtPt F) : Int32 :=
  let x1y2 := O.mul x.X y.Y
  let x2y1 := O.mul y.X x.Y
  let r := iseq x1y2 x2y1
  let x1x2 := O.mul x.X y.X
  let y1y2 := O.mul x.Y y.Y
  r ||| iseq x1x2 y1y2

/-- `group_ge_isneutral` (cref.c:2500-2513). -/
def geIsNeutral (x : ExtPt F) : Int32 :=
  let t := geDouble x
  let t := geDouble t
  let t := geDouble t
  let r := 1 - iszero t.X
  let r := r ||| (1 - iseq t.Y t.Z)
  1 - r

end

/-- `group_ge_scalarmult_base` (cref.c:2452-2467). -/
def geScalarMultBase (s : Sc) : ExtPt Fe25 := scalarMultBaseWith baseMultiples s

/-- `group_ge_base` (cref.c:2200-2203). -/
def geBase : ExtPt Fe25 :=
  ⟨⟨-14297830, -7645148, 16144683, -16471763, 27570974, -2696100, -26142465, 8378389, 20764389, 8758491⟩,
   ⟨-26843541, -6710886, 13421773, -13421773, 26843546, 6710886, -13421773, 13421773, -26843546, -6710886⟩,
   ⟨1, 0, 0, 0, 0, 0, 0, 0, 0, 0⟩,
   ⟨28827062, -6116119, -27349572, 244363, 8635006, 11264893, 19351346, 13413597, 16611511, -6414980⟩⟩

/-- The constants of cref.c that are points. -/
class CrefTab (F : Type) where
  /-- `group_ge_base` -/
  base : ExtPt F
  /-- `ge25519_base_multiples_affine` -/
  tab : List (AffPt F)

/-- The constants of cref.c (cref.c:2200-2203, 2052-2054). -/
instance : CrefTab Fe25 := ⟨geBase, baseMultiples⟩

/-! ## Programs -/

/-- A call of a function of `cref.c`.  The variants `..._publicinputs` of the group functions (cref.c:2518-2560) call the
functions without the suffix, `fe25519_iseq_vartime` and `fe25519_getparity` are `fe25519_iseq` and
`fe25519_isnegative`: they have no case of their own.  The first number is the variable written. -/
inductive KCmd
  | go (c : CCmd)
  | scSetZero (r : Nat)
  | scSetOne (r : Nat)
  | scAdd (r x y : Nat)
  | scSub (r x y : Nat)
  | scNegate (r x : Nat)
  | scMul (r x y : Nat)
  | scSquare (r x : Nat)
  | scInvert (r x : Nat)
  | scFrom64 (r : Nat) (h : Bytes 64)
  | scIsOne (x : Nat)
  | scIsZero (x : Nat)
  | scEquals (x y : Nat)
  | scTstbit (x : Nat) (pos : Fin 256)
  | scBitlen (x : Nat)
  | feSetOne (r : Nat)
  | feSetZero (r : Nat)
  | feNeg (r x : Nat)
  | feAdd (r x y : Nat)
  | feSub (r x y : Nat)
  | feDouble (r x : Nat)
  | feTriple (r x : Nat)
  | feMul (r x y : Nat)
  | feSquare (r x : Nat)
  | feSquareDouble (r x : Nat)
  | feInvert (r x : Nat)
  | fePow2523 (r x : Nat)
  | feAbs (r x : Nat)
  | feCmov (r x : Nat) (b : Bool)
  | feIsZero (x : Nat)
  | feIsOne (x : Nat)
  | feIsNegative (x : Nat)
  | feIsEq (x y : Nat)
  | geSetNeutral (r : Nat)
  | geSetBase (r : Nat)
  | geScalarMultBase (r s : Nat)
  /-- the list holds the variables `x+i` and `s+i` -/
  | geMultiScalarMult (r : Nat) (xs : List (Nat × Nat))
  | geEquals (x y : Nat)
  | geIsNeutral (x : Nat)
deriving DecidableEq

section
variable {F : Type} [O : CrefOps F] [T : CrefTab F]

/-- `fe25519_triple` (cref.c:1020-1023): two additions, the second after the receiver has been written. -/
def tripleMem (m : CMem F) (r x : Nat) : CMem F :=
  let m := m.setFe r (O.add (m.fes x) (m.fes x))
  m.setFe r (O.add (m.fes r) (m.fes x))

/-- One round of the loop of `group_ge_multiscalarmult` (cref.c:2475-2479): reads `x+i` and `s+i` after the receiver has
been written. -/
def multiStep (r : Nat) (m : CMem F) (xs : Nat × Nat) : CMem F :=
  let t := geScalarMult (m.pts xs.1) (m.scs xs.2)
  m.setPt r (geAdd (m.pts r) t)

/-- `group_ge_multiscalarmult` (cref.c:2469-2480). -/
def multiMem (m : CMem F) (r : Nat) (xs : List (Nat × Nat)) : CMem F := xs.foldl (multiStep r) (m.setPt r neutral)

/-- One call. -/
def kexec (m : CMem F) : KCmd → CMem F × COut
  | .go c => cexec m c
  | .scSetZero r => (m.setSc r scSetZero, .unit)
  | .scSetOne r => (m.setSc r scSetOne, .unit)
  | .scAdd r x y => (m.setSc r (scAdd (m.scs x) (m.scs y)), .unit)
  | .scSub r x y => (m.setSc r (scSub (m.scs x) (m.scs y)), .unit)
  | .scNegate r x => (m.setSc r (scNegate (m.scs x)), .unit)
  | .scMul r x y => (m.setSc r (scMul (m.scs x) (m.scs y)), .unit)
  | .scSquare r x => (m.setSc r (scSquare (m.scs x)), .unit)
  | .scInvert r x => (m.setSc r (scInvert (m.scs x)), .unit)
  | .scFrom64 r h => (m.setSc r (from64bytes h), .unit)
  | .scIsOne x => (m, .int (scIsOne (m.scs x)))
  | .scIsZero x => (m, .int (scIsZero (m.scs x)))
  | .scEquals x y => (m, .int (scEquals (m.scs x) (m.scs y)))
  | .scTstbit x pos => (m, .int (tstbit (m.scs x) pos))
  | .scBitlen x => (m, .int (bitlen (m.scs x)))
  | .feSetOne r => (m.setFe r O.one, .unit)
  | .feSetZero r => (m.setFe r O.zero, .unit)
  | .feNeg r x => (m.setFe r (O.neg (m.fes x)), .unit)
  | .feAdd r x y => (m.setFe r (O.add (m.fes x) (m.fes y)), .unit)
  | .feSub r x y => (m.setFe r (O.sub (m.fes x) (m.fes y)), .unit)
  | .feDouble r x => (m.setFe r (fdouble (m.fes x)), .unit)
  | .feTriple r x => (tripleMem m r x, .unit)
  | .feMul r x y => (m.setFe r (O.mul (m.fes x) (m.fes y)), .unit)
  | .feSquare r x => (m.setFe r (O.square (m.fes x)), .unit)
  | .feSquareDouble r x => (m.setFe r (O.squareDouble (m.fes x)), .unit)
  | .feInvert r x => (m.setFe r (invert (m.fes x)), .unit)
  | .fePow2523 r x => (m.setFe r (pow2523 (m.fes x)), .unit)
  | .feAbs r x => (m.setFe r (fabs (m.fes x)), .unit)
  | .feCmov r x b => (m.setFe r (O.cmov (m.fes r) (m.fes x) (if b then 1 else 0)), .unit)
  | .feIsZero x => (m, .int (iszero (m.fes x)))
  | .feIsOne x => (m, .int (isone (m.fes x)))
  | .feIsNegative x => (m, .int (isnegative (m.fes x)))
  | .feIsEq x y => (m, .int (iseq (m.fes x) (m.fes y)))
  | .geSetNeutral r => (m.setPt r neutral, .unit)
  | .geSetBase r => (m.setPt r T.base, .unit)
  | .geScalarMultBase r s => (m.setPt r (scalarMultBaseWith T.tab (m.scs s)), .unit)
  | .geMultiScalarMult r xs => (multiMem m r xs, .unit)
  | .geEquals x y => (m, .int (geEquals (m.pts x) (m.pts y)))
  | .geIsNeutral x => (m, .int (geIsNeutral (m.pts x)))

/-- A program: the final state and what the caller saw. -/
def krun : CMem F → List KCmd → CMem F × List COut
  | m, [] => (m, [])
  | m, c :: cs =>
    let r := kexec m c
    let rs := krun r.1 cs
    (rs.1, r.2 :: rs.2)

end

end Ristretto.Model.Cref
