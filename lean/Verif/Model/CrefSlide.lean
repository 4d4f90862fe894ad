import Verif.Model.Cref

/-!
# Sliding windows in the C reference implementation

`scalar_slide` (cref.c:538-580).  Nothing in the repository calls it; cref.h:115 declares it.

The array `r` is a list, worked off from the front: the loops only look at entries behind the current one.  `int`
arithmetic is on integers: an entry is at most 128 in absolute value, so no sum or shift below leaves the range of `int`,
and for `1 ≤ swindowsize ≤ 31` neither does `m`.  (For other values of `swindowsize` the shift is undefined in C.)
-/

namespace Ristretto.Model.Cref
set_option autoImplicit false

/-- The loop over `k` (cref.c:567-573) on `r[k..255]`. -/
def slideCarry : List Int8 → List Int8
  | [] => []
  | a :: rest => if a = 0 then 1 :: rest else 0 :: slideCarry rest

/-- The loop over `b` (cref.c:559-577).  `a` is `r[j]` and the list holds `r[j+b..255]`; at most `n` rounds follow.
The results are `r[j]` and `r[j+b..255]`. -/
def slideInner (m : Int) : Nat → Nat → Int8 → List Int8 → Int8 × List Int8
  | 0, _, a, rest => (a, rest)
  | _, _, a, [] => (a, [])
  | n + 1, b, a, x :: rest =>
    if a.toInt + x.toInt * 2 ^ b ≤ m then
      let p := slideInner m n (b + 1) (Int8.ofInt (a.toInt + x.toInt * 2 ^ b)) rest
      (p.1, 0 :: p.2)
    else if a.toInt - x.toInt * 2 ^ b ≥ -m then
      let r := slideCarry (x :: rest)
      let p := slideInner m n (b + 1) (Int8.ofInt (a.toInt - x.toInt * 2 ^ b)) r.tail
      (p.1, r.headD 0 :: p.2)
    else if x ≠ 0 then (a, x :: rest)
    else
      let p := slideInner m n (b + 1) a rest
      (p.1, x :: p.2)

/-- The loop over `j` (cref.c:556-579) on `r[j..255]`, `n` entries. -/
def slideLoop (m : Int) : Nat → List Int8 → List Int8
  | n + 1, a :: rest =>
    if a ≠ 0 then
      let p := slideInner m 6 1 a rest
      p.1 :: slideLoop m n p.2
    else a :: slideLoop m n rest
  | _, r => r

/-- The bits of a digit (cref.c:544-551). -/
def slideBits (v : UInt32) : List Int8 :=
  [i8 (v &&& 1), i8 ((v >>> 1) &&& 1), i8 ((v >>> 2) &&& 1), i8 ((v >>> 3) &&& 1),
   i8 ((v >>> 4) &&& 1), i8 ((v >>> 5) &&& 1), i8 ((v >>> 6) &&& 1), i8 ((v >>> 7) &&& 1)]

/-- `scalar_slide` (cref.c:538-580): the array `r`. -/
def slide (s : Sc) (swindowsize : Nat) : List Int8 :=
  let m : Int := 2 ^ (swindowsize - 1) - 1
  slideLoop m 256 (s.toList.flatMap slideBits)

end Ristretto.Model.Cref
