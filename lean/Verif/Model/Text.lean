import Verif.Model.Word

/-!
# encoding/base64 and encoding/hex, as far as the package uses them

The package calls `base64.RawURLEncoding.Encode`, `base64.RawURLEncoding.Decode` and `hex.Decode`
from the Go standard library.  The standard library is not part of /repo; these definitions follow
its documented algorithm (RFC 4648 with the URL alphabet, no padding, non-strict: `\r` and `\n` are
skipped, trailing bits ignored).
-/

namespace Ristretto.Model

/-- The result of a Go function that may return an error or panic. -/
inductive Res (α : Type) where
  | ok (a : α)
  | err
  | panic
deriving DecidableEq, Repr

/-- The URL alphabet `A-Za-z0-9-_` (encoding/base64). -/
def b64Char (d : UInt8) : UInt8 :=
  if d < 26 then d + 65 else if d < 52 then d + 71 else if d < 62 then d - 4
  else if d = 62 then 45 else 95

/-- `decodeMap` of the URL alphabet (encoding/base64); `none` is the marker `0xff`. -/
def b64Digit (c : UInt8) : Option UInt8 :=
  if 65 ≤ c ∧ c ≤ 90 then some (c - 65)
  else if 97 ≤ c ∧ c ≤ 122 then some (c - 71)
  else if 48 ≤ c ∧ c ≤ 57 then some (c + 4)
  else if c = 45 then some 62
  else if c = 95 then some 63
  else none

/-- `RawURLEncoding.Encode` (called in ristretto.go:357-364 and scalar.go:1058-1065). -/
def b64Encode : List UInt8 → List UInt8
  | a :: b :: c :: rest =>
    b64Char (a >>> 2) :: b64Char (((a &&& 3) <<< 4) ||| (b >>> 4)) ::
      b64Char (((b &&& 15) <<< 2) ||| (c >>> 6)) :: b64Char (c &&& 63) :: b64Encode rest
  | [a, b] => [b64Char (a >>> 2), b64Char (((a &&& 3) <<< 4) ||| (b >>> 4)), b64Char ((b &&& 15) <<< 2)]
  | [a] => [b64Char (a >>> 2), b64Char ((a &&& 3) <<< 4)]
  | [] => []

/-- The loop of `decodeQuantum` (encoding/base64): read up to `n` more digits, skipping line
breaks; `none` is `CorruptInputError`. -/
def readQuantum : List UInt8 → Nat → List UInt8 → Option (List UInt8 × List UInt8)
  | src, 0, acc => some (acc, src)
  | [], _ + 1, acc => if acc.length = 1 then none else some (acc, [])
  | c :: cs, n + 1, acc =>
    match b64Digit c with
    | some x => readQuantum cs n (acc ++ [x])
    | none => if c = 10 ∨ c = 13 then readQuantum cs (n + 1) acc else none

/-- The bytes a quantum stands for (encoding/base64 `decodeQuantum`, after its loop). -/
def quantumBytes : List UInt8 → List UInt8
  | [a, b] => [(a <<< 2) ||| (b >>> 4)]
  | [a, b, c] => [(a <<< 2) ||| (b >>> 4), (b <<< 4) ||| (c >>> 2)]
  | [a, b, c, d] => [(a <<< 2) ||| (b >>> 4), (b <<< 4) ||| (c >>> 2), (c <<< 6) ||| d]
  | _ => []

/-- The loop of `RawURLEncoding.Decode` into a buffer of `cap` bytes: `out` has been written so far.
Writing beyond the buffer is a run-time panic.  `fuel` bounds the number of quanta; the length of
the source is enough.  (`Decode` has fast paths for 8 and 4 digits at a time; they only write
bytes the buffer has room for, and give the same bytes.) -/
def b64DecodeLoop (cap : Nat) : Nat → List UInt8 → List UInt8 → Res (List UInt8)
  | 0, _, out => .ok out
  | _ + 1, [], out => .ok out
  | fuel + 1, c :: cs, out =>
    match readQuantum (c :: cs) 4 [] with
    | none => .err
    | some (q, rest) =>
      if out.length + (quantumBytes q).length > cap then .panic
      else b64DecodeLoop cap fuel rest (out ++ quantumBytes q)

/-- `RawURLEncoding.Decode(buf[:], src)` with `len(buf) = cap` (called in ristretto.go:375-382 and
scalar.go:1068-1071). -/
def b64Decode (cap : Nat) (src : List UInt8) : Res (List UInt8) :=
  b64DecodeLoop cap src.length src []

/-- `reverseHexTable` (encoding/hex). -/
def hexDigit (c : UInt8) : Option UInt8 :=
  if 48 ≤ c ∧ c ≤ 57 then some (c - 48)
  else if 97 ≤ c ∧ c ≤ 102 then some (c - 87)
  else if 65 ≤ c ∧ c ≤ 70 then some (c - 55)
  else none

/-- `hex.Decode` on an even number of digits (called in ristretto.go:369-374 with 64 digits and a
32-byte buffer): the decoded bytes, or `none` if there is another character. -/
def hexDecode : List UInt8 → Option (List UInt8)
  | a :: b :: rest =>
    match hexDigit a, hexDigit b with
    | some x, some y => (hexDecode rest).map (((x <<< 4) ||| y) :: ·)
    | _, _ => none
  | _ => some []

/-- `textToBuf(dst, src)` with `len(dst) = 32` (ristretto.go:366-384). -/
def textToBuf (src : List UInt8) : Res (List UInt8) :=
  let viaB64 : Res (List UInt8) :=
    match b64Decode 32 src with
    | .ok out => if out.length = 32 then .ok out else .err
    | r => r
  if src.length = 64 then
    match hexDecode src with
    | some out => if out.length = 32 then .ok out else viaB64
    | none => viaB64
  else viaB64

end Ristretto.Model
