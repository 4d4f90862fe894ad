import Verif.Model.Word

/-!
# SHA-256 and SHA-512 (FIPS 180-4)

The package calls `crypto/sha256.Sum256` and `crypto/sha512.Sum512` of Go's standard library, which the model takes as parameters.  Here is what they are
specified to compute, so that the theorems can be used with them and the test vectors of the repository can be checked on the model.

The functions are written for any type of words with the operations below: on machine words they are the hash functions, and on the expressions of
`Model/Oblivious.lean` they show that these are straight-line programs.
-/

namespace Ristretto.Sha2
set_option autoImplicit false

/-- What SHA-2 needs of bytes `B` and of words `W`, constants being of type `C`. -/
structure WordOps (C B W : Type) where
  byte : UInt8 → B
  const : C → W
  /-- big-endian -/
  ofBytes : List B → W
  toBytes : W → List B
  add : W → W → W
  and : W → W → W
  xor : W → W → W
  not : W → W
  /-- rotation to the right by a constant -/
  rotr : W → Nat → W
  shr : W → Nat → W

/-- What distinguishes SHA-256 from SHA-512: bytes per word, the shifts of the functions Σ₀, Σ₁, σ₀, σ₁, the constants `K` and the initial hash value. -/
structure Params (C : Type) where
  size : Nat
  S0 : Nat × Nat × Nat
  S1 : Nat × Nat × Nat
  s0 : Nat × Nat × Nat
  s1 : Nat × Nat × Nat
  K : List C
  H0 : List C

section
variable {C B W : Type} (o : WordOps C B W) (P : Params C)

/-- Σ of section 4.1.2 and 4.1.3: three rotations. -/
def bigSigma (r : Nat × Nat × Nat) (x : W) : W := o.xor (o.xor (o.rotr x r.1) (o.rotr x r.2.1)) (o.rotr x r.2.2)
/-- σ: two rotations and a shift. -/
def smallSigma (r : Nat × Nat × Nat) (x : W) : W := o.xor (o.xor (o.rotr x r.1) (o.rotr x r.2.1)) (o.shr x r.2.2)
def Ch (x y z : W) : W := o.xor (o.and x y) (o.and (o.not x) z)
def Maj (x y z : W) : W := o.xor (o.xor (o.and x y) (o.and x z)) (o.and y z)

/-- The working variables. -/
structure State (W : Type) where
  a : W
  b : W
  c : W
  d : W
  e : W
  f : W
  g : W
  h : W

/-- Sixteen consecutive words of the message schedule (section 6.2.2 step 1, 6.4.2 step 1): drop `W_t`, append `W_{t+16}`. -/
def nextWindow [Inhabited W] (w : List W) : List W :=
  w.tail ++ [o.add (o.add (smallSigma o P.s1 (w.getD 14 default)) (w.getD 9 default))
    (o.add (smallSigma o P.s0 (w.getD 1 default)) (w.getD 0 default))]

/-- Step 3 for one `t`. -/
def round [Inhabited W] (k : C) (w : List W) (s : State W) : State W :=
  let t1 := o.add (o.add (o.add s.h (bigSigma o P.S1 s.e)) (o.add (Ch o s.e s.f s.g) (o.const k))) (w.getD 0 default)
  let t2 := o.add (bigSigma o P.S0 s.a) (Maj o s.a s.b s.c)
  ⟨o.add t1 t2, s.a, s.b, s.c, o.add s.d t1, s.e, s.f, s.g⟩

/-- Step 3 for all `t`. -/
def rounds [Inhabited W] : List C → List W → State W → State W
  | [], _, s => s
  | k :: ks, w, s => rounds ks (nextWindow o P w) (round o P k w s)

/-- One block, given as sixteen words. -/
def block [Inhabited W] (s : State W) (w : List W) : State W :=
  let r := rounds o P P.K w s
  ⟨o.add s.a r.a, o.add s.b r.b, o.add s.c r.c, o.add s.d r.d, o.add s.e r.e, o.add s.f r.f, o.add s.g r.g, o.add s.h r.h⟩

/-- Padding (section 5.1): a one bit, zeros, and the length in bits as a big-endian number of two words. -/
def padding (n : Nat) : List UInt8 :=
  0x80 :: List.replicate ((16 * P.size - (n + 1 + 2 * P.size) % (16 * P.size)) % (16 * P.size)) 0 ++
    (List.range (2 * P.size)).reverse.map fun i => UInt8.ofNat (8 * n / 256 ^ i)

/-- Cuts a list into `m` pieces of `k`. -/
def pieces {α : Type} (k : Nat) : Nat → List α → List (List α)
  | 0, _ => []
  | m + 1, l => l.take k :: pieces k m (l.drop k)

/-- The hash of a message. -/
def hash [Inhabited W] (msg : List B) : List B :=
  let m := msg ++ (padding P msg.length).map o.byte
  let ws := (pieces P.size (m.length / P.size) m).map o.ofBytes
  let bs := pieces 16 (ws.length / 16) ws
  let H := P.H0.map o.const
  let s := bs.foldl (block o P) ⟨H.getD 0 default, H.getD 1 default, H.getD 2 default, H.getD 3 default, H.getD 4 default,
    H.getD 5 default, H.getD 6 default, H.getD 7 default⟩
  [s.a, s.b, s.c, s.d, s.e, s.f, s.g, s.h].flatMap o.toBytes

end

/-- The words of SHA-256. -/
def ops32 : WordOps UInt32 UInt8 UInt32 where
  byte := id
  const := id
  ofBytes := fun l => l.foldl (fun a b => (a <<< 8) ||| b.toUInt32) 0
  toBytes := fun w => [(w >>> 24).toUInt8, (w >>> 16).toUInt8, (w >>> 8).toUInt8, w.toUInt8]
  add := (· + ·)
  and := (· &&& ·)
  xor := (· ^^^ ·)
  not := fun a => a ^^^ 0xffffffff
  rotr := fun a n => (a >>> UInt32.ofNat n) ||| (a <<< UInt32.ofNat (32 - n))
  shr := fun a n => a >>> UInt32.ofNat n

/-- The words of SHA-512. -/
def ops64 : WordOps UInt64 UInt8 UInt64 where
  byte := id
  const := id
  ofBytes := fun l => l.foldl (fun a b => (a <<< 8) ||| b.toUInt64) 0
  toBytes := fun w => [(w >>> 56).toUInt8, (w >>> 48).toUInt8, (w >>> 40).toUInt8, (w >>> 32).toUInt8, (w >>> 24).toUInt8,
    (w >>> 16).toUInt8, (w >>> 8).toUInt8, w.toUInt8]
  add := (· + ·)
  and := (· &&& ·)
  xor := (· ^^^ ·)
  not := fun a => a ^^^ 0xffffffffffffffff
  rotr := fun a n => (a >>> UInt64.ofNat n) ||| (a <<< UInt64.ofNat (64 - n))
  shr := fun a n => a >>> UInt64.ofNat n

/-- SHA-256 (sections 4.1.2, 4.2.2, 5.3.3). -/
def params256 : Params UInt32 where
  size := 4
  S0 := (2, 13, 22)
  S1 := (6, 11, 25)
  s0 := (7, 18, 3)
  s1 := (17, 19, 10)
  K := [0x428a2f98, 0x71374491, 0xb5c0fbcf, 0xe9b5dba5, 0x3956c25b, 0x59f111f1, 0x923f82a4, 0xab1c5ed5,
    0xd807aa98, 0x12835b01, 0x243185be, 0x550c7dc3, 0x72be5d74, 0x80deb1fe, 0x9bdc06a7, 0xc19bf174,
    0xe49b69c1, 0xefbe4786, 0x0fc19dc6, 0x240ca1cc, 0x2de92c6f, 0x4a7484aa, 0x5cb0a9dc, 0x76f988da,
    0x983e5152, 0xa831c66d, 0xb00327c8, 0xbf597fc7, 0xc6e00bf3, 0xd5a79147, 0x06ca6351, 0x14292967,
    0x27b70a85, 0x2e1b2138, 0x4d2c6dfc, 0x53380d13, 0x650a7354, 0x766a0abb, 0x81c2c92e, 0x92722c85,
    0xa2bfe8a1, 0xa81a664b, 0xc24b8b70, 0xc76c51a3, 0xd192e819, 0xd6990624, 0xf40e3585, 0x106aa070,
    0x19a4c116, 0x1e376c08, 0x2748774c, 0x34b0bcb5, 0x391c0cb3, 0x4ed8aa4a, 0x5b9cca4f, 0x682e6ff3,
    0x748f82ee, 0x78a5636f, 0x84c87814, 0x8cc70208, 0x90befffa, 0xa4506ceb, 0xbef9a3f7, 0xc67178f2]
  H0 := [0x6a09e667, 0xbb67ae85, 0x3c6ef372, 0xa54ff53a, 0x510e527f, 0x9b05688c, 0x1f83d9ab, 0x5be0cd19]

/-- SHA-512 (sections 4.1.3, 4.2.3, 5.3.5). -/
def params512 : Params UInt64 where
  size := 8
  S0 := (28, 34, 39)
  S1 := (14, 18, 41)
  s0 := (1, 8, 7)
  s1 := (19, 61, 6)
  K := [0x428a2f98d728ae22, 0x7137449123ef65cd, 0xb5c0fbcfec4d3b2f, 0xe9b5dba58189dbbc, 0x3956c25bf348b538,
    0x59f111f1b605d019, 0x923f82a4af194f9b, 0xab1c5ed5da6d8118, 0xd807aa98a3030242, 0x12835b0145706fbe,
    0x243185be4ee4b28c, 0x550c7dc3d5ffb4e2, 0x72be5d74f27b896f, 0x80deb1fe3b1696b1, 0x9bdc06a725c71235,
    0xc19bf174cf692694, 0xe49b69c19ef14ad2, 0xefbe4786384f25e3, 0x0fc19dc68b8cd5b5, 0x240ca1cc77ac9c65,
    0x2de92c6f592b0275, 0x4a7484aa6ea6e483, 0x5cb0a9dcbd41fbd4, 0x76f988da831153b5, 0x983e5152ee66dfab,
    0xa831c66d2db43210, 0xb00327c898fb213f, 0xbf597fc7beef0ee4, 0xc6e00bf33da88fc2, 0xd5a79147930aa725,
    0x06ca6351e003826f, 0x142929670a0e6e70, 0x27b70a8546d22ffc, 0x2e1b21385c26c926, 0x4d2c6dfc5ac42aed,
    0x53380d139d95b3df, 0x650a73548baf63de, 0x766a0abb3c77b2a8, 0x81c2c92e47edaee6, 0x92722c851482353b,
    0xa2bfe8a14cf10364, 0xa81a664bbc423001, 0xc24b8b70d0f89791, 0xc76c51a30654be30, 0xd192e819d6ef5218,
    0xd69906245565a910, 0xf40e35855771202a, 0x106aa07032bbd1b8, 0x19a4c116b8d2d0c8, 0x1e376c085141ab53,
    0x2748774cdf8eeb99, 0x34b0bcb5e19b48a8, 0x391c0cb3c5c95a63, 0x4ed8aa4ae3418acb, 0x5b9cca4f7763e373,
    0x682e6ff3d6b2b8a3, 0x748f82ee5defb2fc, 0x78a5636f43172f60, 0x84c87814a1f0ab72, 0x8cc702081a6439ec,
    0x90befffa23631e28, 0xa4506cebde82bde9, 0xbef9a3f7b2c67915, 0xc67178f2e372532b, 0xca273eceea26619c,
    0xd186b8c721c0c207, 0xeada7dd6cde0eb1e, 0xf57d4f7fee6ed178, 0x06f067aa72176fba, 0x0a637dc5a2c898a6,
    0x113f9804bef90dae, 0x1b710b35131c471b, 0x28db77f523047d84, 0x32caab7b40c72493, 0x3c9ebe0a15c9bebc,
    0x431d67c49c100d4c, 0x4cc5d4becb3e42b6, 0x597f299cfc657e2a, 0x5fcb6fab3ad6faec, 0x6c44198c4a475817]
  H0 := [0x6a09e667f3bcc908, 0xbb67ae8584caa73b, 0x3c6ef372fe94f82b, 0xa54ff53a5f1d36f1,
    0x510e527fade682d1, 0x9b05688c2b3e6c1f, 0x1f83d9abfb41bd6b, 0x5be0cd19137e2179]

/-- `crypto/sha256.Sum256`. -/
def sha256 (msg : List UInt8) : Bytes 32 := Vector.ofFn fun i => (hash ops32 params256 msg).getD i.val 0
/-- `crypto/sha512.Sum512`. -/
def sha512 (msg : List UInt8) : Bytes 64 := Vector.ofFn fun i => (hash ops64 params512 msg).getD i.val 0

end Ristretto.Sha2
