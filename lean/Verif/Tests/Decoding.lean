import Verif.Props.Machine

/-!
# The test vectors of the repository, decoding, scalars and hashing

These are tests and not proofs of properties: they compare the model with outputs of the code that are recorded in the repository's own tests.  A program is run
on the model of the 64-bit build, with SHA-256 and SHA-512 as in `Spec/Sha2.lean`; strings are given as ASCII codes.
-/

namespace Ristretto.Tests.Decoding
open Model Props
set_option autoImplicit false

/-- What the calls of a program return. -/
def outputs {F : Type} [FieldOps F] (e : Env F) (prog : List Cmd) : Option (List Out) := (run e Mem.init prog).map Prod.snd
/-- 32 bytes in hexadecimal, as `encoding/hex` writes them. -/
def hex (n : Nat) : List UInt8 := (List.range 32).reverse.map fun i => UInt8.ofNat (n / 256 ^ i)

/-- `TestRistretto255TestVectors` (ristretto_test.go:58-110): strings that must not decode, some of each kind. -/
example :
    outputs (goEnv Sha2.sha512) [.pSetBytes 0 #v[0x00, 0xff, 0xff, 0xff, 0xff, 0xff, 0xff, 0xff, 0xff, 0xff, 0xff, 0xff, 0xff, 0xff, 0xff, 0xff, 0xff, 0xff, 0xff, 0xff, 0xff, 0xff,
      0xff, 0xff, 0xff, 0xff, 0xff, 0xff, 0xff, 0xff, 0xff, 0xff]] =
      some [.bool false] ∧
    outputs (goEnv Sha2.sha512) [.pSetBytes 0 #v[0xed, 0xff, 0xff, 0xff, 0xff, 0xff, 0xff, 0xff, 0xff, 0xff, 0xff, 0xff, 0xff, 0xff, 0xff, 0xff, 0xff, 0xff, 0xff, 0xff, 0xff, 0xff,
      0xff, 0xff, 0xff, 0xff, 0xff, 0xff, 0xff, 0xff, 0xff, 0x7f]] =
      some [.bool false] ∧
    outputs (goEnv Sha2.sha512) [.pSetBytes 0 #v[0x01, 0x00, 0x00, 0x00, 0x00, 0x00, 0x00, 0x00, 0x00, 0x00, 0x00, 0x00, 0x00, 0x00, 0x00, 0x00, 0x00, 0x00, 0x00, 0x00, 0x00, 0x00,
      0x00, 0x00, 0x00, 0x00, 0x00, 0x00, 0x00, 0x00, 0x00, 0x00]] =
      some [.bool false] := by
  decide +kernel

/-- `TestRistretto255TestVectors` (ristretto_test.go:58-110): strings that must not decode, some of each kind. -/
example :
    outputs (goEnv Sha2.sha512) [.pSetBytes 0 #v[0xed, 0x57, 0xff, 0xd8, 0xc9, 0x14, 0xfb, 0x20, 0x14, 0x71, 0xd1, 0xc3, 0xd2, 0x45, 0xce, 0x3c, 0x74, 0x6f, 0xcb, 0xe6, 0x3a, 0x36,
      0x79, 0xd5, 0x1b, 0x6a, 0x51, 0x6e, 0xbe, 0xbe, 0x0e, 0x20]] =
      some [.bool false] ∧
    outputs (goEnv Sha2.sha512) [.pSetBytes 0 #v[0x26, 0x94, 0x8d, 0x35, 0xca, 0x62, 0xe6, 0x43, 0xe2, 0x6a, 0x83, 0x17, 0x73, 0x32, 0xe6, 0xb6, 0xaf, 0xeb, 0x9d, 0x08, 0xe4, 0x26,
      0x8b, 0x65, 0x0f, 0x1f, 0x5b, 0xbd, 0x8d, 0x81, 0xd3, 0x71]] =
      some [.bool false] ∧
    outputs (goEnv Sha2.sha512) [.pSetBytes 0 #v[0xbc, 0xab, 0x47, 0x7b, 0xe2, 0x08, 0x61, 0xe0, 0x1e, 0x4a, 0x0e, 0x29, 0x52, 0x84, 0x14, 0x6a, 0x51, 0x01, 0x50, 0xd9, 0x81, 0x77,
      0x63, 0xca, 0xf1, 0xa6, 0xf4, 0xb4, 0x22, 0xd6, 0x70, 0x42]] =
      some [.bool false] := by
  decide +kernel

/-- `TestRistretto255TestVectors` (ristretto_test.go:58-110): strings that must not decode, some of each kind. -/
example :
    outputs (goEnv Sha2.sha512) [.pSetBytes 0 #v[0x3e, 0xb8, 0x58, 0xe7, 0x8f, 0x5a, 0x72, 0x54, 0xd8, 0xc9, 0x73, 0x11, 0x74, 0xa9, 0x4f, 0x76, 0x75, 0x5f, 0xd3, 0x94, 0x1c, 0x0a,
      0xc9, 0x37, 0x35, 0xc0, 0x7b, 0xa1, 0x45, 0x79, 0x63, 0x0e]] =
      some [.bool false] ∧
    outputs (goEnv Sha2.sha512) [.pSetBytes 0 #v[0x22, 0x71, 0x42, 0x50, 0x1b, 0x9d, 0x43, 0x55, 0xcc, 0xba, 0x29, 0x04, 0x04, 0xbd, 0xe4, 0x15, 0x75, 0xb0, 0x37, 0x69, 0x3c, 0xef,
      0x1f, 0x43, 0x8c, 0x47, 0xf8, 0xfb, 0xf3, 0x5d, 0x11, 0x65]] =
      some [.bool false] ∧
    outputs (goEnv Sha2.sha512) [.pSetBytes 0 #v[0xec, 0xff, 0xff, 0xff, 0xff, 0xff, 0xff, 0xff, 0xff, 0xff, 0xff, 0xff, 0xff, 0xff, 0xff, 0xff, 0xff, 0xff, 0xff, 0xff, 0xff, 0xff,
      0xff, 0xff, 0xff, 0xff, 0xff, 0xff, 0xff, 0xff, 0xff, 0x7f]] =
      some [.bool false] := by
  decide +kernel

/-- `TestRistretto255TestVectors` (ristretto_test.go:112-136): `DeriveDalek`. -/
example :
    outputs (goEnv Sha2.sha512) [.pDeriveDalek 0 [82, 105, 115, 116, 114, 101, 116, 116, 111, 32, 105, 115, 32, 116, 114, 97, 100, 105, 116, 105, 111, 110, 97, 108, 108, 121, 32, 97,
      32, 115, 104, 111, 114, 116, 32, 115, 104, 111, 116, 32, 111, 102, 32, 101, 115, 112, 114, 101, 115, 115, 111, 32, 99, 111, 102, 102, 101, 101],
      .pBytes 0] =
      some [.unit, .bytes (hex 0x3066f82a1a747d45120d1740f14358531a8f04bbffe6a819f86dfe50f44a0a46)] := by
  decide +kernel

/-- `TestRistretto255TestVectors` (ristretto_test.go:112-136): `DeriveDalek`. -/
example :
    outputs (goEnv Sha2.sha512) [.pDeriveDalek 0 [109, 97, 100, 101, 32, 119, 105, 116, 104, 32, 116, 104, 101, 32, 110, 111, 114, 109, 97, 108, 32, 97, 109, 111, 117, 110, 116, 32,
      111, 102, 32, 103, 114, 111, 117, 110, 100, 32, 99, 111, 102, 102, 101, 101, 32, 98, 117, 116, 32, 101, 120, 116, 114, 97, 99, 116, 101, 100, 32, 119,
      105, 116, 104], .pBytes 0] =
      some [.unit, .bytes (hex 0xf26e5b6f7d362d2d2a94c5d0e7602cb4773c95a2e5c31a64f133189fa76ed61b)] := by
  decide +kernel

/-- `TestScDeriveShort` (scalar_test.go:264-276). -/
example :
    outputs (goEnv Sha2.sha512) [.sDeriveShort 0 [116, 101, 115, 116, 49], .sBytes 0] =
      some [.unit, .bytes (hex 0xb16ed7d24b3ecbd4164dcdad374e08c000000000000000000000000000000000)] ∧
    outputs (goEnv Sha2.sha512) [.sDeriveShort 0 [114, 105, 115, 116, 114, 101, 116, 116, 111], .sBytes 0] =
      some [.unit, .bytes (hex 0x27bf1d7100b6a72bd2b2f43babb948b500000000000000000000000000000000)] ∧
    outputs (goEnv Sha2.sha512) [.sDeriveShort 0 [100, 101, 99, 97, 102], .sBytes 0] =
      some [.unit, .bytes (hex 0x39e5d267455abfce52284ac648d4b97100000000000000000000000000000000)] := by
  decide +kernel

/-- `TestScDerive` (scalar_test.go:278-290). -/
example :
    outputs (goEnv Sha2.sha512) [.sDerive 0 [116, 101, 115, 116, 49], .sBytes 0] =
      some [.unit, .bytes (hex 0xf4f2ba0eccc056c32241b5e7f648ffe6bf870773e09104f0fd2c28fbd7fc5402)] ∧
    outputs (goEnv Sha2.sha512) [.sDerive 0 [114, 105, 115, 116, 114, 101, 116, 116, 111], .sBytes 0] =
      some [.unit, .bytes (hex 0xa17454b11da0ee4f9aed08190c61781c326a0c59bb449133bacc0c75308db805)] ∧
    outputs (goEnv Sha2.sha512) [.sDerive 0 [100, 101, 99, 97, 102], .sBytes 0] =
      some [.unit, .bytes (hex 0x8107e19264d3e54e9869de056c90dc245dbc097529c4a5ef0dae42e1f3cd7700)] := by
  decide +kernel

end Ristretto.Tests.Decoding
