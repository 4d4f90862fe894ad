import Verif.Props.Machine
import Verif.Props.Generic

/-!
# The test vectors of the repository, points

These are tests and not proofs of properties: they compare the model with outputs of the code that are recorded in the repository's own tests.  A program is run
on the model of the 64-bit build, with SHA-256 and SHA-512 as in `Spec/Sha2.lean`; strings are given as ASCII codes.
-/

namespace Ristretto.Tests
open Model Props
set_option autoImplicit false

/-- What the calls of a program return. -/
def outputs {F : Type} [FieldOps F] (e : Env F) (prog : List Cmd) : Option (List Out) := (run e Mem.init prog).map Prod.snd
/-- 32 bytes in hexadecimal, as `encoding/hex` writes them. -/
def hex (n : Nat) : List UInt8 := (List.range 32).reverse.map fun i => UInt8.ofNat (n / 256 ^ i)

/-- `TestRistretto255TestVectors` (ristretto_test.go:29-56): the first multiples of the base point. -/
example :
    outputs (goEnv Sha2.sha512) ([.pBase 1, .pZero 0] ++ (List.replicate 6 [.pBytes 0, .pAdd 0 1 0]).flatten) =
      some ([.unit, .unit] ++
        [.bytes (hex 0x0000000000000000000000000000000000000000000000000000000000000000), .unit] ++
        [.bytes (hex 0xe2f2ae0a6abc4e71a884a961c500515f58e30b6aa582dd8db6a65945e08d2d76), .unit] ++
        [.bytes (hex 0x6a493210f7499cd17fecb510ae0cea23a110e8d5b901f8acadd3095c73a3b919), .unit] ++
        [.bytes (hex 0x94741f5d5d52755ece4f23f044ee27d5d1ea1e2bd196b462166b16152a9d0259), .unit] ++
        [.bytes (hex 0xda80862773358b466ffadfe0b3293ab3d9fd53c5ea6c955358f568322daf6a57), .unit] ++
        [.bytes (hex 0xe882b131016b52c1d3337080187cf768423efccbb517bb495ab812c4160ff44e), .unit]) := by
  decide +kernel

/-- `TestLizardVectors` (ristretto_test.go:181-186), and decoding of the first one. -/
example :
    outputs (goEnv Sha2.sha512) [.pSetLizard 0 #v[0x00, 0x00, 0x00, 0x00, 0x00, 0x00, 0x00, 0x00, 0x00, 0x00, 0x00, 0x00, 0x00, 0x00, 0x00, 0x00], .pBytes 0, .pLizard 0] =
      some [.unit, .bytes (hex 0xf0b7e34484f74cf00f15024b738539738646bbbe1e9bc7509a676815227e774f), .lizard (some #v[0x00, 0x00, 0x00, 0x00, 0x00, 0x00, 0x00,
      0x00, 0x00, 0x00, 0x00, 0x00, 0x00, 0x00, 0x00, 0x00])] ∧
    outputs (goEnv Sha2.sha512) [.pSetLizard 0 #v[0x01, 0x01, 0x01, 0x01, 0x01, 0x01, 0x01, 0x01, 0x01, 0x01, 0x01, 0x01, 0x01, 0x01, 0x01, 0x01], .pBytes 0] =
      some [.unit, .bytes (hex 0xcc92e81f585afc5caac88660d8d17e9025a44489a363042123f6af0702156e65)] := by
  decide +kernel

/-- `TestIssue14` (scalar_test.go:319-342). -/
example :
    outputs (goEnv Sha2.sha512) [.sSetBytes 0 #v[0x41, 0xe9, 0x07, 0x6f, 0x39, 0x8e, 0xb7, 0x05, 0x1f, 0x46, 0x78, 0x5e, 0xbb, 0x28, 0xf5, 0xab, 0x2b, 0x7c, 0x1c, 0xdd, 0x56, 0x3e,
      0x35, 0xb8, 0x27, 0x2d, 0x7d, 0xf7, 0xfd, 0x9f, 0x41, 0x0f], .pSetBytes 0 #v[0x4a, 0xa6, 0xed, 0x7d, 0x99, 0x79, 0xf8, 0x0d, 0x51, 0xb4, 0x75, 0x5f,
      0xcc, 0xdf, 0x07, 0x24, 0x22, 0xd4, 0x70, 0x2d, 0x01, 0xcf, 0x69, 0x1d, 0x4e, 0x14, 0x7b, 0xc1, 0x10, 0x94, 0x6c, 0x24], .pScalarMultBase 1 0,
      .pEquals 0 1] =
      some [.unit, .bool true, .unit, .bool true] := by
  decide +kernel

/-- `TestPointDerive` (ristretto_test.go:11-27). -/
example :
    outputs (goEnv Sha2.sha512) [.pDerive 0 [116, 101, 115, 116], .pBytes 0] =
      some [.unit, .bytes (hex 0xb01d60504aa5f4c5bd9a7541c457661f9a789d18cb4e136e91d3c953488bd208)] ∧
    outputs (goEnv Sha2.sha512) [.pDerive 0 [112, 101, 112], .pBytes 0] =
      some [.unit, .bytes (hex 0x3286c8d171dec02e70549c280d62524430408a781efc07e4428d1735671d195b)] := by
  decide +kernel

set_option maxRecDepth 100000 in
/-- `TestPointDerive` in the generic build. -/
example : outputs (genericEnv Sha2.sha512) [.pDerive 0 [0x74, 0x65, 0x73, 0x74], .pBytes 0] =
    some [.unit, .bytes (hex 0xb01d60504aa5f4c5bd9a7541c457661f9a789d18cb4e136e91d3c953488bd208)] := by
  decide +kernel

end Ristretto.Tests
