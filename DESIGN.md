# Formal model of go-ristretto in Lean 4

## 1. Method

The Go code is modelled function by function as total, executable Lean functions on machine words: `UInt8`, `UInt32`,
`UInt64`, `Int8`, `Int32`, `Int64` of Lean core, which wrap around as Go's types do.  Theorems relate these functions to a small,
independent specification: integers, `ZMod p`, `ZMod l`, the affine Edwards curve with its addition law, the quotient
group `2E/E[4]`.  A panic is `none` in `Option`.

Layers (`/verif/lean/Verif`):

| directory | content |
|---|---|
| `Spec/`  | what the theorems talk about: p, l, the curve group, Ristretto classes, encodings, Elligator, Lizard, SHA-256, text formats, the abstract machine; and the representation relations (`Repr`, `Coords`, `Repr25`), which say what limbs and coordinates stand for. |
| `Model/` | the transcription of the Go code and assembly. Each definition cites `/repo` file and lines. |
| `Proofs/`| helper lemmas. |
| `Props/` | the property theorems `C01_...`, with examples that meet the hypotheses. |

The curve code (`curve.go`, `table.go`, `vartime.go`, `elligator.go`, `field.go`) is written once in Go for three field
implementations selected by build tags.  The model does the same: it is polymorphic in a class `FieldOps` of field primitives
(Model/FieldOps), instantiated by

* `Fe51`: radix 2^51, `field_radix51.go` + `field_mul64.go` (the default build off amd64);
* the amd64 routines of `field_amd64.s` on the same limbs (Model/Asm; C44 shows that they agree);
* `Fe25`: radix 2^25.5, `field_generic.go` (build tag `forcegeneric`);
* `Fp` itself (Proofs/Ideal), as a proof device for C50.

Proofs about curve code use a class `LawfulField` of laws with limb bounds, so that one proof serves all of them.

## 2. Properties

| id | property | status | how it is modelled and proved |
|---|---|---|---|
| C01 | Scalar.Add and Scalar.Sub compute modulo l | proved | 32-byte add/subtract loops on `UInt8`/`UInt32`; value mod l, borrow chain by induction over the loop |
| C02 | Scalar.Neg computes -a modulo l | proved | as C01, from 0 - a |
| C03 | Scalar.Mul and Square compute modulo l for every 256-bit operand | proved | int64 limbs (`Int64`, wrap-around) as a list of multiply/carry/fold steps; a verified interval analysis, run by the kernel, excludes overflow for all inputs; every step preserves the value mod l; range of the result from the carry structure |
| C04 | Scalar.MulAdd and MulSub compute a*b+c and a*b-c modulo l for every operand | proved | same interpreter as C03 |
| C05 | Scalar.Inverse inverts every non-zero scalar | proved | the addition chain as a straight-line program; its exponent is computed by the same interpreter; Fermat |
| C06 | Scalar.SetBytes reduces modulo l ignoring the top three bits | proved | same interpreter as C03 on the unpacked bytes |
| C07 | Scalar.SetBytesStrict accepts exactly the canonical encodings | proved | lexicographic comparison loop; accepted exactly if the value is below l |
| C08 | Scalar.SetReduced reduces a 512-bit integer modulo l | proved | same interpreter as C03 |
| C09 | Scalar byte encoding round-trips and is injective | proved | little-endian value is injective; byte slices of any length |
| C10 | Scalar big.Int and uint64 conversions | proved | `big.Int` is `Int`; byte reversal by induction |
| C11 | Scalar equality and zero tests | proved | byte loops |
| C12 | Scalar.ConditionalSet selects | proved | mask arithmetic on bytes |
| C13 | Scalars stay reduced and compute in Z/l along every history | proved | invariant over programs of the register machine |
| C14 | Method arguments may alias the receiver | proved | pointer-level model: every load and store of a method in source order on a heap in which receiver and arguments may coincide; equality with the functional model for all coincidences |
| C15 | Field add, sub, Neg are exact modulo 2^255-19 without word overflow | proved | limb bounds and value mod p on `UInt64` limbs |
| C16 | Field Mul, Square, DoubledSquare are exact modulo 2^255-19 | proved | 128-bit products from `bits.Mul64`/`bits.Add64`; bounds and value mod p |
| C17 | Field byte encoding is canonical | proved | final subtraction by carry propagation; canonical residue |
| C18 | Field predicates | proved | through C17 |
| C19 | Field inversion and square roots | proved | exponents of the addition chains, Fermat, Euler criterion with i = sqrt(-1) |
| C20 | Hard-coded field constants are what their comments say | proved | kernel arithmetic; Lucas/Pratt certificates |
| C21 | Point.Add/Sub/Double/Neg implement the group law | proved | projective formulas against the affine Edwards law |
| C22 | Points form a commutative group | proved | group instance: associativity by explicit polynomial cofactors |
| C23 | The group has prime order l | proved | #E <= 2p < 16 l, a point of order l and a point of order 8 |
| C24 | Point.Equals is Ristretto equality | proved | cross-multiplied equality against cosets of E[4] |
| C25 | Point encoding is canonical | proved | canonical representative of a coset; encoding formula |
| C26 | SetBytes inverts Bytes | proved | C25 + C27 |
| C27 | SetBytes accepts exactly the canonical encodings | proved | decoding formula inverts the encoding formula; both directions |
| C28 | ScalarMult computes s*q | proved | signed window recoding by induction over digits; loop invariant acc = (partial sum) * q |
| C29 | PublicScalarMult computes s*q | proved | NAF recoding; loop invariant; `Option` for index panics |
| C30 | Table based scalar multiplication | proved | as C28 with the table of multiples |
| C31 | Base point multiplication uses a correct table | proved | the 256 table entries checked on the curve by the kernel, then C30 |
| C32 | Scalar multiplication is a module action | proved | from C28, C22, C23 |
| C33 | ConditionalSet on points selects | proved | mask arithmetic |
| C34 | SetElligator is total | proved | Jacobi quartic algebra; RFC 9496 map as specification |
| C35 | Derive and DeriveDalek | proved | C34 for any 64-byte hash |
| C36 | Elligator inverse returns exactly the preimages | partial | all eight square-root cases of the inverse; exact preimage set |
| C37 | Lizard never decodes wrongly | proved | byte packing; preimage list filtered by the hash; for SHA-256 (specified in Spec/Sha256) the exceptional classes are excluded by computation |
| C38 | Binary marshalling of points | proved | C25-C27 with length checks |
| C39 | Text marshalling round-trips | proved | base64/hex models from the documentation |
| C40 | Text unmarshalling never crashes | partial | exact characterisation of the panicking inputs |
| C41 | Every reachable point is valid and even | proved | invariant over programs |
| C42 | The API refines the abstract prime-order group | proved | forward simulation: register machine over the API against a machine on group elements and Z/l |
| C43 | ElGamal from the README decrypts | proved | corollary of C42 for the README program |
| C44 | The amd64 assembly agrees with the Go code | proved | interpreter for the instructions used in field_amd64.s; each routine equals the Go routine on bounded limbs |
| C45 | The generic (forcegeneric) build decodes and adds correctly | partial | counterexample evaluated by the kernel; point-level theorems with limb bounds |
| C46 | Constant-time execution of secret-dependent operations | proved | writer monad recording branches and array indices; the traced functions erase to the model (C46_values); traces of constant-time calls are functions of the public part of the call, by induction over loops and programs |
| C47 | A point variable that was never set or failed to decode poisons what it touches | proved | abstract machine with a blank value |
| C48 | The coordinate systems of package edwards25519 agree | proved | as C21 with per-coordinate-system limb bounds |
| C49 | Field arithmetic of the generic build is arithmetic modulo 2^255-19 | proved | limb bounds and value mod p on `Int32`/`Int64` limbs |
| C50 | Programs that keep decoded points out of second operands agree in all builds | proved | logical relation between the generic field and GF(2^255-19) (ideal field), through all curve code and the register machine; composed with C42 over the ideal field |
| C51 | Programs over the C reference implementation compute in the Ristretto group | proved | limb-level model of cref.c; simulation with the ideal field GF(2^255-19) with limb bounds counted in multiples of a reduced limb; then the lawful-field theorems; induction over programs |
| C52 | The Go package agrees with the C reference implementation | proved | corollary of C51 and C42: both machines refine abstract machines that agree call by call |
| C53 | Which buffers GroupGe.Unpack accepts | proved | from C51 and the characterisation of encodings; witnesses computed |
| C54 | Point functions of the C reference implementation are complete on the curve | proved | simulation with the ideal field; group law theorems of the ideal field; window recoding shared with C05 |
| C55 | Goroutines may share variables that none of them sets | proved | methods as programs of word loads and stores; each program's footprint lies within the variables its calls use and set, by structural proof per method; non-interference by induction over schedules; the programs run alone equal the sequential model (`spec_call`), hence C42 |
| C56 | Sharing of variables between goroutines in the generic build | partial | as C55 with the in-place `BytesInto` modelled statement by statement; refuted as stated by a two-goroutine schedule, proved when `Lizard` counts as a write |
| C57 | Text forms: exactly which texts UnmarshalText accepts and what MarshalText writes | proved | parsers as loops over quanta; induction over quanta shows that they compute base conversion; specification by digits and big-endian values |
| C58 | Scalar.Rand is uniform but for a negligible bias | proved | bijection of buffers with numbers below 2^512, and the number of those in a residue class |
| C59 | Point.Rand has no frequent results | proved | C36: at most eight preimages up to sign; at most four buffers per field element; summation over all elements |
| C60 | Programs over package edwards25519 compute on the curve | proved | register machine over the exported methods; invariant relating every variable to an abstract value with its limb bound; induction over programs |
| C61 | Scalar multiplications and Niels points of package edwards25519 work for all arguments | partial | loop invariants of C28-C31 within the range; recodings evaluated on the bad scalars, then the same invariants; in-place Neg by field algebra |
| C62 | Scalar arithmetic of the C reference implementation | proved | column sums bounded by induction over the loops; Barrett estimate by integer arithmetic on the partial products; carries and borrows by induction over the digits; inversion by evaluating the exponents of the chain |
| C63 | The whole C reference implementation | proved | simulation of cref.c over its 10-limb field elements by the exact field, with a size per field variable; the 425 table entries are compared with multiples of the base point by kernel computation, the signed radix-8 digits by exhaustive checks on bytes and induction; induction over programs |
| C64 | The multiple each multiplication of package edwards25519 computes, for every 32-byte scalar | proved | the recoding loops are followed for every scalar: the lower digits are balanced, so the top digit is a rounded quotient (Spec/EdRange.lean), and a digit outside the lookup table selects nothing; for the exact sets, the base point is not killed by a small multiple of a power of two |
| C65 | The debug texts of package edwards25519 show the values | proved | decimal digits by induction on the number; the canonical value from C17, the encoding from C25 |
| C66 | The amd64 assembly reveals nothing about its operands | proved | the interpreter of the assembly also records accesses; an abstract run that tracks which registers hold which argument is compared with it by induction over the instructions |
| C67 | Sliding windows of the C reference implementation | proved | the loops as recursion over the list of digits; an induction over the window shows that below the last bit of the window the first branch is taken, at it the second, and after it none; then an induction over the digits |
| C68 | Coordinates through the accessors of the C reference implementation | proved | the accessors as selectors of the coordinates; the relation of C54 between coordinates and points gives reading, an induction over the calls gives writing |
| C69 | Points of the Jacobi quartic | proved | the identities between quartic and curve as polynomial identities (EllMath, EllInverse), then the four cosets of E[4] by cases |
| C70 | Panics leave all variables as they were | proved | programs of loads and stores run with the memory kept at a panic; one call at a time: a call that panics is `.fail` before any access, the others are C55's refinement of the machine of C42; induction on the program |
| C71 | Scalars that are not reduced | proved | relation between memories and group elements with numbers below 2^256; per-call lemmas: the scalar code is exact for all words (Proofs/ScalarAddSub.lean, Proofs/ScalarMul*.lean), the multiplications by C60's exact results and their counterparts for blank points (Proofs/DegExact.lean), the other calls by C42; induction on the program |
| C72 | Recovering from panics on scalars that are not reduced | proved | programs of loads and stores run with the memory kept at a panic, related to group elements and numbers below 2^256; the additions before the panic are those of the odd digits, whose values are differences of rounded quotients; induction on the program |
| C73 | Which elements hashing reaches, and how often | proved | at most sixteen preimages of each element under Elligator (C36), so at least p/16 elements; sums of two of them by the Cauchy-Davenport theorem in a group of prime order |
| C74 | No signed overflow in the C implementation | proved | the field functions of cref.c once more on integers with an overflow flag; bounds of all intermediate values; machine runs in which an overflow destroys the value, by the same simulation as C51 and C63 The windows of scalars (`Props/CrefWindows.lean`) are computed again in ℤ, with a list of all assigned values; induction on the digits. |
| C75 | Programs that reach into the coordinates of points | proved | the machine of C51 with pointers to coordinates; the same code over exact field elements as specification; simulation with the bounds of C51, which do not need points to be on the curve |
| C76 | How many points carry Lizard data | proved | at most eight non-negative preimages under Elligator (C36); decodings are sound (C37); bounds on frequent results of Rand and Derive (C59, C73) |
| C77 | Random keys and masks are spread evenly over the group | proved | `Props/Keys.lean`. Every element other than 0 generates the group of prime order (C23), so that `k·Q = g` has one solution below `l`. The count for this scalar is that of C58; DeriveShort is the number modulo 2^128, and `Nat.count_modEq_card` counts. |
| C78 | Conformance with RFC 9496 | proved | `Spec/Rfc9496.lean` transcribes the constants and formulas of section 4 of the RFC; `Proofs/Rfc9496.lean` proves that its SQRT_RATIO_M1 returns the non-negative root, or that of `i` times the ratio, that Decode gives the point `DecodesTo` describes, that Encode of any coordinates is an encoding in the sense of `Enc`, and that MAP is the map `Elligator` of the specification. `Props/Rfc.lean` joins this with what the code was proved to do. |
| C79 | Constant-time methods are straight-line programs on machine words | proved | the code written again over expressions (`Model/Oblivious.lean`, `Model/ObliviousMachine.lean`; `Model/Oblivious25.lean` for the generic field), a type without test, comparison or index; for every function the value of its expressions is the function of the model (`Proofs/Oblivious.lean`); then induction over programs (`Proofs/ObliviousMachine.lean`) |
| C80 | Indices stay in range; exactly which calls panic | proved | the loops written again statement by statement with counters and checked indices (`Model/Loops.lean`), where an index out of range is a panic; for every function equality with the model of the other properties for any contents (`Proofs/Loops.lean`, `Proofs/LoopsVar.lean`, `Proofs/LoopsBytes.lean`), then induction over programs; the panics from the digits of `C64` |
| C81 | The C reference implementation stays inside its arrays and reads nothing it has not set | proved | the loops of cref.c on arrays of cells that start unset, with scalars in memory behind pointers (`Model/CrefLoops.lean`); an access out of range or of an unset cell is `none`. For every function equality with the functional model from arbitrary old contents of the output (`Proofs/CrefLoops.lean`, `Proofs/CrefLoopsMult.lean`): loops that fill an array, carry chains, nested column sums and loops that only read by induction once and for all; then induction over programs (`Proofs/CrefLoopsRun.lean`). Which scalars a call reads and sets is in `Spec/CrefInit.lean` |
| C82 | The C reference implementation may be called with coinciding pointers and reads no unset variable | proved | cref.c function by function as statements on memory cells reached through pointers, with locals that start unset (`Model/CrefPtr.lean`); reading an unset cell is `none`. A weakest-precondition rule for every kind of statement, with values named so that terms stay small (`Proofs/CrefPtr.lean`); then each function for arbitrary pointers (`Proofs/CrefPtrGroup.lean`, `Proofs/CrefPtrMult.lean`, `Proofs/CrefPtrBase.lean`), loops by induction, and programs by induction (`Proofs/CrefPtrRun.lean`). Which cells a call reads and sets, and its effect on values, is in `Spec/CrefPtr.lean` |
| C83 | Calls of the amd64 assembly keep the frame pointer of the caller | partial | the instructions of `Model/Asm.lean` with the registers after the call (`Model/AsmCall.lean`); a register no instruction of a program names as its destination keeps its contents, by induction over the instructions (`Proofs/AsmCall.lean`); what `feMul` leaves in BP by following the three instructions that set it |
| C84 | No operation of the default field arithmetic wraps around | proved | the functions of field_radix51.go and field_mul64.go on words that carry a flag for anything lost (`Model/Field51Checked.lean`); intervals for every limb and accumulator (`Proofs/Field51Checked.lean`); the field with these checks is a lawful backend (`Proofs/Field51CheckedSim.lean`), so that all programs run as without the checks |
| C85 | No operation in the multiplication and reduction of scalars overflows | proved | the statements of `Model/Scalar.lean` on `int64` numbers with a flag for overflow (`Model/ScalarChecked.lean`); the interval analysis behind C03, C04 and C08 gives exactness of every operation (`Proofs/ScalarChecked.lean`) |
| C86 | No operation of the generic field arithmetic overflows, except after decoding | proved | the functions of field_generic.go on `int32` and `int64` numbers with a flag for anything lost (`Model/Field25Checked.lean`); intervals for every intermediate number (`Proofs/Field25Checked.lean`); the field with these checks simulates the ideal field exactly where the unchecked one does (`Proofs/Field25CheckedSim.lean`, on top of C50) |
| C87 | Programs over field elements in the generic build agree with the default build | proved | the machine of C60 with the rewriting of receivers by `BytesInto` (`Model/EdGeneric.lean`); every field variable stays within two units of C50 and follows an element of GF(p); the comparison of two such elements needs a wider bound for `BytesInto` (`Proofs/Field25Wide.lean`); the default build follows the same elements (`Proofs/EdGeneric.lean`), and so do numbers that remember a loss (`Proofs/EdGenericChecked.lean`) |
| C88 | Programs over package edwards25519 in the generic build compute on the curve | proved | the machine of C87; a relation between the memories of the generic build and of the ideal field that keeps every extended point within the loose bounds of C50 and the unrestricted ones within the bounds that allow a second factor (`Proofs/EdGenericAll.lean`); C60 then applies over GF(p); the same for numbers that remember a loss; a program outside the check that gives a wrong sum |
| C89 | Every build configuration is complete and portable | proved | the rules of the go command with a parser for both notations of constraints, and what each file declares and mentions (`Model/Build.lean`); the constraints become Boolean functions of three tags, whatever the others are (`Proofs/Build.lean`); the five resulting sets of files are checked (`Proofs/BuildComplete.lean`); C42, C44 and C50 for the programs |

## 3. What is false of the code

These came up while proving; each has a theorem with a concrete witness.

1. `UnmarshalText` of Point and Scalar panics on some inputs of at least 44 characters (`C40_panics`): the decoded bytes do not fit the
   32-byte buffer.
2. The generic build computes a wrong sum when the second operand was just decoded (`C45_false`): `BytesInto` reduces its receiver
   in place to limbs of up to 2^26, and `19*b[i]` overflows int32 in `Mul`.  Decoded points are right as first operands.
3. `RistrettoElligator2Inverse` misses one preimage of the neutral class (`C36_false`).
4. Lizard decoding can fail for an artificial hash function (`C37_false_for_some_hash`), but not for SHA-256.
5. `Scalar.Equals` is not symmetric, and `Add` is wrong, on unreduced scalars (`C11_equals_asymmetric`,
   `C01_add_unreduced_wrong`); the exported API keeps scalars reduced (C13).
6. `DoubledSquare` overflows for limbs near 2^54 (`C16_doubledSquare_overflow`); limbs that occur are far smaller (C48).
7. A variable that was never set, or failed to decode, equals every point (`C47_blank_observed`).
8. The C reference implementation accepts encodings that are not canonical (`C53_noncanonical`); the Go package rejects them, as the
   Ristretto specification demands.
9. In the generic build `Lizard` and `LizardInto` write to the coordinates of their receiver (`BytesInto` works in place): two goroutines
   that call them on the same point race (`C56_race`), and there is a schedule after which the point is another one (`C56_false`).

10. `NielsPoint.Neg` is wrong in place (`C61_niels_neg_false`): it overwrites YPlusX before reading it.  The package calls it only with
    distinct variables.
11. In package edwards25519 `ScalarMult` by 2^255 gives the neutral element (`C61_scalarMult_false`); `VarTimeScalarMult` and the
    table version of `ScalarMult` by 2^256-1 give -P, and the table version of `VarTimeScalarMult` panics (`C61_varTime_false`).
    Reduced scalars are below 2^253 and not affected.
12. `SetBase` does not store (x, 4/5), as its comment says, but another point of the same coset (`C61_base_false`).
13. In cref.c `fe25519_triple` multiplies by four when called in place (`C63_triple_in_place`), `group_ge_multiscalarmult` loses the
    operand it overwrites (`C63_multi_in_place`), and `fe25519_sqrti` says that 0 is not a square (`C63_roots`).  Nothing in
    the repository calls them like this.
14. cref.c shifts negative numbers to the left, which ISO C leaves undefined and gcc and clang define (`C74_iso_shifts`).
15. `feMul` in field_amd64.s overwrites BP, the frame pointer of its caller (`C83_mul_false`); `feSquare` does not.
16. The constraint `amd64 AND !go1.13` of field_amd64.s means `amd64 or AND or not go1.13`, so the file is assembled in every amd64 build
    (`C89_assembly`).  From Go 1.13 on nothing declares or calls its functions, so this is harmless.

Other observations: `epBase` is not the point (x, 4/5) but that point plus a 4-torsion point (same Ristretto element).
`ScalarMult` needs s < 2^254, the table-based and variable-time versions s < 2^255; reduced scalars are below 2^253.

## 4. Trusted base

* Lean's kernel (4.33.0). No `sorry`, no `native_decide`, no `bv_decide`, no axioms of our own.
* Axioms: every theorem depends at most on `propext`, `Classical.choice`, `Quot.sound`.
* The transcription of the Go source and the assembly into Lean, which is by hand (tables and constants by script from the source text).
* Go's semantics of fixed-width arithmetic, as that of Lean's `UIntN`/`IntN`.
* The instruction semantics in Model/Asm (MULQ, ADDQ, ADCQ, SHLQ, ANDQ, IMUL3Q, MOVQ, ...).
* The documented behaviour of `encoding/hex`, `encoding/base64` (RawURLEncoding, non-strict), `math/big` (Mod, Bytes, SetBytes),
  `math/bits`, `crypto/subtle`, as modelled in Model/Text, Model/Scalar, Model/Word.
* SHA-256 is specified in Spec/Sha256 from FIPS 180-4; that Go's `crypto/sha256` computes it is assumed.  SHA-512 is an arbitrary function
  in every theorem.  The random generator is an arbitrary sequence of bytes.
* For C78, that Spec/Rfc9496 is what section 4 of RFC 9496 says; it is transcribed with the names of the RFC so that it can be compared.
* The transcription of the code was also tried out, outside this directory, on the test vectors in `/repo`: the model evaluated on the
  inputs of the tests (encodings, hashes to points, Lizard, bad encodings, in both radices) gives the outputs the tests expect.  This is
  a test of the model, not part of any proof.

## 5. What is modelled and what is not

Modelled: all of `ristretto.go`, `scalar.go` and, in `edwards25519/`, `curve.go`, `table.go`, `vartime.go`, `elligator.go`, `field.go`,
`field_radix51.go`, `field_mul64.go`, `field_amd64.s`, `field_generic.go`, `table_radix51.go`, `table_generic.go`; of `cref/`, `cref.go` and all of `cref.c`.

Not modelled:

* In `cref/`: cgo itself. Signed overflow, undefined in C, is modelled as wraparound; C74 proves that none occurs in the field functions and in the windows of scalars. The other integers (counters, flags, tests of bytes) are small and not covered by C74. `<<` of negative numbers is what gcc and clang define (`C74_iso_shifts`). `signed char` and `int` are 8 and 32 bits, right shifts of negative numbers are arithmetic.
* The tests. `FieldElement.SetI`, `SetZero`, `SetOne` are the constants `feI`, `feZero`, `feOne`.
* The Go calling convention of the assembly, but for BP (C83). The selection of files by build tags is modelled for package edwards25519 (C89), from the documentation of the go command; type checking and linking are reduced to declared and mentioned names.
* Concurrency: goroutines of the client that share variables are modelled (Model/Conc, C55, C56) with sequentially consistent word accesses. Clients that break the rule of C55 (data races) and weak memory are not. The package itself has no goroutines and no mutable globals after `init`.
* Timing below the level of the Go source: C46 is about branches and array indices of the source, C66 about the memory accesses of the assembly, C79 about the operations on words in the source; none of them is about what a compiler emits or how long an instruction takes.
* Memory allocation, and errors returned by `fmt`.

Loops over fixed ranges are modelled as folds over lists; loops in `vartime.go` with `Option` for out-of-range indices.
Model/Loops has them again statement by statement, with counters and checked indices, and C80 that both agree.
Aliasing of pointers is modelled separately (Model/Alias, Model/AliasField, Model/AliasGeneric, C14; for cref.c Model/CrefPtr and Model/CrefLoops, C81 and C82); the functional model is for distinct variables.

## 6. Tests of the theorems

`seeded/LOG.jsonl` records edits of the model, made in a scratch copy the way a bug would change the program, with the theorems that
then fail to check.  Theorems that survived although their claim had become false were tightened.

The model itself cannot be run against the code here.  `lean/Verif/Tests` runs it on test vectors recorded in the repository's tests (`Derive`, `DeriveDalek`, `SetLizard`, `Lizard`,
multiples of the base point, strings that must not decode, `Scalar.Derive`, `Scalar.DeriveShort`, issue 14), with SHA-2 as in `Spec/Sha2.lean`.  All vectors in ristretto_test.go and
scalar_test.go were tried; some of each kind are kept, because they take long to check.  These are tests, and no property rests on them.
