{
 "claims": [
  {
   "property": "C01",
   "status": "proved",
   "theorems": [
    "Ristretto.Props.C01_add",
    "Ristretto.Props.C01_sub",
    "Ristretto.Props.C01_add_unreduced",
    "Ristretto.Props.C01_add_unreduced_wrong"
   ],
   "note": "All reduced operands; C01_add_unreduced gives the wider range a+b<2l, C01_add_unreduced_wrong shows that a hypothesis is needed."
  },
  {
   "property": "C02",
   "status": "proved",
   "theorems": [
    "Ristretto.Props.C02_neg"
   ],
   "note": "All reduced operands."
  },
  {
   "property": "C03",
   "status": "proved",
   "theorems": [
    "Ristretto.Props.C03_mul",
    "Ristretto.Props.C03_square"
   ],
   "note": "All 2^512 pairs of arrays, no hypothesis."
  },
  {
   "property": "C04",
   "status": "proved",
   "theorems": [
    "Ristretto.Props.C04_mulAdd",
    "Ristretto.Props.C04_mulSub"
   ],
   "note": "All triples of arrays, no hypothesis."
  },
  {
   "property": "C05",
   "status": "proved",
   "theorems": [
    "Ristretto.Props.C05_inverse"
   ],
   "note": "All arrays."
  },
  {
   "property": "C06",
   "status": "proved",
   "theorems": [
    "Ristretto.Props.C06_setBytes"
   ],
   "note": "All buffers."
  },
  {
   "property": "C07",
   "status": "proved",
   "theorems": [
    "Ristretto.Props.C07_setBytesStrict"
   ],
   "note": "All buffers and receivers."
  },
  {
   "property": "C08",
   "status": "proved",
   "theorems": [
    "Ristretto.Props.C08_setReduced"
   ],
   "note": "All 64-byte buffers."
  },
  {
   "property": "C09",
   "status": "proved",
   "theorems": [
    "Ristretto.Props.C09_bytes",
    "Ristretto.Props.C09_roundtrip",
    "Ristretto.Props.C09_unmarshal"
   ],
   "note": "All scalars and byte slices."
  },
  {
   "property": "C10",
   "status": "proved",
   "theorems": [
    "Ristretto.Props.C10_bigInt"
   ],
   "note": "All integers and words; big.Int.Mod and big.Int.Bytes are modelled from their documentation."
  },
  {
   "property": "C11",
   "status": "proved",
   "theorems": [
    "Ristretto.Props.C11_isNonZero",
    "Ristretto.Props.C11_equals",
    "Ristretto.Props.C11_equals_asymmetric"
   ],
   "note": "Equality needs only the argument reduced; C11_equals_asymmetric is a witness that it is needed."
  },
  {
   "property": "C12",
   "status": "proved",
   "theorems": [
    "Ristretto.Props.C12_conditionalSet"
   ],
   "note": "All scalars."
  },
  {
   "property": "C13",
   "status": "proved",
   "theorems": [
    "Ristretto.Props.C13_scalar_history",
    "Ristretto.Props.C42_simulation"
   ],
   "note": "Every program over all public methods, every aliasing of variables, every function for SHA-512."
  },
  {
   "property": "C14",
   "status": "proved",
   "theorems": [
    "Ristretto.Props.C14_points",
    "Ristretto.Props.C14_scalars",
    "Ristretto.Props.C14_field",
    "Ristretto.Props.C14_roots",
    "Ristretto.Props.C14_roots_values",
    "Ristretto.Props.C14_abs",
    "Ristretto.Props.C14_frame",
    "Ristretto.Props.C14_refinement",
    "Ristretto.Props.C14_points_words",
    "Ristretto.Props.C14_scalars_words",
    "Ristretto.Props.C14_programs_words",
    "Ristretto.Props.C14_field_generic",
    "Ristretto.Props.C14_field_generic_values"
   ],
   "note": "Pointer-level model (Model/Alias.lean): loads and stores in source order, arbitrary contents of locals. Methods whose only pointer to the receiver type is the receiver store the value computed by the functional model. ScalarMult and VarTimeScalarMult are modelled statement by statement. The _words theorems are for every backend, on the word-level memory of Model/Conc.lean, where a field operation loads its arguments before it stores; C14_field_generic goes below that for field_generic.go, limb by limb."
  },
  {
   "property": "C15",
   "status": "proved",
   "theorems": [
    "Ristretto.Props.C15_add",
    "Ristretto.Props.C15_sub",
    "Ristretto.Props.C15_neg",
    "Ristretto.Props.C15_normalize",
    "Ristretto.Props.C15_double",
    "Ristretto.Props.C15_Add_Sub"
   ],
   "note": "Limb bounds far above those that occur (2^63). That no single operation wraps around on the way is C84."
  },
  {
   "property": "C16",
   "status": "proved",
   "theorems": [
    "Ristretto.Props.C16_mul",
    "Ristretto.Props.C16_square",
    "Ristretto.Props.C16_doubledSquare",
    "Ristretto.Props.C16_doubledSquare_overflow"
   ],
   "note": "Mul and Square up to 2^54; DoubledSquare up to 6*(2^51+2^18), and C16_doubledSquare_overflow shows that it fails at 2^54-1."
  },
  {
   "property": "C17",
   "status": "proved",
   "theorems": [
    "Ristretto.Props.C17_bytes",
    "Ristretto.Props.C17_setBytes",
    "Ristretto.Props.C17_canonical",
    "Ristretto.Props.C17_bigInt"
   ],
   "note": "All limb vectors up to 2^63, all buffers, all integers."
  },
  {
   "property": "C18",
   "status": "proved",
   "theorems": [
    "Ristretto.Props.C18_predicates"
   ],
   "note": ""
  },
  {
   "property": "C19",
   "status": "proved",
   "theorems": [
    "Ristretto.Props.C19_inverse",
    "Ristretto.Props.C19_sqrt",
    "Ristretto.Props.C19_invSqrtI"
   ],
   "note": ""
  },
  {
   "property": "C20",
   "status": "proved",
   "theorems": [
    "Ristretto.Props.C20_primes",
    "Ristretto.Props.C20_constants"
   ],
   "note": "Primality by Pocklington/Lucas certificates checked in the kernel."
  },
  {
   "property": "C21",
   "status": "proved",
   "theorems": [
    "Ristretto.Props.C21_group_law",
    "Ristretto.Props.C21_edwards",
    "Ristretto.Props.C21_classes"
   ],
   "note": "All valid points in all projective representations."
  },
  {
   "property": "C22",
   "status": "proved",
   "theorems": [
    "Ristretto.Props.C22_group"
   ],
   "note": ""
  },
  {
   "property": "C23",
   "status": "proved",
   "theorems": [
    "Ristretto.Props.C23_prime_order"
   ],
   "note": ""
  },
  {
   "property": "C24",
   "status": "proved",
   "theorems": [
    "Ristretto.Props.C24_equals",
    "Ristretto.Props.C24_congruence",
    "Ristretto.Props.C24_torsion"
   ],
   "note": ""
  },
  {
   "property": "C25",
   "status": "proved",
   "theorems": [
    "Ristretto.Props.C25_bytes",
    "Ristretto.Props.C25_canonical"
   ],
   "note": ""
  },
  {
   "property": "C26",
   "status": "proved",
   "theorems": [
    "Ristretto.Props.C26_roundtrip"
   ],
   "note": ""
  },
  {
   "property": "C27",
   "status": "proved",
   "theorems": [
    "Ristretto.Props.C27_exact"
   ],
   "note": ""
  },
  {
   "property": "C28",
   "status": "proved",
   "theorems": [
    "Ristretto.Props.C28_scalarMult",
    "Ristretto.Props.C28_classes"
   ],
   "note": "All scalars below 2^254."
  },
  {
   "property": "C29",
   "status": "proved",
   "theorems": [
    "Ristretto.Props.C29_publicScalarMult",
    "Ristretto.Props.C29_agrees"
   ],
   "note": "All scalars below 2^255; Option models index panics."
  },
  {
   "property": "C30",
   "status": "proved",
   "theorems": [
    "Ristretto.Props.C30_compute",
    "Ristretto.Props.C30_table",
    "Ristretto.Props.C30_compute_mult"
   ],
   "note": ""
  },
  {
   "property": "C31",
   "status": "proved",
   "theorems": [
    "Ristretto.Props.C31_table",
    "Ristretto.Props.C31_scalarMultBase"
   ],
   "note": ""
  },
  {
   "property": "C32",
   "status": "proved",
   "theorems": [
    "Ristretto.Props.C32_module"
   ],
   "note": ""
  },
  {
   "property": "C33",
   "status": "proved",
   "theorems": [
    "Ristretto.Props.C33_conditionalSet"
   ],
   "note": ""
  },
  {
   "property": "C34",
   "status": "proved",
   "theorems": [
    "Ristretto.Props.C34_map",
    "Ristretto.Props.C34_setElligator",
    "Ristretto.Props.C34_neg",
    "Ristretto.Props.C34_api"
   ],
   "note": ""
  },
  {
   "property": "C35",
   "status": "proved",
   "theorems": [
    "Ristretto.Props.C35_derive"
   ],
   "note": "For every hash function in place of SHA-512."
  },
  {
   "property": "C36",
   "status": "partial",
   "theorems": [
    "Ristretto.Props.C36_inverse_partial",
    "Ristretto.Props.C36_neutral_partial",
    "Ristretto.Props.C36_false"
   ],
   "note": "False of the code on the neutral class: C36_false. Exact on all other classes, and on the neutral class exact but for one element."
  },
  {
   "property": "C37",
   "status": "proved",
   "theorems": [
    "Ristretto.Props.C37_setLizard",
    "Ristretto.Props.C37_sound",
    "Ristretto.Props.C37_roundtrip",
    "Ristretto.Props.C37_roundtrip_partial",
    "Ristretto.Props.C37_exact",
    "Ristretto.Props.C37_lizard",
    "Ristretto.Props.C37_false_for_some_hash"
   ],
   "note": "Proved in full for SHA-256, the hash function of the code. As stated for every hash function the round trip is false: C37_false_for_some_hash."
  },
  {
   "property": "C38",
   "status": "proved",
   "theorems": [
    "Ristretto.Props.C38_roundtrip",
    "Ristretto.Props.C38_exact"
   ],
   "note": ""
  },
  {
   "property": "C39",
   "status": "proved",
   "theorems": [
    "Ristretto.Props.C39_point",
    "Ristretto.Props.C39_hex",
    "Ristretto.Props.C39_scalar"
   ],
   "note": "encoding/base64 and encoding/hex are modelled from their documentation."
  },
  {
   "property": "C40",
   "status": "partial",
   "theorems": [
    "Ristretto.Props.C40_panics",
    "Ristretto.Props.C40_scalar_partial",
    "Ristretto.Props.C40_point_partial",
    "Ristretto.Props.C40_short_partial"
   ],
   "note": "False of the code: C40_panics. The exact set of inputs that panic is proved."
  },
  {
   "property": "C41",
   "status": "proved",
   "theorems": [
    "Ristretto.Props.C41_reachable",
    "Ristretto.Props.C41_valid"
   ],
   "note": "C41_reachable: after any program every point variable is valid or blank (never set, or failed decoding). C41_valid: programs that set variables before use and whose decodings succeed have only valid points."
  },
  {
   "property": "C42",
   "status": "proved",
   "theorems": [
    "Ristretto.Props.C42_refinement",
    "Ristretto.Props.C42_simulation",
    "Ristretto.Props.C42_representation_independent"
   ],
   "note": "Every program over all public methods of Point, Scalar and ScalarMultTable, from Go zero values; outputs include panics."
  },
  {
   "property": "C43",
   "status": "proved",
   "theorems": [
    "Ristretto.Props.C43_elgamal_program",
    "Ristretto.Props.C43_elgamal"
   ],
   "note": "The program of the README for all outcomes of the random generator, and the same for arbitrary messages and keys."
  },
  {
   "property": "C44",
   "status": "proved",
   "theorems": [
    "Ristretto.Props.C44_mul",
    "Ristretto.Props.C44_square",
    "Ristretto.Props.C44_doubledSquare",
    "Ristretto.Props.C44_programs"
   ],
   "note": "Interpreter for the instructions of field_amd64.s. The instruction semantics (MULQ, ADDQ, ADCQ, SHLD form of SHLQ, ...) are part of the trusted model; the calling convention is not modelled, but for the saving of BP (C83)."
  },
  {
   "property": "C45",
   "status": "partial",
   "theorems": [
    "Ristretto.Props.C45_false",
    "Ristretto.Props.C45_points_partial",
    "Ristretto.Props.C45_decode_partial",
    "Ristretto.Props.C50_agreement"
   ],
   "note": "False of the code: C45_false refutes the full statement C45_full with the encoding of 7 times the base point. C45_points_partial: Add, Sub, Double, Neg correct for all points when the second operand has bounded limbs. C45_decode_partial: decoding and encoding agree with the default build for every buffer."
  },
  {
   "property": "C46",
   "status": "proved",
   "theorems": [
    "Ristretto.Props.C46_call",
    "Ristretto.Props.C46_programs",
    "Ristretto.Props.C46_two_runs",
    "Ristretto.Props.C46_scalarMult",
    "Ristretto.Props.C46_scalarMultTable",
    "Ristretto.Props.C46_lizard",
    "Ristretto.Props.C46_values",
    "Ristretto.Props.C46_public"
   ],
   "note": "Leakage model at the level of the Go source (Model/Leak.lean): branches and array indices are observed, functions without either are one event. Instruction timing and the compiler are not modelled. C46_public: the Public variants do leak."
  },
  {
   "property": "C47",
   "status": "proved",
   "theorems": [
    "Ristretto.Props.C47_failed_decode",
    "Ristretto.Props.C47_blank_observed",
    "Ristretto.Props.C47_blank_absorbs",
    "Ristretto.Props.C42_refinement"
   ],
   "note": "Exact semantics of unset variables; C42_refinement covers them along every program."
  },
  {
   "property": "C48",
   "status": "proved",
   "theorems": [
    "Ristretto.Props.C48_completed",
    "Ristretto.Props.C48_conversions"
   ],
   "note": "Per-function correctness of the coordinate systems of package edwards25519, with the limb bounds under which each function may be called."
  },
  {
   "property": "C49",
   "status": "proved",
   "theorems": [
    "Ristretto.Props.C49_mul",
    "Ristretto.Props.C49_square",
    "Ristretto.Props.C49_doubledSquare",
    "Ristretto.Props.C49_addSubNeg",
    "Ristretto.Props.C49_AddSub",
    "Ristretto.Props.C49_bytesInto",
    "Ristretto.Props.C49_setBytes",
    "Ristretto.Props.C49_condSet",
    "Ristretto.Props.C49_constants",
    "Ristretto.Props.C49_table"
   ],
   "note": "Limb-level model of field_generic.go with Int32/Int64 arithmetic."
  },
  {
   "property": "C50",
   "status": "proved",
   "theorems": [
    "Ristretto.Props.C50_refinement",
    "Ristretto.Props.C50_agreement"
   ],
   "note": "Simulation between the generic field and the ideal field GF(2^255-19), instantiated with the machine of C42."
  },
  {
   "property": "C51",
   "status": "proved",
   "theorems": [
    "Ristretto.Props.C51_refinement"
   ],
   "note": "Model of the C functions reachable from cref.go (field_25519, group_ge, group_scalar); signed overflow of C is modelled as wraparound and shown not to occur in reachable states through the limb bounds used in the proofs."
  },
  {
   "property": "C52",
   "status": "proved",
   "theorems": [
    "Ristretto.Props.C52_agree",
    "Ristretto.Props.C51_refinement",
    "Ristretto.Props.C42_refinement"
   ],
   "note": "The model of the Go package and the model of the C code are independent translations; both are proved against the same abstract group."
  },
  {
   "property": "C53",
   "status": "proved",
   "theorems": [
    "Ristretto.Props.C53_unpack",
    "Ristretto.Props.C53_canonical",
    "Ristretto.Props.C53_noncanonical"
   ],
   "note": "Exact set of accepted buffers, with witnesses for the difference from SetBytes."
  },
  {
   "property": "C54",
   "status": "proved",
   "theorems": [
    "Ristretto.Props.C54_points",
    "Ristretto.Props.C54_scalarMult",
    "Ristretto.Props.C54_pack"
   ],
   "note": "All points of the curve, limbs within the bounds the package maintains."
  },
  {
   "property": "C55",
   "status": "proved",
   "theorems": [
    "Ristretto.Props.C55_as_if_alone",
    "Ristretto.Props.C55_as_if_alone_asm",
    "Ristretto.Props.C55_progress",
    "Ristretto.Props.C55_results",
    "Ristretto.Props.C55_serializable",
    "Ristretto.Props.C55_serializable_asm"
   ],
   "note": "Model/Conc.lean: every method as a sequence of word loads and stores, arbitrary interleavings, arbitrary index type of goroutines. Memory is sequentially consistent (the Go memory model guarantees that for programs without data races, and their absence is part of the theorem)."
  },
  {
   "property": "C56",
   "status": "partial",
   "theorems": [
    "Ristretto.Props.C56_false",
    "Ristretto.Props.C56_race",
    "Ristretto.Props.C56_as_if_alone_partial",
    "Ristretto.Props.C56_progress_partial",
    "Ristretto.Props.C56_serializable_partial"
   ],
   "note": "False of the code: BytesInto of the generic build works in place, so Lizard stores to its receiver. C56_race: two goroutines calling Lizard on one point race. C56_false refutes C56_full: an interleaving after which the variable holds another element. The _partial theorems prove the property when Lizard and LizardInto are treated as setting their receiver."
  },
  {
   "property": "C57",
   "status": "proved",
   "theorems": [
    "Ristretto.Props.C57_marshal_point",
    "Ristretto.Props.C57_marshal_scalar",
    "Ristretto.Props.C57_point",
    "Ristretto.Props.C57_point_rejects",
    "Ristretto.Props.C57_scalar",
    "Ristretto.Props.C57_scalar_rejects",
    "Ristretto.Props.C57_unambiguous"
   ],
   "note": "The specification describes hexadecimal and base64 as positional notation, independent of the parsers; the abstract machine of C42 uses it too."
  },
  {
   "property": "C58",
   "status": "proved",
   "theorems": [
    "Ristretto.Props.C58_scalar",
    "Ristretto.Props.C58_range"
   ],
   "note": "Counts of buffers; that crypto/rand is uniform is not part of the model."
  },
  {
   "property": "C59",
   "status": "proved",
   "theorems": [
    "Ristretto.Props.C59_point",
    "Ristretto.Props.C59_half",
    "Ristretto.Props.C59_range"
   ],
   "note": "Counts of buffers; that crypto/rand is uniform is not part of the model."
  },
  {
   "property": "C60",
   "status": "proved",
   "theorems": [
    "Ristretto.Props.C60_program",
    "Ristretto.Props.C60_panics",
    "Ristretto.Props.C60_multiples",
    "Ristretto.Props.C60_asm"
   ],
   "note": "Machine over the exported methods of package edwards25519 (Model/EdMachine.lean) against a nondeterministic abstract machine (Spec/EdMachine.lean) that says nothing about variables not holding points. The elements RistrettoElligator2Inverse writes are shown as bytes; String methods are C65."
  },
  {
   "property": "C61",
   "status": "partial",
   "theorems": [
    "Ristretto.Props.C61_multiplications_partial",
    "Ristretto.Props.C61_scalarMult_false",
    "Ristretto.Props.C61_varTime_false",
    "Ristretto.Props.C61_niels_neg_false",
    "Ristretto.Props.C61_base_false"
   ],
   "note": "False of the code. Partial: multiplications are right for s < 2^254 (ScalarMult) and s < 2^255 (the others). Negations: ScalarMult by 2^255 gives the neutral element; VarTimeScalarMult and the table ScalarMult by 2^256-1 give -P, the variable-time one with a table panics; NielsPoint.Neg in place gives no point; SetBase stores another point of the same coset."
  },
  {
   "property": "C62",
   "status": "proved",
   "theorems": [
    "Ristretto.Props.C62_from64bytes",
    "Ristretto.Props.C62_mul",
    "Ristretto.Props.C62_add",
    "Ristretto.Props.C62_add_unreduced",
    "Ristretto.Props.C62_sub",
    "Ristretto.Props.C62_neg",
    "Ristretto.Props.C62_invert",
    "Ristretto.Props.C62_tests",
    "Ristretto.Props.C62_bits",
    "Ristretto.Props.C62_agrees"
   ],
   "note": "No overflow of the 32-bit columns, the quotient estimate is at most two too small and never too large. On unreduced operands addition is congruent but not reduced (C62_add_unreduced)."
  },
  {
   "property": "C63",
   "status": "proved",
   "theorems": [
    "Ristretto.Props.C63_refinement",
    "Ristretto.Props.C63_fits",
    "Ristretto.Props.C63_agree",
    "Ristretto.Props.C63_scalarMultBase",
    "Ristretto.Props.C63_base",
    "Ristretto.Props.C63_compare",
    "Ristretto.Props.C63_multi",
    "Ristretto.Props.C63_constants",
    "Ristretto.Props.C63_flags",
    "Ristretto.Props.C63_roots",
    "Ristretto.Props.C63_triple_in_place",
    "Ristretto.Props.C63_multi_in_place",
    "Ristretto.Props.C63_blank",
    "Ristretto.Props.C63_overflow"
   ],
   "note": "Sizes are tracked by fits (Spec/CrefApi.lean). The last four theorems listed show what happens outside the preconditions. scalar_slide is C67."
  },
  {
   "property": "C64",
   "status": "proved",
   "theorems": [
    "Ristretto.Props.C64_exact",
    "Ristretto.Props.C64_bounds",
    "Ristretto.Props.C64_scalarMult_iff",
    "Ristretto.Props.C64_table_iff",
    "Ristretto.Props.C64_varTime_iff"
   ],
   "note": "Completes C61: instead of the bounds of C61_multiplications_partial, the exact result for every scalar."
  },
  {
   "property": "C65",
   "status": "proved",
   "theorems": [
    "Ristretto.Props.C65_field",
    "Ristretto.Props.C65_field_iff",
    "Ristretto.Props.C65_point",
    "Ristretto.Props.C65_completed",
    "Ristretto.Props.C65_jacobi"
   ],
   "note": "fmt, math/big and encoding/hex follow their documentation (Model/Debug.lean)."
  },
  {
   "property": "C66",
   "status": "proved",
   "theorems": [
    "Ristretto.Props.C66_mul",
    "Ristretto.Props.C66_square",
    "Ristretto.Props.C66_shape"
   ],
   "note": "The file has no jumps; the duration of single instructions is not modelled."
  },
  {
   "property": "C67",
   "status": "proved",
   "theorems": [
    "Ristretto.Props.C67_slide",
    "Ristretto.Props.C67_unique",
    "Ristretto.Props.C67_false_for_one"
   ],
   "note": "Nothing in the repository calls scalar_slide; it is declared in cref.h. The false case w = 1 is proved to be false."
  },
  {
   "property": "C68",
   "status": "proved",
   "theorems": [
    "Ristretto.Props.C68_read",
    "Ristretto.Props.C68_write",
    "Ristretto.Props.C68_copy"
   ],
   "note": ""
  },
  {
   "property": "C69",
   "status": "proved",
   "theorems": [
    "Ristretto.Props.C69_setJacobiQuartic",
    "Ristretto.Props.C69_dual",
    "Ristretto.Props.C69_toJacobi",
    "Ristretto.Props.C69_neutral"
   ],
   "note": ""
  },
  {
   "property": "C70",
   "status": "proved",
   "theorems": [
    "Ristretto.Props.C70_recover",
    "Ristretto.Props.C70_panic",
    "Ristretto.Props.C70_generic",
    "Ristretto.Props.C70_genericPanic"
   ],
   "note": "The generic build for the programs of C50 (C70_generic)."
  },
  {
   "property": "C71",
   "status": "proved",
   "theorems": [
    "Ristretto.Props.C71_simulation",
    "Ristretto.Props.C71_refinement",
    "Ristretto.Props.C71_add",
    "Ristretto.Props.C71_sub",
    "Ristretto.Props.C71_equals",
    "Ristretto.Props.C71_asm",
    "Ristretto.Props.C71_generic"
   ],
   "note": "Generic build: the programs of C50."
  },
  {
   "property": "C72",
   "status": "proved",
   "theorems": [
    "Ristretto.Props.C72_recover",
    "Ristretto.Props.C72_receiver",
    "Ristretto.Props.C72_panics",
    "Ristretto.Props.C72_asm",
    "Ristretto.Props.C72_generic"
   ],
   "note": "All contents of the variables in the default build; all programs from zero values in the assembly build; in the generic build the programs of C50, from zero values."
  },
  {
   "property": "C73",
   "status": "proved",
   "theorems": [
    "Ristretto.Props.C73_derive_point",
    "Ristretto.Props.C73_dalek_point",
    "Ristretto.Props.C73_derive_range",
    "Ristretto.Props.C73_dalek_range",
    "Ristretto.Props.C73_dalek_missed",
    "Ristretto.Props.C73_digests"
   ],
   "note": "Counts of digests. DeriveDalek: by the Cauchy-Davenport theorem."
  },
  {
   "property": "C74",
   "status": "proved",
   "theorems": [
    "Ristretto.Props.C74_go",
    "Ristretto.Props.C74_programs",
    "Ristretto.Props.C74_functions",
    "Ristretto.Props.C74_checks",
    "Ristretto.Props.C74_lost",
    "Ristretto.Props.C74_detects",
    "Ristretto.Props.C74_mul_overflows",
    "Ristretto.Props.C74_iso_shifts",
    "Ristretto.Props.C74_windows"
   ],
   "note": "Additions, subtractions, multiplications, negations and narrowing conversions in the field functions of cref.c. Left shifts of negative numbers, which ISO C leaves undefined, do occur (C74_iso_shifts)."
  },
  {
   "property": "C75",
   "status": "proved",
   "theorems": [
    "Ristretto.Props.C75_exact",
    "Ristretto.Props.C75_overflow",
    "Ristretto.Props.C75_points",
    "Ristretto.Props.C75_pointers",
    "Ristretto.Props.C75_frame",
    "Ristretto.Props.C75_sequence",
    "Ristretto.Props.C75_off_curve"
   ],
   "note": "The specification is the same C code read over exact field elements, and the curve for operands that hold points."
  },
  {
   "property": "C76",
   "status": "proved",
   "theorems": [
    "Ristretto.Props.C76_preimages",
    "Ristretto.Props.C76_range",
    "Ristretto.Props.C76_rand",
    "Ristretto.Props.C76_derive"
   ],
   "note": "For every hash function in place of SHA-256. A lower bound on the points that Lizard decodes would need properties of SHA-256."
  },
  {
   "property": "C77",
   "status": "proved",
   "theorems": [
    "Ristretto.Props.C77_keys",
    "Ristretto.Props.C77_mask",
    "Ristretto.Props.C77_hiding",
    "Ristretto.Props.C77_derive",
    "Ristretto.Props.C77_deriveShort"
   ],
   "note": "Counts over the bytes read from crypto/rand and over the digests; that these are uniform is not part of the model."
  },
  {
   "property": "C78",
   "status": "proved",
   "theorems": [
    "Ristretto.Props.C78_encode",
    "Ristretto.Props.C78_decode",
    "Ristretto.Props.C78_equals",
    "Ristretto.Props.C78_map",
    "Ristretto.Props.C78_deriveDalek",
    "Ristretto.Props.C78_derive",
    "Ristretto.Props.C78_derive_differs"
   ],
   "note": "About the 64-bit build; Spec/Rfc9496.lean transcribes section 4 of the RFC, whose test vectors the examples check. Scalars: C06-C08."
  },
  {
   "property": "C79",
   "status": "proved",
   "theorems": [
    "Ristretto.Props.C79_programs",
    "Ristretto.Props.C79_uniform",
    "Ristretto.Props.C79_package",
    "Ristretto.Props.C79_env",
    "Ristretto.Props.C79_shape",
    "Ristretto.Props.C79_verdict",
    "Ristretto.Props.C79_scalarMult",
    "Ristretto.Props.C79_field",
    "Ristretto.Props.C79_programs_generic",
    "Ristretto.Props.C79_package_generic",
    "Ristretto.Props.C79_scalarMult_generic"
   ],
   "note": "For the 64-bit build, with bits.Mul64 and bits.Add64 as single operations, and for the generic build. C79_package has SHA-2 as specified in FIPS 180-4; the other theorems take any hash functions given by expressions (SameEnv). That the Lean functions that build expressions do so without looking at values is due to their type: an expression has no value until ev is applied. They transcribe the Go code line by line; that the code is not another program with the same values is as for the rest of the model a matter of comparing the two. Sharing of subexpressions is not visible."
  },
  {
   "property": "C80",
   "status": "proved",
   "theorems": [
    "Ristretto.Props.C80_loops",
    "Ristretto.Props.C80_constTime",
    "Ristretto.Props.C80_panics",
    "Ristretto.Props.C80_field"
   ],
   "note": "C80_loops and C80_constTime hold for any field arithmetic; C80_panics for the builds whose field operations are proved correct. The limb arithmetic itself uses constant indices and is not repeated. Panics of Rand are in C70 and C72."
  },
  {
   "property": "C81",
   "status": "proved",
   "theorems": [
    "Ristretto.Props.C81_programs",
    "Ristretto.Props.C81_go",
    "Ristretto.Props.C81_tstbit",
    "Ristretto.Props.C81_slide",
    "Ristretto.Props.C81_cmov",
    "Ristretto.Props.C81_windows",
    "Ristretto.Props.C81_table"
   ],
   "note": "Scalars are arrays in memory and outputs may coincide with inputs. Field elements and points are values here (coinciding pointers of the group functions are C63 and C68); functions with constant indices only (fe25519_mul and so on) are not repeated. C81_slide is for a result array no cell of which has been set."
  },
  {
   "property": "C82",
   "status": "proved",
   "theorems": [
    "Ristretto.Props.C82_programs",
    "Ristretto.Props.C82_setBeforeRead",
    "Ristretto.Props.C82_go",
    "Ristretto.Props.C82_frame",
    "Ristretto.Props.C82_same",
    "Ristretto.Props.C82_triple"
   ],
   "note": "Memory is field elements as cells: an operation on one or two field elements whose C body reads its arguments into locals before it writes (fe25519_add, sub, mul, square and the like, limb by limb the same index) is one step. Scalars are values here; their arrays are C81. Groups given as consecutive arguments of group_ge_multiscalarmult are lists of pointers. fe25519_triple with x = r gives 4x, as the code does."
  },
  {
   "property": "C83",
   "status": "partial",
   "theorems": [
    "Ristretto.Props.C83_square_partial",
    "Ristretto.Props.C83_mul",
    "Ristretto.Props.C83_mul_false",
    "Ristretto.Props.C83_same"
   ],
   "note": "True of feSquare, false of feMul (C83_mul_false): its code uses BP as a scratch register and, having no frame, does not restore it. C83_mul says what is left there. SP does not occur in the instructions. Applies to the build with the assembly (amd64, Go before 1.13) only."
  },
  {
   "property": "C84",
   "status": "proved",
   "theorems": [
    "Ristretto.Props.C84_meaning",
    "Ristretto.Props.C84_accumulate",
    "Ristretto.Props.C84_functions",
    "Ristretto.Props.C84_detects",
    "Ristretto.Props.C84_programs",
    "Ristretto.Props.C84_edwards",
    "Ristretto.Props.C84_everywhere"
   ],
   "note": "The functions of field_radix51.go and field_mul64.go once more on words that remember a loss; an element with a lost limb makes every function of it lost and reads from it arbitrary. An element that ConditionalSet does not choose has no influence even if it is lost; C84_functions covers its computation as well. Packing and unpacking of bytes (shifts, masks and |) are not checked. The generic backend is covered by C86."
  },
  {
   "property": "C85",
   "status": "proved",
   "theorems": [
    "Ristretto.Props.C85_meaning",
    "Ristretto.Props.C85_sticky",
    "Ristretto.Props.C85_functions",
    "Ristretto.Props.C85_inverse",
    "Ristretto.Props.C85_values"
   ],
   "note": "Unpacking words into 21-bit pieces and packing the result (shifts, masks and |) are not checked. The borrow chains of Add and Sub wrap around on purpose and are described by C01."
  },
  {
   "property": "C86",
   "status": "proved",
   "theorems": [
    "Ristretto.Props.C86_meaning32",
    "Ristretto.Props.C86_meaning64",
    "Ristretto.Props.C86_functions",
    "Ristretto.Props.C86_setBytes",
    "Ristretto.Props.C86_detects",
    "Ristretto.Props.C86_programs",
    "Ristretto.Props.C86_decoded"
   ],
   "note": "The functions of field_generic.go once more on numbers that remember a loss. The restriction of C86_programs is that of C50 (Safe, Spec/Raw.lean); C86_decoded shows the overflow behind C45_false. load3, load4, the masks and the bytes written by BytesInto are not checked. An element that ConditionalSet does not choose has no influence even if it is lost."
  },
  {
   "property": "C87",
   "status": "proved",
   "theorems": [
    "Ristretto.Props.C87_program",
    "Ristretto.Props.C87_agree",
    "Ristretto.Props.C87_agreeAsm",
    "Ristretto.Props.C87_exact",
    "Ristretto.Props.C87_rewrites"
   ],
   "note": "FieldElement is an exported array type; programs that assign to its limbs directly are not covered. String has a value receiver and rewrites a copy; it is BigInt followed by the conversion of math/big."
  },
  {
   "property": "C88",
   "status": "proved",
   "theorems": [
    "Ristretto.Props.C88_program",
    "Ristretto.Props.C88_panics",
    "Ristretto.Props.C88_exact",
    "Ristretto.Props.C88_agree",
    "Ristretto.Props.C88_agreeAsm",
    "Ristretto.Props.C88_decoded"
   ],
   "note": "The check is on the program text and forgets nothing: a point is usable again once it has been overwritten by a recomputed one. Doubling, comparison, encoding, Niels conversion and the left operand of additions are not restricted. Exported struct fields that a caller assigns directly are not covered. The values of tables show in the multiplications that use them."
  },
  {
   "property": "C89",
   "status": "proved",
   "theorems": [
    "Ristretto.Props.C89_complete",
    "Ristretto.Props.C89_interface",
    "Ristretto.Props.C89_client",
    "Ristretto.Props.C89_lines",
    "Ristretto.Props.C89_choice",
    "Ristretto.Props.C89_assembly",
    "Ristretto.Props.C89_portable",
    "Ristretto.Props.C89_same",
    "Ristretto.Props.C89_portableEd"
   ],
   "note": "The rules of the go command are modelled from its documentation (Model/Build.lean), with a parser for both notations of constraints. What the files declare and mention was extracted from their text by a script; a file is taken to mention every name whose last component occurs in it, which is more than it refers to. Types are not checked."
  }
 ]
}