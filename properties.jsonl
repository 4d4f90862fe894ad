{"id": "C01", "title": "Scalar.Add and Scalar.Sub compute modulo l", "statement": "For reduced scalars a, b (BigInt() < l), s.Add(a,b).BigInt() = (a+b) mod l and s.Sub(a,b).BigInt() = (a-b) mod l; both results are again reduced.", "quantifier": "all pairs of reduced scalars (2^504 of them)", "why_tests_cant": "carry/borrow chains across eight 32-bit words and the conditional correction by l only go wrong on rare word patterns", "anchors": ["scalar.go: Scalar.Add", "scalar.go: Scalar.Sub"]}
{"id": "C02", "title": "Scalar.Neg computes -a modulo l", "statement": "For reduced a, s.Neg(a).BigInt() = (-a) mod l, in particular Neg(0) = 0, and the result is reduced.", "quantifier": "all reduced scalars", "why_tests_cant": "boundary a = 0 and every borrow pattern", "anchors": ["scalar.go: Scalar.Neg"]}
{"id": "C03", "title": "Scalar.Mul and Square compute modulo l for every 256-bit operand", "statement": "For every content of the two argument arrays - reduced or not - s.Mul(a,b).BigInt() = (a*b) mod l and s.Square(a).BigInt() = a^2 mod l, and the result is reduced.", "quantifier": "all pairs of [8]uint32 arrays", "why_tests_cant": "an int64 overflow or a missed carry in the 21-bit limb reduction shows only for special operands", "anchors": ["scalar.go: Scalar.Mul", "scalar.go: Scalar.Square", "scalar.go: reduceAfterMul"]}
{"id": "C04", "title": "Scalar.MulAdd and MulSub compute a*b+c and a*b-c modulo l for every operand", "statement": "For every content of the three argument arrays MulAdd(a,b,c).BigInt() = (a*b+c) mod l and MulSub(a,b,c).BigInt() = (a*b-c) mod l, fully reduced.", "quantifier": "all triples of [8]uint32 arrays", "why_tests_cant": "same as C03, plus negative intermediate limbs", "anchors": ["scalar.go: Scalar.MulAdd", "scalar.go: Scalar.MulSub", "scalar.go: reduceAfterMul"]}
{"id": "C05", "title": "Scalar.Inverse inverts every non-zero scalar", "statement": "For every scalar t with t mod l != 0, Inverse(t)*t = 1 mod l and Inverse(t) is reduced; Inverse of (a multiple of) zero is 0.", "quantifier": "all [8]uint32 arrays", "why_tests_cant": "a wrong step in the 200-line addition chain could cancel on samples only if the exponent is right for all; needs Fermat for prime l", "anchors": ["scalar.go: Scalar.Inverse"]}
{"id": "C06", "title": "Scalar.SetBytes reduces modulo l ignoring the top three bits", "statement": "SetBytes(x).BigInt() = (LE(x) mod 2^253) mod l; always reduced.", "quantifier": "all 2^256 buffers", "why_tests_cant": "values in [l, 2^253) are a vanishing fraction of random buffers near the boundary", "anchors": ["scalar.go: Scalar.SetBytes"]}
{"id": "C07", "title": "Scalar.SetBytesStrict accepts exactly the canonical encodings", "statement": "SetBytesStrict(x) returns true iff LE(x) < l; on true the scalar has exactly that value, on false the receiver is unchanged.", "quantifier": "all 2^256 buffers and all prior receiver states", "why_tests_cant": "acceptance boundary at l; malleability", "anchors": ["scalar.go: Scalar.SetBytesStrict"]}
{"id": "C08", "title": "Scalar.SetReduced reduces a 512-bit integer modulo l", "statement": "SetReduced(t).BigInt() = LE(t) mod l, fully reduced.", "quantifier": "all 2^512 buffers", "why_tests_cant": "overflow or non-canonical output on special inputs", "anchors": ["scalar.go: Scalar.SetReduced", "scalar.go: Scalar.Derive", "scalar.go: Scalar.Rand"]}
{"id": "C09", "title": "Scalar byte encoding round-trips and is injective", "statement": "Bytes() is the 32-byte little-endian encoding of the array's value; SetBytes(Bytes(s)) = s and SetBytesStrict(Bytes(s)) succeeds with s for reduced s; UnmarshalBinary(MarshalBinary(s)) = s and UnmarshalBinary errors iff the length is not 32.", "quantifier": "all reduced scalars; all byte slices", "why_tests_cant": "must hold for each value", "anchors": ["scalar.go: Scalar.BytesInto", "scalar.go: Scalar.MarshalBinary", "scalar.go: Scalar.UnmarshalBinary"]}
{"id": "C10", "title": "Scalar big.Int and uint64 conversions", "statement": "BigInt() returns the value, SetBigInt(x).BigInt() = x mod l for every integer x including negatives, SetUint64(x).BigInt() = x.", "quantifier": "all integers, all uint64", "why_tests_cant": "unbounded integers", "anchors": ["scalar.go: Scalar.BigInt", "scalar.go: Scalar.SetBigInt", "scalar.go: Scalar.SetUint64"]}
{"id": "C11", "title": "Scalar equality and zero tests", "statement": "IsNonZeroI returns 1 iff the array value is non-zero, else 0; for reduced s, a: EqualsI(s,a) = 1 iff s = a else 0; Equals agrees.", "quantifier": "all scalars", "why_tests_cant": "bit smearing must not drop any of 256 bits", "anchors": ["scalar.go: Scalar.IsNonZeroI", "scalar.go: Scalar.EqualsI", "scalar.go: Scalar.Equals"]}
{"id": "C12", "title": "Scalar.ConditionalSet selects", "statement": "ConditionalSet(t,1) sets s to t, ConditionalSet(t,0) leaves s unchanged.", "quantifier": "all scalars and b in {0,1}", "why_tests_cant": "mask must cover all bits", "anchors": ["scalar.go: Scalar.ConditionalSet"]}
{"id": "C13", "title": "Scalars stay reduced and compute in Z/l along every history", "statement": "Starting from zero-valued scalars, after any sequence of Set*, Add, Sub, Neg, Mul, Square, MulAdd, MulSub, Inverse, SetBytes, SetBytesStrict, SetReduced, Derive, DeriveShort, SetBigInt, SetUint64, ConditionalSet with any aliasing of registers, every register holds a reduced scalar equal to what the same program computes in Z/l.", "quantifier": "all operation sequences, all inputs, all hash functions", "why_tests_cant": "unbounded histories", "anchors": ["scalar.go: Scalar"]}
{"id": "C14", "title": "Method arguments may alias the receiver", "statement": "Every method of Scalar, Point and FieldElement computes the same value when the receiver aliases one or more of its pointer arguments as when all are distinct, although words, limbs and coordinates are written while arguments are still being read (Scalar.Add/Sub/Neg/ConditionalSet/Inverse/..., FieldElement.add/sub/Neg/ConditionalSet/Mul/..., Point.Add/Sub/Double/Neg/ConditionalSet/ScalarMult/PublicScalarMult). No call changes a variable other than its receiver.", "quantifier": "all values, all aliasing patterns, all contents of local variables, all programs", "why_tests_cant": "a read after an aliased write depends on statement order", "anchors": ["scalar.go: Scalar.Add", "scalar.go: Scalar.Sub", "scalar.go: Scalar.Inverse", "scalar.go: Scalar.ConditionalSet", "edwards25519/field_radix51.go: sub", "edwards25519/curve.go: AddExtended", "edwards25519/curve.go: ExtendedPoint.ScalarMult"]}
{"id": "C15", "title": "Field add, sub, Neg are exact modulo 2^255-19 without word overflow", "statement": "Within the limb bounds that occur in the library, add, sub, Neg, Add, Sub, normalize return limbs whose value is the sum, difference, negation modulo p and no uint64 operation wraps.", "quantifier": "all limb vectors within the bounds", "why_tests_cant": "wrap-around appears only at extreme limbs", "anchors": ["edwards25519/field_radix51.go: add, sub, Neg, setReduced, normalize"]}
{"id": "C16", "title": "Field Mul, Square, DoubledSquare are exact modulo 2^255-19", "statement": "For all operands with limbs of at most 2^54, Mul and Square return tightly bounded limbs with value a*b, a^2 modulo p; DoubledSquare returns 2a^2 for all operands with limbs of at most 6*(2^51+2^18), which covers every use in the library (at 2^54-1 it overflows).", "quantifier": "all limb vectors within these bounds", "why_tests_cant": "128-bit carries lost only on extreme limbs", "anchors": ["edwards25519/field_mul64.go: Mul, Square, DoubledSquare"]}
{"id": "C17", "title": "Field byte encoding is canonical", "statement": "BytesInto writes the unique little-endian encoding of the value in [0,p); SetBytes reads LE(buf) mod 2^255 modulo p; hence SetBytes(BytesInto(x)) = x and two elements are equal mod p iff their bytes coincide.", "quantifier": "all limb vectors within bounds; all buffers", "why_tests_cant": "values in [p,2^255) are a 2^-250 fraction", "anchors": ["edwards25519/field_radix51.go: BytesInto, SetBytes, setReduced"]}
{"id": "C18", "title": "Field predicates", "statement": "IsNonZeroI, IsOneI, EqualsI, Equals, IsNegativeI return 1/true exactly when the value is non-zero, one, equal, odd in canonical form.", "quantifier": "all limb vectors within bounds", "why_tests_cant": "non-canonical limb representations of 0 and 1", "anchors": ["edwards25519/field.go: IsNonZeroI, IsOneI, EqualsI, Equals, IsNegativeI"]}
{"id": "C19", "title": "Field inversion and square roots", "statement": "Inverse(a)*a = 1 for a != 0 (0 for 0); InvSqrt(a)^2*a = 1 for every non-zero square a; InvSqrtI returns 1 with r^2*a=1 for non-zero squares, 0 with r^2*i*a = 1 for non-squares, and (0,0) on 0; Sqrt(a)^2 = a with even result for squares.", "quantifier": "all field elements", "why_tests_cant": "needs Fermat/Euler criterion; square classes", "anchors": ["edwards25519/field.go: Inverse, Exp22523, InvSqrt, InvSqrtI, Sqrt, Abs"]}
{"id": "C20", "title": "Hard-coded field constants are what their comments say", "statement": "i^2=-1, d=-121665/121666, 2d, 1/sqrt(-1-d), 2/sqrt(-1-d), 2i/sqrt(-1-d), (d-1)^2, 1-d^2, (d+1)/(d-1), sqrt(id), 1/sqrt(1+d) hold modulo p; p and l are prime; d is a non-square.", "quantifier": "the constants (finite) and primality of p and l", "why_tests_cant": "primality is not testable by sampling", "anchors": ["edwards25519/field_radix51.go: var block"]}
{"id": "C21", "title": "Point.Add/Sub/Double/Neg implement the group law", "statement": "For all valid points (on the curve, X*Y=Z*T, Z != 0) Add, Sub, Double, Neg return valid points representing the sum, difference, double, negation on Edwards25519, with no exceptional inputs (doubling via Add, inverse points, neutral element).", "quantifier": "all pairs of valid points in all projective representations", "why_tests_cant": "exceptional cases are never hit by random tests", "anchors": ["edwards25519/curve.go: AddExtended, SubExtended, DoubleExtended, DoubleProjective, SetCompleted, Neg", "ristretto.go: Point.Add, Sub, Double, Neg"]}
{"id": "C22", "title": "Points form a commutative group", "statement": "Under Equals, Point addition is associative and commutative, SetZero is neutral, Neg is the inverse, Sub is Add of Neg, Double(p) = Add(p,p).", "quantifier": "all triples of points", "why_tests_cant": "three-variable identity over 2^252 points", "anchors": ["ristretto.go: Point.Add, Sub, Neg, SetZero, Equals"]}
{"id": "C23", "title": "The group has prime order l", "statement": "The Ristretto classes of even points form a group of exactly l elements, l prime, generated by the base point: every point is s*B for exactly one s in [0,l), and l*p = 0.", "quantifier": "all points", "why_tests_cant": "order of a 2^252-element group", "anchors": ["ristretto.go: package doc, Point"]}
{"id": "C24", "title": "Point.Equals is Ristretto equality", "statement": "EqualsI returns 1 if p - q is one of the four 4-torsion points and 0 otherwise; so it is an equivalence relation independent of the projective representation, and a congruence for Add, Sub, Neg, Double and ScalarMult.", "quantifier": "all pairs of valid points", "why_tests_cant": "representation independence", "anchors": ["ristretto.go: Point.EqualsI, Equals", "edwards25519/curve.go: RistrettoEqualsI"]}
{"id": "C25", "title": "Point encoding is canonical", "statement": "For valid even points p, q: Bytes(p) = Bytes(q) iff p.Equals(q). In particular the encoding is independent of representation.", "quantifier": "all pairs of points and representations", "why_tests_cant": "a sign choice wrong on one of the cosets breaks it on a fraction of points, an exceptional case on none of the random ones", "anchors": ["edwards25519/curve.go: RistrettoInto", "ristretto.go: Point.Bytes"]}
{"id": "C26", "title": "SetBytes inverts Bytes", "statement": "For every valid even p, SetBytes(Bytes(p)) returns true and yields a point equal to p.", "quantifier": "all points", "why_tests_cant": "exceptional points (identity, 4-torsion)", "anchors": ["ristretto.go: Point.SetBytes, Bytes", "edwards25519/curve.go: SetRistretto"]}
{"id": "C27", "title": "SetBytes accepts exactly the canonical encodings", "statement": "If SetBytes(b) returns true, the resulting point is valid, even and Bytes() of it is exactly b; hence SetBytes(b) is true iff b is the encoding of some point. If it returns false all coordinates of the receiver are zero.", "quantifier": "all 2^256 buffers", "why_tests_cant": "malleability: accepting one second encoding is invisible to sampling", "anchors": ["edwards25519/curve.go: SetRistretto", "ristretto.go: Point.SetBytes"]}
{"id": "C28", "title": "ScalarMult computes s*q", "statement": "For every valid q and every scalar array of value s < 2^254 (so all reduced scalars), ScalarMult(q,s) is valid and equals q added s times.", "quantifier": "all points and scalars", "why_tests_cant": "signed 5-bit window carries, table of 17 multiples", "anchors": ["edwards25519/curve.go: ScalarMult, computeScalarWindow5", "ristretto.go: Point.ScalarMult"]}
{"id": "C29", "title": "PublicScalarMult computes s*q", "statement": "For every valid q and reduced scalar s PublicScalarMult(q,s) equals s*q, so it agrees with ScalarMult; no array index is out of range.", "quantifier": "all points and scalars", "why_tests_cant": "w-NAF carry at word boundaries and at the top", "anchors": ["edwards25519/vartime.go: computeScalar5NAF, VarTimeScalarMult", "ristretto.go: Point.PublicScalarMult"]}
{"id": "C30", "title": "Table based scalar multiplication", "statement": "After t.Compute(q), ScalarMultTable(t,s) and PublicScalarMultTable(t,s) equal s*q for every reduced s.", "quantifier": "all points and scalars", "why_tests_cant": "signed 4-bit window recoding", "anchors": ["edwards25519/table.go: Compute, ScalarMult, VarTimeScalarMult, selectPoint, varTimeSelectPoint, computeScalarWindow4"]}
{"id": "C31", "title": "Base point multiplication uses a correct table", "statement": "Each of the 256 entries of BaseScalarMultTable is the Niels form of (v+1)*256^i*B; ScalarMultBase(s) and PublicScalarMultBase(s) equal s*B for every reduced s, and equal ScalarMult(SetBase(), s).", "quantifier": "all scalars; all 256 entries", "why_tests_cant": "a wrong digit in one of 3840 constants is hit only by scalars with that window", "anchors": ["edwards25519/table_radix51.go: BaseScalarMultTable", "ristretto.go: Point.ScalarMultBase, PublicScalarMultBase"]}
{"id": "C32", "title": "Scalar multiplication is a module action", "statement": "(s+t)*p = s*p+t*p, s*(p+q) = s*p+s*q, (s*t)*p = s*(t*p), 1*p = p, 0*p = 0 with scalar operations Add, Mul taken modulo l.", "quantifier": "all points and scalars", "why_tests_cant": "needs prime order: wrap-around modulo l", "anchors": ["ristretto.go: Point.ScalarMult", "scalar.go: Scalar.Add, Mul"]}
{"id": "C33", "title": "ConditionalSet on points selects", "statement": "p.ConditionalSet(q,1) makes p identical to q, ConditionalSet(q,0) leaves p unchanged.", "quantifier": "all points, b in {0,1}", "why_tests_cant": "masking all limbs", "anchors": ["ristretto.go: Point.ConditionalSet", "edwards25519/field_radix51.go: ConditionalSet"]}
{"id": "C34", "title": "SetElligator is total", "statement": "For every buffer SetElligator yields a valid even point, depending only on LE(buf) mod 2^255 modulo p and equal for r and -r.", "quantifier": "all 2^256 buffers", "why_tests_cant": "exceptional denominators t=0, s^2=-1, ND=0", "anchors": ["ristretto.go: Point.SetElligator", "edwards25519/elligator.go: SetRistrettoElligator2, SetJacobiQuartic"]}
{"id": "C35", "title": "Derive and DeriveDalek", "statement": "Derive(data) = SetElligator of the first half of SHA-512(data); DeriveDalek(data) = sum of SetElligator of both halves; both always valid even points, for every hash function.", "quantifier": "all byte strings, all hash functions", "why_tests_cant": "totality", "anchors": ["ristretto.go: Point.Derive, DeriveDalek, Rand"]}
{"id": "C36", "title": "Elligator inverse returns exactly the preimages", "statement": "For every valid even p the field elements flagged by RistrettoElligator2Inverse(p) are precisely the non-negative f with Elligator(f) equal to p.", "quantifier": "all even points", "why_tests_cant": "an omitted preimage on exceptional quartic points", "anchors": ["edwards25519/elligator.go: RistrettoElligator2Inverse, elligator2Inverse, ToJacobiQuarticRistretto, Dual"]}
{"id": "C37", "title": "Lizard never decodes wrongly", "statement": "With SHA-256, LizardInto(SetLizard(data)) either returns exactly data or the error 'Multiple Lizard preimages'; never 'No Lizard preimage' and never other data; a successful decode of any point p returns data with SetLizard(data) equal to p.", "quantifier": "all 16-byte inputs, all points; the soundness part also for all hash functions", "why_tests_cant": "depends on the hash values", "anchors": ["ristretto.go: Point.SetLizard, LizardInto, Lizard"]}
{"id": "C38", "title": "Binary marshalling of points", "statement": "UnmarshalBinary(MarshalBinary(p)) succeeds with a point equal to p; UnmarshalBinary fails iff the length is not 32 or the bytes are not a canonical encoding.", "quantifier": "all points and byte slices", "why_tests_cant": "see C26, C27", "anchors": ["ristretto.go: Point.MarshalBinary, UnmarshalBinary"]}
{"id": "C39", "title": "Text marshalling round-trips", "statement": "UnmarshalText(MarshalText(x)) succeeds with an equal value for points and scalars; UnmarshalText of the 64-digit hex encoding of a point works as well.", "quantifier": "all points, scalars", "why_tests_cant": "all 2^252 values; hex/base64 ambiguity at length 64", "anchors": ["ristretto.go: MarshalText, UnmarshalText, textToBuf", "scalar.go: Scalar.MarshalText, UnmarshalText"]}
{"id": "C40", "title": "Text unmarshalling never crashes", "statement": "UnmarshalText returns an error, and does not panic, on every malformed input (EXPECTED TO BE FALSE: base64 decoding of more than 32 bytes into the fixed 32-byte buffer runs out of range).", "quantifier": "all byte slices", "why_tests_cant": "unbounded inputs", "anchors": ["ristretto.go: textToBuf, Point.UnmarshalText", "scalar.go: Scalar.UnmarshalText"]}
{"id": "C41", "title": "Every reachable point is valid and even", "statement": "Along any sequence of API calls starting from SetZero, SetBase, SetBytes (successful), SetElligator, Derive, DeriveDalek, SetLizard, and continuing with Set, Add, Sub, Double, Neg, ConditionalSet, ScalarMult, PublicScalarMult, ScalarMultBase, tables, every point is on the curve, even, and its limbs stay in the range in which no machine-word overflow occurs.", "quantifier": "all operation sequences", "why_tests_cant": "unbounded histories; limb growth", "anchors": ["ristretto.go: Point", "edwards25519/curve.go"]}
{"id": "C42", "title": "The API refines the abstract prime-order group", "statement": "Any program over point and scalar registers, with arbitrary aliasing, yields the same outputs (Bytes, Equals, SetBytes verdicts) as the same program over the abstract group of order l: outputs depend only on the abstract group elements.", "quantifier": "all programs, all inputs", "why_tests_cant": "unbounded histories", "anchors": ["ristretto.go: Point", "scalar.go: Scalar"]}
{"id": "C43", "title": "ElGamal from the README decrypts", "statement": "With pk = sk*B, c2 = r*B, c1 = r*pk + p, the point c1 - sk*c2 has the same Bytes() as p.", "quantifier": "all sk, r, p", "why_tests_cant": "all keys", "anchors": ["README.md: Example", "elgamal_test.go: Example"]}
{"id": "C44", "title": "The amd64 assembly agrees with the Go code", "statement": "On amd64 with Go before 1.13 field multiplication and squaring are written in assembly. On all operands in bounds (limbs up to 2^54), with any aliasing of result and operands and any initial register contents, the assembly stores the field product (square, doubled square) in the result with small limbs and changes no other memory. Consequently every sequence of calls of the public API returns the same outputs in the assembly build and in the default build.", "quantifier": "all limb vectors in bounds, all aliasing, all initial registers; all programs over the API", "why_tests_cant": "carry patterns", "anchors": ["edwards25519/field_amd64.s: feMul, feSquare", "edwards25519/field_amd64.go"]}
{"id": "C45", "title": "The generic (forcegeneric) build decodes and adds correctly", "statement": "In the generic (forcegeneric, radix 2^25.5) build, for every 32-byte buffer: SetBytes into q, then Add(base, q), then Bytes returns what the default build returns. (False of the code: BytesInto reduces its receiver in place, so X and Y of a decoded point have limbs up to 2^26 and 19*(Y+X) overflows int32 inside Mul. Refuted with a witness; what does hold is C49, C50.)", "quantifier": "all 2^256 buffers", "why_tests_cant": "overflow depends on limb values; the repository's tests do not add decoded points in this build", "anchors": ["edwards25519/field_generic.go: BytesInto, Mul, add, sub", "edwards25519/curve.go: SetRistretto, AddExtended"]}
{"id": "C46", "title": "Constant-time execution of secret-dependent operations", "statement": "For all methods but the Public ones, the text formats, Lizard and those using math/big: the sequence of branch outcomes and array indices of the Go code is the same for all secret values. It depends only on which methods are called on which variables, the lengths of slices, and success or failure of SetBytesStrict, UnmarshalBinary and LizardInto. (Go source level; what the compiler makes of it is outside the model.)", "quantifier": "all programs over these methods, all pairs of secrets and memories", "why_tests_cant": "Functional tests do not see control flow or memory accesses, and the claim compares all pairs of secrets.", "anchors": ["edwards25519/curve.go: ScalarMult, computeScalarWindow5", "edwards25519/table.go: selectPoint, ScalarMult, computeScalarWindow4", "ristretto.go: LizardInto", "scalar.go"]}
{"id": "C47", "title": "A point variable that was never set or failed to decode poisons what it touches", "statement": "A Point that is the Go zero value, or the receiver of a SetBytes/Unmarshal call that reported failure, is not a group element: Equals with it is true for every point, Bytes returns the encoding of the neutral element, every sum or difference with it and every nonzero multiple of it is again such a value, and multiplying by the scalar zero gives the neutral element. No method call turns it into a valid point silently in any other way.", "quantifier": "all failing byte strings, all points, all scalars, all programs", "why_tests_cant": "The behaviour on invalid variables is nowhere specified or tested; it must hold along every program, since a caller ignoring the SetBytes verdict could otherwise be told that two different points are equal only sometimes.", "anchors": ["ristretto.go: Point.SetBytes, Point.Equals, Point.Add, Point.ScalarMult", "edwards25519/curve.go: ExtendedPoint.SetRistretto, RistrettoEqualsI"]}
{"id": "C48", "title": "The coordinate systems of package edwards25519 agree", "statement": "For extended, projective, completed and Niels coordinates of points of the curve, the exported operations (AddExtended, SubExtended, DoubleExtended, DoubleProjective, AddExtendedNiels, SubExtendedNiels), conversions (SetCompleted, SetExtended) and constants (SetZero) return coordinates of the sum, difference, double, same point or neutral element, and the limbs they return stay within the bounds the next operation needs, so they can be chained in any order.", "quantifier": "all points of the curve (not only the even ones) in all representations with bounded limbs", "why_tests_cant": "Every point has about 2^255 projective representations with many limb vectors each; intermediate sums are not normalised, so overflow depends on rare limb values.", "anchors": ["edwards25519/curve.go: CompletedPoint.AddExtended, SubExtended, DoubleProjective, DoubleExtended, ProjectivePoint.SetCompleted, ExtendedPoint.SetCompleted", "edwards25519/table.go: CompletedPoint.AddExtendedNiels, SubExtendedNiels, NielsPoint.SetExtended"]}
{"id": "C49", "title": "Field arithmetic of the generic build is arithmetic modulo 2^255-19", "statement": "In the generic build Mul, Square, DoubledSquare, Add, Sub, Neg, BytesInto, SetBytes and ConditionalSet compute the product, square, doubled square, sum, difference, negative, canonical encoding, decoding and choice in GF(2^255-19), for all limbs within stated bounds, and return limbs within stated bounds; all constants and all base-point table entries have the same values as in the default build.", "quantifier": "all limb vectors within the bounds; all table entries", "why_tests_cant": "10 signed 32-bit limbs per operand; overflow and carry errors occur only for rare limb values, and the bounds are asymmetric in the two factors of Mul.", "anchors": ["edwards25519/field_generic.go", "edwards25519/table_generic.go: table"]}
{"id": "C50", "title": "Programs that keep decoded points out of second operands agree in all builds", "statement": "A program over the whole API which never passes a point that was just decoded (or was the receiver of Lizard) as second operand of Add or Sub, as argument of ScalarMult/PublicScalarMult or of ScalarMultTable.Compute, returns in the generic build the same results (bytes, booleans, panics) as in the default build.", "quantifier": "all finite programs over the API passing the static check, all inputs, all functions in place of SHA-512", "why_tests_cant": "All call sequences; the limbs of a variable depend on the whole history of calls that wrote it.", "anchors": ["edwards25519/field_generic.go", "edwards25519/curve.go", "ristretto.go"]}
{"id": "C51", "title": "Programs over the C reference implementation compute in the Ristretto group", "statement": "For every sequence of calls of the methods of Fe25519, GroupGe and GroupScalar of package cref on any variables (receivers may coincide with arguments), the bytes written by Pack and the integers returned by Unpack are those obtained by computing in GF(2^255-19), the Ristretto group and Z/l; a GroupGe that was never set, or whose Unpack failed, absorbs additions and packs to zero bytes.", "quantifier": "all finite programs over the API of package cref, all buffers", "why_tests_cant": "The C code works on ten unreduced signed 32-bit limbs whose size depends on the history of calls; overflow occurs only for rare limb values and rare histories.", "anchors": ["cref/cref.go", "cref/cref.c: fe25519_*, group_ge_unpack, group_ge_pack, group_ge_elligator, group_ge_add, group_ge_double, group_ge_negate, group_ge_scalarmult, group_scalar_unpack, group_scalar_pack"]}
{"id": "C52", "title": "The Go package agrees with the C reference implementation", "statement": "Every program over the API of package cref, translated call by call to the Go package (Unpack to SetBytes, Pack to Bytes, Elligator of an unpacked buffer to SetElligator, Add, Double, Neg, ScalarMult, GroupScalar.Unpack to Scalar.SetBytes), returns the same bytes and the same success values, provided the buffers given to GroupGe.Unpack are below 2^255-19.", "quantifier": "all finite programs, all buffers (points: below 2^255-19)", "why_tests_cant": "The tests of the repository compare the two on random inputs for single operations; agreement must hold for all inputs and all sequences of operations.", "anchors": ["cref/cref.go", "edwards25519/curve_test.go", "edwards25519/elligator_test.go", "ristretto.go"]}
{"id": "C53", "title": "Which buffers GroupGe.Unpack accepts", "statement": "GroupGe.Unpack returns 0 for a buffer exactly when the buffer, ignoring its top bit and reduced modulo 2^255-19, is the canonical encoding of a group element, which is then the element stored; it returns -1 otherwise. So it accepts everything SetBytes of the Go package accepts, with the same result, but also buffers SetBytes rejects (2^255-19 itself, or zero with the top bit set).", "quantifier": "all 2^256 buffers", "why_tests_cant": "Non-canonical buffers are too rare for random tests.", "anchors": ["cref/cref.c: group_ge_unpack, fe25519_unpack", "cref/cref.go: GroupGe.Unpack"]}
{"id": "C54", "title": "Point functions of the C reference implementation are complete on the curve", "statement": "For all points of the curve in coordinates with the limb bounds the package maintains, Add, Double and Neg return coordinates of the sum, double and negative within the same bounds, ScalarMult multiplies by any scalar below 2^254, and Pack writes the Ristretto encoding of every point in its domain.", "quantifier": "all points of the curve, all coordinates within the bounds, all scalars below 2^254", "why_tests_cant": "Exceptional points and rare limb values.", "anchors": ["cref/cref.c: add_p1p1, dbl_p1p1, p1p1_to_p3, group_ge_negate, group_ge_scalarmult, choose_t, scalar_window5, group_ge_pack"]}
{"id": "C55", "title": "Goroutines may share variables that none of them sets", "statement": "When goroutines call methods on shared points, scalars and tables without synchronisation, and no goroutine uses a variable that another one sets (the receiver of a method, except for methods that only inspect it: Bytes, MarshalText, Equals, EqualsI, Lizard, LizardInto, BigInt, IsNonZeroI), then every goroutine gets the results, and the panics, of a sequential run of its calls; variables nobody sets keep their contents; there is no data race; every goroutine ends; and when all have returned the results and contents are those of the goroutines run one after another in any order. (Default build and amd64 assembly build.)", "quantifier": "any number of goroutines, all sequences of calls they make that keep the rule, all initial contents of the variables, all interleavings of their word accesses, complete or not", "why_tests_cant": "There are astronomically many interleavings, and a race detector sees only the schedules that happen to run.", "anchors": ["ristretto.go: all methods of Point", "scalar.go: all methods of Scalar", "edwards25519/table.go: ScalarMultTable", "edwards25519/field_radix51.go: FieldElement.BytesInto", "edwards25519/elligator.go: ExtendedPoint.ToJacobiQuarticRistretto"]}
{"id": "C56", "title": "Sharing of variables between goroutines in the generic build", "statement": "In the generic build (forcegeneric) the methods that only inspect their receiver leave it representing the same element, also when several goroutines call them on the same variable at the same time; what C55 says of the default build holds.", "quantifier": "any number of goroutines, all sequences of calls they make that keep the rule, all initial contents, all interleavings", "why_tests_cant": "Needs a particular interleaving inside one field operation.", "anchors": ["edwards25519/field_generic.go: FieldElement.BytesInto", "edwards25519/elligator.go: ExtendedPoint.ToJacobiQuarticRistretto", "ristretto.go: Point.Lizard, Point.LizardInto"]}
{"id": "C57", "title": "Text forms: exactly which texts UnmarshalText accepts and what MarshalText writes", "statement": "MarshalText of a point or scalar writes the unpadded URL-safe base64 form of its 32 bytes and nothing else. UnmarshalText of a point succeeds exactly for texts that are, apart from line breaks, base64 forms of the encoding of a group element, or its 64 hexadecimal digits, and sets that element; UnmarshalText of a scalar succeeds exactly for base64 forms of 32 bytes. Other texts are reported as errors without changing the receiver, except those of C40 that panic and texts of 32 bytes that encode no element (the receiver becomes blank). No text has two meanings.", "quantifier": "all texts of any length, all points and scalars", "why_tests_cant": "Infinitely many texts; wrong lengths, line breaks in odd places, stray bits and mixed alphabets each need their own test.", "anchors": ["ristretto.go: Point.MarshalText, Point.UnmarshalText, textToBuf", "scalar.go: Scalar.MarshalText, Scalar.UnmarshalText"]}
{"id": "C58", "title": "Scalar.Rand is uniform but for a negligible bias", "statement": "Every scalar below l is the result of Scalar.Rand for floor(2^512/l) or floor(2^512/l)+1 of the 2^512 values of the 64 random bytes it reads, and no other scalar is a result. With uniform random bytes no two scalars differ in probability by more than 2^-512.", "quantifier": "all outcomes of the random generator, all scalars", "why_tests_cant": "A bias, such as that of reducing too few bytes, cannot be seen in samples.", "anchors": ["scalar.go: Scalar.Rand, Scalar.SetReduced"]}
{"id": "C59", "title": "Point.Rand has no frequent results", "statement": "No element of the group is the result of Point.Rand for more than 64 of the 2^256 values of the 32 random bytes it reads, so none has probability above 2^-250; at least 2^251 - 1 of the l elements, nearly half, are results.", "quantifier": "all outcomes of the random generator, all group elements", "why_tests_cant": "The group has 2^252 elements and the generator 2^256 outcomes.", "anchors": ["ristretto.go: Point.Rand, Point.SetElligator", "edwards25519/elligator.go: CompletedPoint.SetRistrettoElligator2"]}
{"id": "C60", "title": "Programs over package edwards25519 compute on the curve", "statement": "Take any program that calls the exported methods of FieldElement, ExtendedPoint, CompletedPoint, ProjectivePoint, NielsPoint, JacobiPoint and ScalarMultTable on any number of variables, in any order and with any coincidences of receiver and arguments. As long as the variables a call reads hold field elements and curve points, field methods compute in GF(2^255-19), point methods and conversions compute in the group of the curve, conversions to the Jacobi quartic and inverses of Elligator return what they should, comparisons and encodings return what the abstract values demand, and scalar multiplications give the multiple, or the one C64 says if the scalar is too large. A program panics exactly if it multiplies in variable time with a table by a scalar whose top digit is above 8.", "quantifier": "all finite programs over the exported methods except String, all variables, all byte arguments", "why_tests_cant": "The limb bounds that make the arithmetic right depend on the history of every operand; programs are unbounded.", "anchors": ["edwards25519/field.go", "edwards25519/field_radix51.go", "edwards25519/curve.go", "edwards25519/table.go", "edwards25519/vartime.go", "edwards25519/elligator.go"]}
{"id": "C61", "title": "Scalar multiplications and Niels points of package edwards25519 work for all arguments", "statement": "For every 32-byte scalar s and every point P of the curve, ScalarMult, VarTimeScalarMult and both multiplications with a table give s*P; NielsPoint.Neg negates also in place; SetBase stores the point (x, 4/5) with x non-negative, as its comment says.", "quantifier": "all 32-byte scalars, all curve points, all coincidences of variables", "why_tests_cant": "Failures occur only for scalars of 2^254 and more, which the callers in the package never pass.", "anchors": ["edwards25519/curve.go: ScalarMult, NielsPoint.Neg, SetBase", "edwards25519/vartime.go: VarTimeScalarMult, computeScalarWindow5, computeScalar5NAF", "edwards25519/table.go: ScalarMult, VarTimeScalarMult"]}
{"id": "C62", "title": "Scalar arithmetic of the C reference implementation", "statement": "The functions of cref.c on group_scalar compute modulo the group order l: multiplication, squaring and reduction of 64 bytes are right for every input, reduced or not (in particular the Barrett reduction needs no more than its two final subtractions, and the negative remainder its comment wonders about never occurs); addition, subtraction and negation are right for reduced operands; inversion gives the inverse of every scalar that is not a multiple of l and zero for the others; the tests for zero, one and equality, the bit test and the bit length are those of the number the 32 bytes stand for. On the same numbers the results are those of the Go package.", "quantifier": "all scalars (all 32-byte numbers, or all reduced ones for addition, subtraction and negation), all 64-byte inputs", "why_tests_cant": "Columns of up to 33 products come within a factor 1.3 of 2^32 and the quotient estimate is off only for rare inputs; random tests meet neither the largest columns nor the worst estimates.", "anchors": ["cref/cref.c: barrett_reduce, reduce_add_sub, group_scalar_add, group_scalar_sub, group_scalar_negate, group_scalar_mul, group_scalar_square, group_scalar_invert, group_scalar_isone, group_scalar_iszero, group_scalar_equals, scalar_tstbit, scalar_bitlen, scalar_from64bytes"]}
{"id": "C63", "title": "The whole C reference implementation", "statement": "A program over all functions of cref.c (field elements, scalars, group elements, in any order, results overwriting operands or not) returns what the same program on elements of GF(2^255-19), of the Ristretto group and of the integers modulo l returns, as long as sums of field elements stay within the documented size limits and two functions, fe25519_triple and group_ge_multiscalarmult, are not called in place. In particular multiplication of the base point with the built-in table of 425 points is right for every reduced scalar, multi-scalar multiplication is the sum, comparison of group elements compares classes, and square roots are square roots. Programs over the functions that the Go package has too return the same there. In place, fe25519_triple multiplies by four and group_ge_multiscalarmult loses the operand; blank group elements are equal to every group element and neutral.", "quantifier": "all programs over the functions of cref.c within the size limits; all scalars, points and field elements for the single functions", "why_tests_cant": "The table has 425 entries of which a random scalar uses 85 in a data-dependent way, unreduced sums fail only on extreme limbs, and the ways of chaining calls are unbounded.", "anchors": ["cref/cref.c: fe25519_invert, fe25519_sqrt, fe25519_sqrti, fe25519_triple, scalar_window3, choose_t_aff, ge25519_mixadd2, ge25519_base_multiples_affine, group_ge_base, group_ge_scalarmult_base, group_ge_multiscalarmult, group_ge_equals, group_ge_isneutral"]}
{"id": "C64", "title": "The multiple each multiplication of package edwards25519 computes, for every 32-byte scalar", "statement": "For every 32-byte scalar s and every curve point P: ScalarMult gives n*P where n is s without bit 255 and, when the top signed base-32 digit exceeds 16, without that digit; VarTimeScalarMult never panics and gives s*P, or (s-2^256)*P when its recoding leaves a carry; ScalarMult with a table gives s*P without the top signed base-16 digit when that exceeds 8, and VarTimeScalarMult with a table gives s*P or, for exactly the same scalars, panics. So ScalarMult is right for all points exactly when s < 17*32^50 - 16*(32^50-1)/31, and multiplication with a table exactly when s < 9*16^63 - 8*(16^63-1)/15.", "quantifier": "all 32-byte scalars, all curve points and tables", "why_tests_cant": "2^256 scalars; the bounds lie a little above 2^254 and 2^255 and depend on all lower digits.", "anchors": ["edwards25519/curve.go: ScalarMult, computeScalarWindow5", "edwards25519/vartime.go: VarTimeScalarMult, computeScalar5NAF", "edwards25519/table.go: ScalarMult, VarTimeScalarMult, computeScalarWindow4"]}
{"id": "C65", "title": "The debug texts of package edwards25519 show the values", "statement": "FieldElement.String is the decimal form of the element's canonical value, without superfluous zeros, so two texts are equal exactly when the elements are; ExtendedPoint.String and CompletedPoint.String show the four coordinates in decimal and the encoding of the group element in lower-case hexadecimal; JacobiPoint.String shows the two coordinates.", "quantifier": "all field elements with limbs up to 2^63, all points in extended and completed coordinates", "why_tests_cant": "2^255-19 values, each with many unreduced representations that must give the same text.", "anchors": ["edwards25519/field.go: String, BigInt", "edwards25519/curve.go: ExtendedPoint.String, CompletedPoint.String", "edwards25519/elligator.go: JacobiPoint.String"]}
{"id": "C66", "title": "The amd64 assembly reveals nothing about its operands", "statement": "The sequence of memory accesses of the assembly multiplication and squaring is determined by the addresses of the operands; it does not depend on their contents, on other memory or on the registers. Both read only the operands, and after the last read write each limb of the result once.", "quantifier": "all operand values, all addresses and coincidences of addresses, all register and memory contents", "why_tests_cant": "The claim is about all pairs of executions with different secrets.", "anchors": ["edwards25519/field_amd64.s: feMul, feSquare"]}
{"id": "C67", "title": "Sliding windows of the C reference implementation", "statement": "For every 256-bit scalar and every window size w from 2 to 31, scalar_slide writes 256 digits that are zero or odd, below 2^(w-1) and 128 in absolute value, with at least min(w,7)-1 zeros after every nonzero digit, and whose sum with weights 2^i is the scalar, or for some scalars above 2^255 the scalar less 2^256. For w up to 7 and scalars up to 2^255 these digits are the only ones of this kind. With w = 1 the digits are wrong.", "quantifier": "all 256-bit scalars, all window sizes", "why_tests_cant": "2^256 scalars; carries can run over the whole array.", "anchors": ["cref/cref.c: scalar_slide"]}
{"id": "C68", "title": "Coordinates through the accessors of the C reference implementation", "statement": "Reading a point of package cref through X, Y, Z and T yields extended coordinates of that point as canonical field elements; writing extended coordinates of a point through the four accessors, in any order and from any bytes that stand for them, makes the variable hold that point whatever it held before; a point copied this way packs to the same bytes.", "quantifier": "all curve points and all their coordinates, all previous contents, all orders", "why_tests_cant": "Every point has about 2^255 sets of coordinates, each with several 32-byte forms.", "anchors": ["cref/cref.go: GroupGe.X, GroupGe.Y, GroupGe.Z, GroupGe.T, Fe25519.Pack, Fe25519.Unpack"]}
{"id": "C69", "title": "Points of the Jacobi quartic", "statement": "Every pair on the Jacobi quartic belongs to exactly one curve point, which is even, and SetJacobiQuartic computes it. Dual gives the other pair of the same point. For an even point outside the neutral class ToJacobiQuarticRistretto returns pairs on the quartic above the four points Ristretto identifies with it, one each; with their duals these are all pairs above them. For the neutral class it returns (0,1) twice and (1,c), (-1,c), and no pair lies above (0,-1).", "quantifier": "all pairs on the quartic, all even points in all coordinates", "why_tests_cant": "About 2^255 points; completeness (all pairs) is a claim about the whole quartic.", "anchors": ["edwards25519/elligator.go: ToJacobiQuarticRistretto, Dual, SetJacobiQuartic"]}
{"id": "C70", "title": "Panics leave all variables as they were", "statement": "A call that panics (UnmarshalText of a text that is not a form of 32 bytes and too long, or Rand when the system's random generator fails) has changed no word of any variable: a program that recovers from the panics goes on exactly as if those calls had not been made, and no other call panics.", "quantifier": "all programs over points, scalars and tables with a recover around every call, all reachable contents of the variables, all texts, failures of the generator at any time", "why_tests_cant": "The calls that panic and the contents of the variables at that moment are arbitrary; a partial store shows only in the words of the receiver.", "anchors": ["ristretto.go: Point.UnmarshalText, Point.Rand", "scalar.go: Scalar.UnmarshalText, Scalar.Rand"]}
{"id": "C71", "title": "Scalars that are not reduced", "statement": "A scalar is an array of eight words a client may fill with any number below 2^256. Whatever the scalars hold: sums are taken modulo 2^256 and l is subtracted once, differences get l added once if negative, Equals holds if the numbers are equal or the receiver is l smaller, products, squares, multiply-adds and inverses are right and reduced modulo l, copies and output keep the number, the multiplications of a point yield exactly the stated multiples, and only PublicScalarMultBase and PublicScalarMultTable panic, exactly when the top base-16 digit with carry exceeds 8.", "quantifier": "all programs of calls and assignments of arbitrary words to scalars, from all contents of the variables", "why_tests_cant": "2^256 contents per scalar and arbitrary histories; tests use reduced scalars only.", "anchors": ["scalar.go: Scalar, Add, Sub, Neg, Mul, Square, MulAdd, MulSub, Inverse, Equals, EqualsI, IsNonZeroI, Bytes, BigInt", "ristretto.go: ScalarMult, PublicScalarMult, ScalarMultBase, PublicScalarMultBase, ScalarMultTable, PublicScalarMultTable"]}
{"id": "C72", "title": "Recovering from panics on scalars that are not reduced", "statement": "A client recovers from every panic and puts arbitrary words into scalars. What each call returns, which calls panic, and what every variable holds afterwards are determined: besides the calls of C70 only PublicScalarMultBase and PublicScalarMultTable panic, exactly when the top base-16 digit with carry exceeds 8. They leave a valid point in the receiver, the multiple of the base point, or of the table's point, by the odd base-16 digits of the scalar below the top one. No panic changes any other variable.", "quantifier": "all programs of calls and assignments of arbitrary words to scalars, with any number of recovered panics, from all contents of the variables", "why_tests_cant": "The contents after a panic depend on all 2^256 contents of a scalar and on arbitrary histories.", "anchors": ["edwards25519/table.go: VarTimeScalarMult", "ristretto.go: PublicScalarMultBase, PublicScalarMultTable, UnmarshalText, Rand", "scalar.go: Scalar, UnmarshalText, Rand"]}
{"id": "C73", "title": "Which elements hashing reaches, and how often", "statement": "Let the SHA-512 digest range over all 2^512 values. No element of the group is the result of Derive or of DeriveDalek for more than one digest in 2^250. At least 2^251 - 1 elements, nearly half, are results of Derive, and at least 2^252 - 3, all but less than one in 2^127, are results of DeriveDalek.", "quantifier": "all elements of the group, all 2^512 digests", "why_tests_cant": "Counts over 2^512 digests and 2^252 elements.", "anchors": ["ristretto.go: Derive, DeriveDalek, SetElligator", "edwards25519/elligator.go: SetRistrettoElligator2"]}
{"id": "C74", "title": "No signed overflow in the C implementation", "statement": "Whatever program runs over package cref, and over the functions of cref.c within their size limits, no addition, subtraction, multiplication or negation of signed integers in the field functions overflows, and no conversion to 32 bits changes a value. The digits into which scalars are split always fit a signed char. So the behaviour of the package does not depend on what a C compiler makes of signed overflow.", "quantifier": "all programs over the API of package cref and over the functions of cref.c, of any length, with all arguments; all field elements of up to three times the reduced size; all effects an overflow might have", "why_tests_cant": "An overflow needs extreme limbs in the middle of a computation, and a compiler may exploit undefined behaviour in ways that tests of one build do not show.", "anchors": ["cref/cref.c: fe25519_add, fe25519_sub, fe25519_neg, fe25519_mul, fe25519_square, fe25519_square_double, fe25519_pack, fe25519_unpack", "cref/cref.go: GroupGe, GroupScalar, Fe25519"]}
{"id": "C75", "title": "Programs that reach into the coordinates of points", "statement": "A client of package cref may use the pointers from X, Y, Z and T wherever a *Fe25519 is expected: to read and overwrite coordinates and as the argument of Elligator, also of the same point. Whatever is written, all results are those of the C code read over exact field elements, and no signed integer overflows. Whenever the coordinates of the operands are those of points of the curve, however they got there, the next call computes with these points.", "quantifier": "all programs over the methods of package cref with pointers to variables and to coordinates, of any length, with all buffers", "why_tests_cant": "Arbitrary coordinates need not form a point, so that the invariants behind the formulas fail; the limbs must stay within bounds along every history.", "anchors": ["cref/cref.go: GroupGe.X, GroupGe.Y, GroupGe.Z, GroupGe.T, Fe25519.Unpack, Fe25519.Pack, GroupGe.Elligator", "cref/cref.c: group_ge_elligator, group_ge_add, group_ge_scalarmult"]}
{"id": "C76", "title": "How many points carry Lizard data", "statement": "At most 8 of the 2^128 inputs of SetLizard share a point, so that SetLizard reaches between 2^125 and 2^128 of the 2^252 points. Points that were not made by SetLizard are not decoded, but for a negligible part: Lizard finds data in the result of Rand for at most 2^134 of the 2^256 random buffers, and in the results of Derive and DeriveDalek for at most 2^390 of the 2^512 digests.", "quantifier": "all points, all 16-byte inputs, all random buffers, all digests, all hash functions in place of SHA-256", "why_tests_cant": "Counts over 2^128 inputs, 2^256 buffers and 2^512 digests.", "anchors": ["ristretto.go: Point.SetLizard, Point.Lizard, Point.LizardInto, Point.Rand, Point.Derive, Point.DeriveDalek", "edwards25519/elligator.go: RistrettoElligator2Inverse"]}
{"id": "C77", "title": "Random keys and masks are spread evenly over the group", "statement": "The public key k\u00b7B of a random scalar k is each element of the group for 2^512/l of the random buffers or one more, whether it is computed with ScalarMultBase or with ScalarMult, and so is the mask k\u00b7Q for every point Q but the neutral element. So a masked message M + k\u00b7Q is each element for the same number of buffers up to one, whatever M is. Each scalar is the result of Derive for 2^512/l digests or one more, and each number below 2^128 is the result of DeriveShort for exactly 2^384 digests.", "quantifier": "all elements of the group, all points Q but the neutral element, all pairs of messages, all scalars; counts over all 2^512 buffers or digests", "why_tests_cant": "Counts over 2^512 buffers for each of the 2^252 elements.", "anchors": ["ristretto.go: Point.ScalarMultBase, Point.ScalarMult, Point.Add", "scalar.go: Scalar.Rand, Scalar.Derive, Scalar.DeriveShort"]}
{"id": "C78", "title": "Conformance with RFC 9496", "statement": "The point functions agree with the ristretto255 of RFC 9496, the standard written after this package. Bytes returns what Encode of the RFC gives, for whatever coordinates of whatever representative of the element. SetBytes accepts exactly the strings that Decode accepts and sets the point to the same point of the curve. Equals answers as Equals of the RFC on the coordinates held. SetElligator computes MAP, as a point of the curve, and DeriveDalek is Element Derivation from the SHA-512 digest of the data. Derive is MAP of the first half of the digest only, so it is not the derivation of the RFC.", "quantifier": "all points, all representatives and coordinates of an element, all 32-byte strings, all data, all hash functions in place of SHA-512", "why_tests_cant": "The RFC has some forty test vectors; interoperability needs agreement on 2^256 strings and on every set of coordinates that arithmetic leads to. Divergences would sit in rare branches: zero denominators, negative products, non-canonical strings.", "anchors": ["ristretto.go: Point.Bytes, Point.SetBytes, Point.Equals, Point.SetElligator, Point.Derive, Point.DeriveDalek", "edwards25519/curve.go: ExtendedPoint.RistrettoInto, SetRistretto, RistrettoEqualsI", "edwards25519/elligator.go: CompletedPoint.SetRistrettoElligator2"]}
{"id": "C79", "title": "Constant-time methods are straight-line programs on machine words", "statement": "For the methods of C46: apart from the loops over fixed ranges and over public lengths, the code between two calls is a fixed sequence of additions, subtractions, multiplications, logical operations, conversions and shifts by constants on machine words. No word of a point, scalar, table or byte argument is compared, branched on, used as an index or as a shift count; the only comparisons are the final ones that make up the returned bool or error, and the one in SetBytesStrict. So the memory after a program of calls, and what it returns, are values of expressions that depend only on which methods are called on which variables, on lengths of slices and on success or failure of SetBytesStrict.", "quantifier": "all programs over these methods, all initial memories (any limbs, any tables of the right size), all arguments; 64-bit and generic build", "why_tests_cant": "A test sees values and not how they were computed. That one expression is right for all 2^256 scalars and all limbs, and that this holds along every program, needs a proof.", "anchors": ["edwards25519/field_radix51.go, field_mul64.go, field_generic.go, field.go, curve.go, table.go, elligator.go", "edwards25519/table.go: selectPoint, equal15, negative", "edwards25519/curve.go: ScalarMult, equal30, ConditionalSet, SetRistretto, RistrettoInto", "scalar.go", "ristretto.go: LizardInto, SetLizard, SetElligator"]}
{"id": "C80", "title": "Indices stay in range; exactly which calls panic", "statement": "Every index, slice bound and loop counter of the methods stays inside its array, whatever the variables hold: limbs of any size, points off the curve, scalars that are not reduced, tables with any entries. So the constant-time methods, PublicScalarMult, Lizard and the conversions never panic. A call panics exactly if it is UnmarshalText of a text that is too long, or PublicScalarMultBase or PublicScalarMultTable with a scalar whose words spell a number of at least 9*16^63 - 8*(1 + 16 + ... + 16^62), which no reduced scalar does. (Rand panics if the system has no random bytes.)", "quantifier": "all programs, all contents of points, scalars and tables including those no method produces, all arguments", "why_tests_cant": "An index computed from digits of a scalar is out of range only for rare digits; in 2^256 scalars and arbitrary limbs a test meets a handful. Absence of panics is a claim about all of them.", "anchors": ["edwards25519/table.go: Compute, ScalarMult, VarTimeScalarMult, selectPoint, computeScalarWindow4", "edwards25519/curve.go: ScalarMult, VarTimeScalarMult, computeScalarWindow5, computeScalar5NAF", "edwards25519/elligator.go", "ristretto.go: Lizard, LizardInto, SetLizard, UnmarshalBinary, UnmarshalText", "scalar.go: SetBytes, SetReduced, SetBigInt, SetUint64, BigInt"]}
{"id": "C81", "title": "The C reference implementation stays inside its arrays and reads nothing it has not set", "statement": "A program of calls of cref.c that reads no group_scalar before setting it never indexes outside an array (digits of scalars, windows, precomputed points, the table of base multiples, limbs in conditional moves) and never reads an array cell before writing it, whichever of the pointers passed to a call coincide; scalars nobody passed as output keep their contents, and results are those of the functional description. From Go, where variables start as zero, this holds for every program. scalar_tstbit, which takes any unsigned int, reads outside the scalar exactly for positions from 256 on.", "quantifier": "all programs, all contents of variables, all choices of coinciding pointers, all 2^32 bit positions, all window sizes of scalar_slide", "why_tests_cant": "Reading outside an array or an unset cell in C is undefined: a test sees whatever was on the stack and usually passes. Indices in scalar_slide depend on the digits of the scalar.", "anchors": ["cref/cref.c: group_scalar_*, reduce_add_sub, barrett_reduce, scalar_window3, scalar_window5, scalar_slide, scalar_tstbit, scalar_bitlen, fe25519_cmov, fe25519_iszero, choose_t, group_ge_scalarmult, group_ge_scalarmult_base, group_ge_multiscalarmult", "cref/cref.go"]}
{"id": "C82", "title": "The C reference implementation may be called with coinciding pointers and reads no unset variable", "statement": "For every program of calls of the field and group functions of cref.c, on variables of type fe25519, group_ge and on single coordinates of a group_ge, whichever of the pointers passed to a call coincide: if the program sets every cell before reading it, then no function reads an unset local or variable, the results are those of the functional description applied to the values at the call, the variables hold those results afterwards, and no cell outside the receiver changes. There are two exceptions, both described exactly: fe25519_triple in place gives four times its argument, and group_ge_multiscalarmult uses the running sum for a point that is also its receiver. From Go, where variables start as zero, the condition always holds.", "quantifier": "all programs of calls, all contents of variables, all choices of coinciding pointers", "why_tests_cant": "A test passes a few choices of distinct or equal pointers; a receiver written before the last read of an argument only shows for the one overlap that matters, and reading an unset local of C shows whatever was on the stack.", "anchors": ["cref/cref.c: fe25519_*, group_ge_*, p1p1_to_p2, p1p1_to_p3, add_p1p1, dbl_p1p1, choose_t", "cref/cref.go: Fe, GroupGe"]}
{"id": "C83", "title": "Calls of the amd64 assembly keep the frame pointer of the caller", "statement": "After a multiplication or squaring of field elements in the amd64 assembly, the register BP, in which Go keeps the frame pointer of the calling function, holds what it held before, for all operands and addresses. (True of squaring. False of multiplication, which leaves the carry out of the lowest limb of the product there; a profiler or tracer that follows frame pointers then follows a number computed from the operands.)", "quantifier": "all operands, all addresses of arguments and result, all contents of registers at the call", "why_tests_cant": "Tests look at the results of calls; nothing in them reads BP, and Go code itself runs on without it.", "anchors": ["edwards25519/field_amd64.s: feMul, feSquare", "edwards25519/field_amd64.go: Mul, Square, DoubledSquare"]}
{"id": "C84", "title": "No operation of the default field arithmetic wraps around", "statement": "In the build used since Go 1.13 on every platform (field_radix51.go with field_mul64.go), no sum, difference or product of uint64 limbs wraps around, no bit is lost by a left shift and no carry out of a 128-bit accumulation is dropped, in any field operation that any program of the public API and any call of the edwards25519 functions on results of earlier calls performs.", "quantifier": "all programs of calls, all contents of variables and buffers; for the single functions all limbs up to the bounds the calls keep", "why_tests_cant": "Go wraps around silently. The limbs are close to the bounds only for rare values; a lost carry changes results for a fraction of inputs that can be as small as 2^-50.", "anchors": ["edwards25519/field_radix51.go: Add, Sub, Neg, add, sub, neg, setReduced", "edwards25519/field_mul64.go: Mul, Square, DoubledSquare", "ristretto.go: Point methods"]}
{"id": "C85", "title": "No operation in the multiplication and reduction of scalars overflows", "statement": "In Scalar.Mul, Square, MulAdd, MulSub, SetReduced, Derive and Inverse no sum, difference, product or negation of int64 numbers and no left shift of a carry leaves the range of int64, whatever the words of the operands are (also when they stand for numbers not below the group order, up to 2^256 - 1) and whatever the 64 bytes to be reduced are.", "quantifier": "all contents of the eight words of each operand, all 64-byte buffers, all hash functions and inputs of Derive", "why_tests_cant": "Go wraps around silently; sums of twelve products and chains of carries come close to the limit only for operands with all words large, which random reduced scalars never are.", "anchors": ["scalar.go: Scalar.Mul, Scalar.Square, Scalar.MulAdd, Scalar.MulSub, Scalar.SetReduced, Scalar.Derive, Scalar.Inverse, reduceAfterMul"]}
{"id": "C86", "title": "No operation of the generic field arithmetic overflows, except after decoding", "statement": "In the generic build (field_generic.go) no sum, difference, product or negation of int32 or int64 numbers, no left shift of a carry and no conversion to int32 leaves its range, in any field operation that contributes to a point, table or output of a program of the public API in which a freshly decoded point is never the second operand of Add or Sub, the argument of a scalar multiplication or the source of a table; so the results do not depend on what an overflow would do. Decoding itself is always free of overflow. The exception is real: adding the base point and a decoded point, in this order, overflows.", "quantifier": "all programs of calls and assignments of arbitrary words to scalars with the stated restriction, all buffers, and for the single functions all limbs up to the stated bounds", "why_tests_cant": "Go wraps around silently, limbs come close to the bounds only for rare values, and the generic build is not the one the tests run by default.", "anchors": ["edwards25519/field_generic.go: add, sub, Neg, normalize, setReduced, BytesInto, SetBytes, Mul, Square, DoubledSquare", "edwards25519/curve.go: ExtendedPoint.Add, CompletedPoint.AddExtended"]}
{"id": "C87", "title": "Programs over field elements in the generic build agree with the default build", "statement": "In the generic build every program of calls on FieldElements runs to the end without overflow and returns exactly what the default build (and the build with assembly) returns, which is what arithmetic modulo 2^255-19 gives, although Bytes, BigInt, IsNegativeI, IsNonZeroI and Abs rewrite the limbs of a variable of the caller.", "quantifier": "all finite sequences of calls of the 26 methods on any variables, with coinciding receivers and arguments allowed, all buffers and big integers", "why_tests_cant": "The limbs depend on which methods were called before and with which values; a bound that is exceeded only after a certain history, in the build the tests do not use by default, is not met by testing single calls.", "anchors": ["edwards25519/field.go: all methods of FieldElement", "edwards25519/field_generic.go: BytesInto, add, sub, Neg, Mul, Square, DoubledSquare, ConditionalSet, SetBytes", "edwards25519/field_radix51.go: BytesInto"]}
{"id": "C88", "title": "Programs over package edwards25519 in the generic build compute on the curve", "statement": "In the generic build, take any program over the methods of package edwards25519 in which no extended point that SetRistretto decoded, or that ToJacobiQuarticRistretto or RistrettoElligator2Inverse reduced in place, is used as the second operand of an addition or subtraction of extended points, as the argument of a scalar multiplication or to fill a table before it has been recomputed. No field arithmetic in it overflows, it panics only for a variable-time multiplication with a table by a scalar whose top digit is above 8, and all it returns and leaves in its variables is what arithmetic modulo 2^255-19 and the group law of the curve give. It does the same as in the default build, also for variables that hold no points of the curve; the amd64 assembly build does the same as the default build for every program. Without the restriction this is false.", "quantifier": "all finite sequences of calls that pass the static check, on any variables of the seven types, with coinciding receivers and arguments allowed, all buffers and scalars", "why_tests_cant": "The limbs a coordinate may have depend on the whole history of calls that produced it; a sum overflows only for particular points and histories, in a build the tests do not use by default.", "anchors": ["edwards25519/field_generic.go: all functions", "edwards25519/curve.go: all methods", "edwards25519/table.go: Compute, ScalarMult, VarTimeScalarMult", "edwards25519/elligator.go: SetRistrettoElligator2, RistrettoElligator2Inverse, ToJacobiQuarticRistretto, Dual, SetJacobiQuartic"]}
{"id": "C89", "title": "Every build configuration is complete and portable", "statement": "For every Go release, architecture, operating system and set of build tags, the files of package edwards25519 that the go command chooses fit together: every package-level name is declared exactly once, whatever a file refers to is declared, and functions without a body have one in a chosen assembly file. The names other packages may use are the same in all configurations, and package ristretto uses no others. The representation of field elements, their arithmetic and the table of multiples of the base point always belong together: generic with tag forcegeneric, else field_mul64.go from Go 1.13 on, else assembly on amd64, else generic. The two notations of a constraint mean the same, so releases before and after Go 1.17 choose alike. A program over the public API, or over the methods of package edwards25519, returns the same in all configurations (in those with generic arithmetic if no point just decoded is a second operand, see C50 and C88). The constraint on the assembly file does not say what was meant: every amd64 build contains the file, but its functions are declared only where they are used.", "quantifier": "all sets of satisfied build tags, both notations of constraints, all programs over the public API and over the methods of package edwards25519", "why_tests_cant": "A test runs in one configuration; there are unboundedly many sets of tags, and a wrong constraint shows only in the configuration that lacks a file or has it twice.", "anchors": ["edwards25519/field_mul64.go: build constraint", "edwards25519/field_amd64.go: build constraint, feMul, feSquare", "edwards25519/field_amd64.s: build constraint, feMul, feSquare", "edwards25519/field_radix51.go: build constraint", "edwards25519/field_generic.go: build constraint", "edwards25519/table_radix51.go: build constraint", "edwards25519/table_generic.go: build constraint", "ristretto.go: uses of edwards25519"]}
