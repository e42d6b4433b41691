import json
P=[]
def p(i,title,statement,quant,why,anchors): P.append(dict(id=i,title=title,statement=statement,quantifier=quant,why_tests_cant=why,anchors=anchors))
p("C01","Reduction gadget is the identity on the scalar field, whatever the prover answers",
"mod(api, a) adds a constraint that, for every pair (quotient, remainder) a prover may supply as hint outputs, is satisfied exactly when the remainder equals a as a BN254 scalar-field element; the returned variable then has the value of a. The quotient is not constrained at all. An integer outside [0, MODULUS) that a test engine does not reduce is rejected for every answer, and so is nil.",
"every input variable a, every hint output a prover may choose, compiled and test engines",
"A test runs only the honest hint; the claim is about every dishonest hint answer and every field element.",
["fr.go: mod, modHint"])
p("C02","The honest reduction hint always succeeds",
"For every integer a, modHint returns (d, m) with a = d*MODULUS + m and 0 <= m < MODULUS, and with this hint the constraint of mod is always satisfied, so mod never rejects an honest prover. Exactly: mod is accepted with this hint iff the engine reads a as an integer in [0, MODULUS), which fails only for nil and for an integer outside that interval in a test engine that does not reduce it.",
"every integer a (negative and arbitrarily large)",
"Infinitely many integers; sign conventions of Div/Mod only show on values no test uses.",
["fr.go: modHint, mod"])
p("C03","fr_add, fr_sub, fr_mul and fr_neg are the scalar-field operations",
"For all operands, fr_add/fr_sub/fr_mul/fr_neg return a variable whose value is a+b, a-b, a*b, -a in the BN254 scalar field whenever the emitted constraints are satisfied, for every hint strategy; with the honest hint they never fail, canonical operands or not. A nil operand panics.",
"all operand values (canonical or not), all hint strategies, both engines",
"The domain has 2^254 values per operand and the prover's answers are adversarial.",
["fr.go: fr_add, fr_sub, fr_mul, fr_neg"])
p("C04","fr_div accepts exactly the quotients",
"fr_div(api, a, b, aux) is accepted with the honest hint exactly when b*aux = a in the scalar field, b is not nil and the engine reads a and aux as integers in [0, MODULUS); its result is aux; so for b != 0 the result is the unique field quotient a/b, and for b = 0, a != 0 every aux is rejected.",
"all a, b, aux and all hint strategies",
"Soundness of a division witness is a statement about all wrong witnesses.",
["fr.go: fr_div"])
p("C05","fr_div pins its result (no free witness)",
"The result of an accepted fr_div is determined by a and b. FALSE of the code when a = b = 0: every aux is accepted and returned. True as soon as b != 0.",
"all a, b, aux",
"The exceptional pair (0,0) is reached only for special challenges; a test with random data never meets it.",
["fr.go: fr_div","AggregatorVerifierStep1.go: VerifyProof1 (Lagrange evaluations, aux[9..15])","AggregatorVerifierStep2.go: aux[16]"])
p("C06","fr_pow computes powers",
"For a constant exponent n >= 1, fr_pow(api, a, n) has value a^n in the scalar field for every a. For every n <= 1 (including 0 and negative numbers) it returns the value of a, so fr_pow(a, 0) is a rather than 1. With the honest hint it is accepted for every base other than nil if n >= 2, and if n <= 1 exactly for the bases the engine reads as an integer in [0, MODULUS). A non-constant exponent makes it panic.",
"all bases a, all integer exponents",
"The loop runs n-1 times with no bound on n (the verifier uses 8388608); only induction covers every exponent.",
["fr.go: fr_pow"])
p("C07","fr_mul_neg returns a representative of the negated product, canonical unless the product is zero",
"In the test engine fr_mul_neg(a, b) returns the integer MODULUS - (a*b mod MODULUS): it is congruent to -a*b, lies in [1, MODULUS], and is non-canonical (equal to MODULUS) exactly when a*b = 0. In a compiled circuit with a variable product it panics.",
"all operands",
"Non-canonical output appears only for zero products; the panic depends on the engine.",
["fr.go: fr_mul_neg"])
p("C08","PackUInt8Variables is big-endian packing in the scalar field",
"For every non-empty list of variables, PackUInt8Variables returns sum_i b_i*256^(n-1-i) in the scalar field; on bytes it is the big-endian integer modulo the scalar-field order, it is injective on lists of n bytes for n <= 31, and not injective for n = 32. On an empty list it panics, and on two or more variables with a nil among them; a single variable is returned as it is.",
"all lists of variables of every length",
"Unbounded length; collisions modulo the field order are not found by sampling.",
["utils.go: PackUInt8Variables"])
p("C09","Point string parsing is a correct round trip",
"For all x, y < 2^256, extractAndConvert applied to \"bn256.G1(<64 hex digits of x>, <64 hex digits of y>)\" returns the decimal strings of x and y; decimal parsing of those strings gives back x and y. Text after it, and text before it that does not contain bn256.G1(, makes no difference. On an arbitrary string it succeeds iff there is a match of the pattern bn256\\.G1\\((\\w+),\\s(\\w+)\\) and both groups of the leftmost match are an even number of hexadecimal digits of either case, optionally after 0x; it then returns their values in decimal; otherwise it returns an error.",
"all pairs of 256-bit coordinates; all strings",
"2^512 coordinate pairs; leading zeros and digit boundaries are where string code fails.",
["aggregator_lib_circuit.go: extractAndConvert, hexToDecimalString"])
p("C10","MSM and addition hints return exactly the affine result, and reject bad input",
"MsmHint and AddHint: wrong arity panics; a coordinate of absolute value >= 2^256 panics; a coordinate >= p or a pair that is neither on the curve nor (0,0) returns an error; otherwise the outputs are the affine coordinates of k*P (resp. P+Q), and (0,1) when that result is the point at infinity.",
"all argument lists, all integers",
"Range over all points/scalars including infinity, off-curve and oversize inputs.",
["aggregator_lib_circuit.go: MsmHint, AddHint, extractAndConvert"])
p("C11","The byte-conversion helpers in hash.go do what their name says",
"toBytes decomposes its input into 32 bytes and ValueOf returns the bytes of its inputs. FALSE of the code: toBytes never returns success on any input (error or panic on all), and ValueOf returns 32*len(a) empty bytes whatever the values of a.",
"all inputs and output slices of every length",
"A universal negative: no input succeeds.",
["hash.go: toBytes, ValueOf"])
p("C12","VerifyCheckOnCurve decides membership in E: y^2 = x^3 + 3 over Fp, with (0,0) as infinity",
"On constant arguments VerifyCheckOnCurve returns nil exactly when the residues modulo p of x, y satisfy the curve equation or are both zero; it only depends on residues modulo p (so non-canonical encodings x+p pass); it emits no constraint. On a circuit variable it panics.",
"all integers x, y and all variables",
"Both directions over all field elements, and the engine-dependence.",
["aggregator_lib_circuit.go: VerifyCheckOnCurve, CheckOnCurveCircuit.Define"])
p("C13","VerifyCheckOnCurveVar rejects off-curve circuit variables",
"FALSE of the code: on circuit variables the conversion errors are ignored, the point stays (0,0), and the check succeeds for every assignment of x and y without emitting any constraint. On constants it agrees with VerifyCheckOnCurve. In general a variable or nil counts as the coordinate 0.",
"all variables and all assignments",
"Universal: accepts every assignment, in particular off-curve ones.",
["aggregator_lib_circuit.go: VerifyCheckOnCurveVar, CheckOnCurveCircuitVar.Define"])
p("C14","Passing the on-curve check is enough for subgroup membership",
"Every point accepted by the on-curve check has order dividing the scalar-field order r: the curve has exactly r points, so no separate subgroup check is needed and scalars may be reduced modulo r.",
"all points of the curve (about 2^254)",
"Point counting cannot be tested.",
["aggregator_lib_circuit.go: VerifyCheckOnCurve, FrModulus, FpModulus","pairing_circuit.go: FillVerifyCircuitsG1"])
p("C15","Accepted scalar multiplication is the scalar multiple, whatever the hint answered",
"If CalcVerifyBN256Msm(api, x, y, k) on a constant on-curve point is accepted without error, then for every hint strategy the two returned coordinates encode k*P, and both are smaller than the scalar-field order. This holds for 0 <= k < p (where the gadget is specified: P != O and k not a multiple of r); in general the multiple is (k mod p)*P. FALSE of k >= p: with k = p+1 a prover gets the generator G accepted as (p+1)*G.",
"all points, all scalars, all hint strategies",
"Soundness against all dishonest hints.",
["aggregator_lib_circuit.go: CalcVerifyBN256Msm","msm.go: VerifyBN254ScalarMul"])
p("C16","Scalar multiplication accepts every honest, representable case and no other",
"With honest hints, for canonical coordinates of P != O and k != 0 mod r, CalcVerifyBN256Msm is accepted exactly when both coordinates of k*P are smaller than the scalar-field order; a result with a coordinate in [r, p) is rejected although the multiplication is correct. If k*P is the point at infinity the call is never accepted; coordinates that are no point panic.",
"all canonical points and scalars",
"The rejected window has density 2^-127 and is never sampled.",
["aggregator_lib_circuit.go: CalcVerifyBN256Msm, MsmHint","fr.go: mod"])
p("C17","Accepted point addition is the group sum, whatever the hint answered",
"If CalcVerifyBN256Add on constant encodings of P and Q is accepted without error then the returned pair encodes P+Q; with honest hints it is accepted exactly when P+Q != O and both coordinates of P+Q are below the scalar-field order (an infinite sum is always rejected because the hint answers (0,1)). Coordinates that are no point panic in a test engine that keeps integers as they are.",
"all pairs of points, all hint strategies",
"All pairs incl. doubling, inverse pairs and infinity, against all hints.",
["aggregator_lib_circuit.go: CalcVerifyBN256Add, AddHint","msm.go: VerifyBN254Add"])
p("C18","ecc_mul and ecc_mul_add update exactly the documented slots",
"An accepted ecc_mul(buf, o) replaces (buf[o],buf[o+1]) by buf[o+2]*(buf[o],buf[o+1]) and changes nothing else; an accepted ecc_mul_add(buf, o) on constant slots replaces (buf[o],buf[o+1]) by its sum with buf[o+4]*(buf[o+2],buf[o+3]), leaves that product in slots o+2,o+3, and changes no other slot. Scalars count modulo p (C15). Offsets that do not fit in the buffer panic.",
"all buffers, offsets and hint strategies",
"Frame conditions over every buffer and offset.",
["fr.go: ecc_mul, ecc_mul_add"])
p("C19","ecc_mul_add reports failure of the addition step",
"FALSE of the code: the error returned by the addition is discarded. There is a buffer (accumulator held in a circuit variable) for which the addition emits no curve constraint and returns an error, yet ecc_mul_add returns nil and stores prover-chosen coordinates. ecc_mul itself propagates its error.",
"all buffers",
"Only visible with a non-constant accumulator, which no test builds.",
["fr.go: ecc_mul_add, ecc_mul"])
p("C20","Defining the same native MSM/addition circuit twice checks the same statement",
"FALSE of the code: BN256MsmCircuit.Define and BN256AddCircuit.Define overwrite their own input point. After n calls the stored point is k^n*P (resp. P + n*Q), and the n-th call checks k^n*P = Res (resp. P+n*Q = Res) up to the comparison of C21.",
"all circuits and every number of calls (history)",
"An induction over the number of Define calls; tests call Define once.",
["aggregator_lib_circuit.go: VerifyBN256Msm, VerifyBN256Add, BN256MsmCircuit.Define, BN256AddCircuit.Define"])
p("C21","Native MSM/addition check compares points of Fp",
"VerifyBN256Msm/VerifyBN256Add accept exactly when both coordinates agree modulo the scalar-field order r. This is implied by equality of points, but is strictly weaker: there are distinct base-field elements that agree modulo r, and for every x < p - r the values x and x + r are identified.",
"all points and results",
"The colliding window x < p-r is negligible for random sampling.",
["aggregator_lib_circuit.go: VerifyBN256Msm, VerifyBN256Add"])
p("C22","VerifyNotZero and VerifyRangeCheck decide exactly their predicate",
"VerifyNotZero(x) is accepted iff the canonical value of x is non-zero; VerifyRangeCheck(x, Min, Max) iff Min <= x <= Max on canonical representatives (no wrap-around: an empty interval accepts nothing). This holds for all values in an engine that reduces big integers modulo r, and for canonical values in every engine. It is FALSE of integers outside [0, r) in a test engine that does not reduce them: there the comparison is one of integers (VerifyNotZero asks for >= 1, VerifyRangeCheck for Min <= x <= Max and x >= 0), so the modulus r, zero in the field, passes VerifyNotZero. A nil argument panics.",
"all values of every kind, all engines",
"Both directions over all field elements.",
["aggregator_lib_circuit.go: VerifyNotZero, VerifyRangeCheck"])
p("C23","VerifyKeccak256 / VerifySha256 accept exactly the digest",
"For every input byte list and claimed digest list: fewer than 32 claimed bytes panics; otherwise accepted iff the first 32 claimed bytes equal the digest of the input; bytes beyond the 32nd are ignored. Inputs that the engine does not read as integers in [0, 256), nil included, are never accepted, and neither are claimed values, among the first 32, that it reads as any other integer than the byte of the digest.",
"all lists of every length, with values of every kind",
"Unbounded input length, both directions.",
["aggregator_lib_circuit.go: VerifyKeccak256, VerifySha256, Keccak256Circuit.Define, Sha256Circuit.Define"])
p("C24","With honest hints the instance hash is Keccak-256 of the instances, modulo r",
"For every list of canonical instance values, VerifyInstanceHash with the honest hint is accepted and returns keccak256(be32(v1)||...||be32(vn)) modulo the scalar-field order. For other values the 32-byte encodings are those of the residues modulo p of the integers the engine hands to the hint, so in an engine that does not reduce them n and n + p have the same hash; a nil value panics.",
"all instance lists of every length and all values",
"Unbounded lists, byte layout for every value.",
["circuit.go: VerifyInstanceHash, Keccak256Hint","utils.go: PackUInt8Variables"])
p("C25","The instance hash is bound to the public instance",
"FALSE of the code: the hashed bytes are hint outputs never tied to the inputs. For every instance list and every other byte string of the same length there is a prover strategy that satisfies all constraints of VerifyInstanceHash and makes it return the hash of the other string. What does hold for every strategy: the returned value is the hash of some byte string of length 32*n.",
"all instance lists, all byte strings of the right length, all prover strategies",
"Needs a dishonest prover; tests run the honest hint only.",
["circuit.go: VerifyInstanceHash, AggregatorCircuit.Define"])
p("C26","SqueezeChallenge is hash-then-reduce with full-digest chaining",
"SqueezeChallenge(absorbing, n) on constants of absolute value below 2^256 returns sha256(be32(|a0|)||..||be32(|a(n-1)|)||0x00) mod r, sets absorbing[0] to the full digest and absorbing[n] to 0, and changes nothing else. It panics iff an absorbed slot is not a constant big integer, is too large, or n is not a valid index.",
"all absorbing buffers and lengths",
"All buffers, all lengths, all failure cases.",
["aggregator_lib_circuit.go: SqueezeChallenge"])
p("C27","Challenge derivation follows the Fiat-Shamir schedule",
"On success, GetChallengesShPlonkCircuit writes to buf[2..9] the eight challenges theta, beta, gamma, y, x, and the three opening challenges obtained by absorbing, in order, the instance commitment and 8 points; 4 points; nothing; 7 points; 3 points; 56 scalars; nothing; 1 point into a chained SHA-256 sponge seeded by the verification-key constant; it leaves buf[0..1] and buf[10..] unchanged.",
"all transcripts and buffers",
"Equality of the whole schedule with an independent specification for every transcript.",
["aggregator_lib_circuit.go: GetChallengesShPlonkCircuit"])
p("C28","Challenges commit to everything absorbed before them",
"Take two successful runs of GetChallengesShPlonkCircuit over non-negative data. If their k-th challenges agree and SHA-256 reduced modulo r has no collision between the corresponding messages hashed up to then, both runs absorbed the same data before challenge k; for the last challenge: the same instance commitment and the same transcript elements 0..101. Distinct absorbed blocks always give distinct hash inputs. Negative words are outside this property: the sign of a word is not hashed, so negating an evaluation word leaves every challenge unchanged.",
"all pairs of transcripts",
"Injectivity of an encoding over all pairs.",
["aggregator_lib_circuit.go: SqueezeChallenge, GetChallengesShPlonkCircuit"])
p("C29","Every proof point is checked to be on the curve",
"If challenge derivation succeeds, then each of the 24 point pairs of the proof (positions 0..43 and 100..103) is on the curve or is the infinity encoding; if any one is not, it returns an error.",
"all transcripts",
"Universal over all malformed proofs and positions.",
["aggregator_lib_circuit.go: GetChallengesShPlonkCircuit, VerifyCheckOnCurve"])
p("C30","The quotient evaluation is forced to the combined constraint value",
"In every accepted run the witness used as h(x) satisfies h*(x^n - 1) = the y-combination of the gate, permutation and lookup expressions of the aggregation circuit at the claimed evaluations (n = 2^23).",
"all transcripts, challenges and aux witnesses, all hint strategies",
"An algebraic identity over about 70 free field variables.",
["AggregatorVerifierStep1.go: VerifyProof1","AggregatorVerifierStep2.go: VerifyProof2"])
p("C31","Lagrange constants are the evaluation-domain values",
"The constants used are 1/n*w^i and w^i for a primitive 2^23-th root of unity w and i = 0,-1,..,-6, and every other number written in the verification steps is the coset generator, a small number, a power of two, a small negative or a coordinate of a curve point; whenever x is outside the domain, each accepted Lagrange witness equals the value at x of the Lagrange basis polynomial of that domain.",
"all x outside the domain",
"Identity of polynomials of degree 2^23-1 at every point.",
["AggregatorVerifierStep1.go: VerifyProof1 (aux[9..15], fr_pow)"])
p("C32","Opening values are evaluations of the interpolation polynomials",
"In every accepted run, the five combined values used in the opening check are the evaluations at the last challenge u of the interpolation polynomials through the claimed evaluations on the rotation sets {x,wx,w^-6x}, {x,w^-1x}, {x}, {x,wx}, {x,wx,w^2x}.",
"all transcripts, challenges and aux witnesses",
"Polynomial identity for all inputs; all inverse witnesses.",
["AggregatorVerifierStep1.go: VerifyProof1","AggregatorVerifierStep2.go: VerifyProof2"])
p("C33","The final accumulator is the SHPLONK combination of the commitments",
"In every accepted run (buf[12],buf[13]) encodes the SHPLONK combination: sum over rotation sets of v^i * Z_(T\\Si)(u)/Z_(T\\S0)(u) * (sum_j y^j C_ij - r_i(u) G) - Z_S0(u) W + u W', and (buf[10],buf[11]) encodes W'.",
"all transcripts, challenges, aux witnesses and hint strategies",
"Equality of a 46-term multi-scalar multiplication with its specification on all inputs.",
["AggregatorVerifierStep2.go: VerifyProof2","AggregatorVerifierStep3.go: VerifyProof3"])
p("C34","An accepted aggregation run satisfies the Halo2/SHPLONK verification equation",
"If AggregatorCircuit.Define is accepted by the (constant) test engine, then all proof points are on the curve, challenges are the Fiat-Shamir challenges, the quotient identity holds, and the pairing check holds for W' and the SHPLONK combination; both are not infinity.",
"all circuits (proof, instance, aux values), all hint strategies",
"Soundness over all accepted inputs.",
["circuit.go: AggregatorCircuit.Define"])
p("C35","Every valid proof in general position is accepted",
"If the specification accepts (points on curve and canonical, pairing equation) and no degenerate value occurs (denominators non-zero, scalars non-zero, intermediate results finite and representable below r), then there is an aux witness with which AggregatorCircuit.Define is accepted by the test engine with honest hints.",
"all valid proofs in general position",
"Completeness over all proofs.",
["circuit.go: AggregatorCircuit.Define"])
p("C36","The aux witness is unique",
"For a given proof and instance there is at most one list of 21 canonical aux values that is accepted, provided the challenge x is not in the evaluation domain; without this proviso it is FALSE (any aux value is accepted for a Lagrange quotient at a domain point).",
"all proofs and pairs of aux lists",
"Uniqueness quantifies over all pairs of witnesses.",
["AggregatorVerifierStep1.go","AggregatorVerifierStep2.go","fr.go: fr_div"])
p("C37","The three verification steps do not touch challenges, and ignore surplus input",
"VerifyProof1/2/3 never change buf[0..9]; their outcome depends only on the first 104 proof values and the first 21 aux values, so appending values to Proof or Aux never changes the result of Define.",
"all buffers and all slices of every length",
"Frame/independence statement over all inputs.",
["AggregatorVerifierStep1.go","AggregatorVerifierStep2.go","AggregatorVerifierStep3.go","circuit.go: AggregatorCircuit.Define"])
p("C38","Short inputs never verify",
"AggregatorCircuit.Define is never accepted when Proof has fewer than 104 entries, when Aux has fewer than 21 entries, or when TargetInst and VerifyInst together exceed 43 entries.",
"all slice lengths",
"All lengths, and every run leading to the out-of-range access.",
["circuit.go: AggregatorCircuit.Define","aggregator_lib_circuit.go: GetChallengesShPlonkCircuit"])
p("C39","The aggregation circuit can be compiled",
"FALSE of the code: with circuit variables as inputs (what frontend.Compile provides) AggregatorCircuit.Define returns an error or panics for every shape of the circuit, every assignment and every hint strategy; consequently main always panics at compilation. For circuits with at most 43 instance values, none nil (the circuit of main among them), it gets through the instance hash and returns the error of SetInterface on the scalar of the first multiplication: a circuit variable is not a constant.",
"all circuit shapes, assignments, strategies",
"A universal negative; the repo's test only uses the test engine.",
["circuit.go: AggregatorCircuit.Define","msm.go: VerifyBN254ScalarMul","main.go: main"])
p("C40","All hints used by the circuits are registered with the solver",
"FALSE of the code: modHint is used by every fr_* operation but never registered; any program that calls mod uses an unregistered hint. All other hints used by the aggregation circuit are registered.",
"all runs",
"A statement about the set of hints of every run, not of one.",
["aggregator_lib_circuit.go: init","fr.go: mod"])
p("C41","Pairing inputs are well-formed",
"The two built-in G2 points satisfy the twist equation over Fp2 (so GetVerifyCircuitsG2Jac never panics), they have order exactly r in the group of the twist, and the second is the negated standard generator; FillVerifyCircuitsG1 panics exactly when a coordinate is not a constant or a pair is neither on the curve nor (0,0), and otherwise stores exactly the residues of its arguments. VerifyBN256Pairing returns an error on no points or on different numbers of G1 and G2 points, and is otherwise accepted exactly when the pairing check of the gadget holds.",
"all G1 arguments; the two fixed G2 points; for VerifyBN256Pairing all lists of points",
"Both directions over all arguments.",
["pairing_circuit.go: GetVerifyCircuitsG2Jac, FillVerifyCircuitsG1, FillVerifyCircuitsG2, VerifyBN256Pairing"])
p("C42","KYC circuit accepts exactly: valid signature on the hash, age in range, country in list",
"Circuit.Define is satisfied iff the fixed key's signature on KycHash is valid, Age[0] <= Kyc.Age <= Age[1], and Kyc.Country equals one of the listed countries; in particular an empty country list accepts nothing. No value that is read may be nil. This holds on canonical values and wires in every engine; in general the ages are compared as the integers the engine reads and the countries modulo r, so it is FALSE of an age outside [0, r) in a test engine that does not reduce it.",
"all witnesses with values of every kind, country lists of every length, all engines",
"Unbounded list length and all field values, both directions.",
["kyc.go: Circuit.Define"])
p("C43","The KYC signature covers the KYC attributes, and all four conditions are enforced",
"FALSE of the code: KycHash is not linked to the attributes, and Level and Time are never read. For every satisfying witness, replacing Age, Country by any values meeting the public conditions, and Level, Time by anything, with the same signature still satisfies the circuit.",
"all satisfying witnesses and replacement attributes",
"Exhibiting independence for all witnesses requires a proof.",
["kyc.go: Circuit.Define, KycType, Conditions"])
p("C44","Multi-scalar multiplication circuit accepts exactly the correct result",
"VerifyMultiScalarMul returns an error when the numbers of points and scalars differ, panics on empty lists, and otherwise is accepted iff the expected point is the sum of s_i*P_i, for curve points and scalars in the general position in which the gnark gadget is specified (no infinity, no zero scalar, no vanishing signed sub-sum).",
"all lists of points and scalars of every length",
"Unbounded lists, both directions.",
["msm.go: VerifyMultiScalarMul, MultiScalarMul.Define"])
p("C45","The non-zero tests on the final points reject exactly the point at infinity",
"For encodings of curve points, the four VerifyNotZero tests pass iff neither point is the point at infinity: no curve point has a coordinate that is 0, nor one that equals r and would become 0 in the native field. Define tests the two points it then pairs, and with a point at infinity it stops before the pairing.",
"all pairs of curve points",
"Non-existence of points with x = 0 or y = 0 is a statement about the whole field.",
["circuit.go: AggregatorCircuit.Define","aggregator_lib_circuit.go: VerifyNotZero"])
p("C46","The field constants are the BN254 primes",
"FpModulus and FrModulus are prime, MODULUS equals FrModulus, and FrModulus < FpModulus < 2^254, so both residue systems are fields and every scalar-field value is a canonical base-field value.",
"all divisors",
"Primality quantifies over all divisors.",
["aggregator_lib_circuit.go: FpModulus, FrModulus, MODULUS"])
p("C47","BN254ScalarMul / BN254Add circuits accept exactly the right point for constant data",
"VerifyBN254Add on constants encoding curve points P, Q is accepted iff the expected coordinates, reduced modulo p, encode P+Q. VerifyBN254ScalarMul on constants encoding a finite curve point P and a scalar k in [0,p) not divisible by r (the domain in which the gnark gadget is specified) is accepted iff they encode k*P; a scalar outside [0,p) is read modulo p; for P infinite or k divisible by r nothing but infinity is accepted. For both: if any argument is nil or a circuit variable they are never accepted, and if one of the inputs (not only the expected result) is, they return an error and emit no constraint at all.",
"all arguments",
"Both directions for all points; engine dependence.",
["msm.go: VerifyBN254ScalarMul, VerifyBN254Add, BN254ScalarMul.Define, BN254Add.Define"])
p("C48","Exactly which proofs the honest run accepts",
"When the circuit runs in the test engine with the hint functions of this repository, any circuit assignment, of any lengths and with any Go values, is accepted if and only if, machine integers (Go int, 64 bits) at the last two proof positions being read as the numbers they are: there are at least 21 aux values, the first 21 canonical, no instance value is nil, there are at least 104 proof words, the words are big integers below 2^256 in absolute value (an evaluation may be negative or exceed r) and the 24 point pairs are canonical coordinates of finite curve points, there are at most 43 instance values, their Keccak hash is non-zero mod r and its commitment representable, the 21 aux values satisfy their defining division relations, every scalar, product and partial sum of the opening combination is non-degenerate (non-zero, finite, coordinates below r), and the final pairing equation holds. Outside the evaluation domain the aux values are thereby unique.",
"all proofs, instances and aux values; both directions",
"A biconditional over all proofs cannot be settled by accepting or rejecting a sample.",
["circuit.go: AggregatorCircuit.Define","aggregator_lib_circuit.go: CalcVerifyBN256Msm, CalcVerifyBN256Add","fr.go: ecc_mul, ecc_mul_add","AggregatorVerifierStep1.go: VerifyProof1","AggregatorVerifierStep2.go: VerifyProof2","AggregatorVerifierStep3.go: VerifyProof3"])
p("C49","The shipped proof is accepted",
"The proof, aux values and instances shipped in main.go and circuit_test.go are accepted by the circuit (test engine, hints of this repository) with SHA-256, Keccak-256, the optimal ate pairing of BN254 and any lawful curve arithmetic. For any other pairing they are accepted if and only if the pairing equation holds for the shipped second opening proof and one explicit point; the shipped aux values are exactly the specified ones, and no degenerate value occurs. There is exactly one pairing trapdoor for which the shipped proof is accepted. The values recorded in the repository's tests (instance hash, instance commitment, challenges, the whole buffer after VerifyProof1, the points of the pairing test) are the ones computed.",
"all lawful implementations of the curve gadgets and all pairings (the data are the shipped ones)",
"The repo's test runs one implementation of the gadgets, and does not show that the fixture agrees with the specification of the verifier.",
["main.go: proofStr, auxStr","circuit_test.go: TestCircuit","aggregator_lib_circuit_test.go: TestMsmSolve, TestSqueezeChallenge","pairing_circuit_test.go: TestPairingCheckTestSolve","circuit.go: AggregatorCircuit.Define"])
p("C50","The alternative scalar-multiplication and addition gadgets return the right point",
"FALSE of the code: CalcVerifyBN256Msm1 and CalcVerifyBN256Add1 bind their result only modulo r. In the test engine, whatever the hint answered, a nil error means that the inputs are curve points and that the returned pair is exactly the coordinates of k*P (resp. P+Q) reduced modulo r; this is the point iff both coordinates are below r. There is a curve point whose double is accepted by either gadget, with the hints of this repository, and returned as a pair that is not on the curve. With these hints, and inputs that the engine hands to the hint unreduced, every result other than the point at infinity is accepted, and the point at infinity makes the gadget panic. In a compiled circuit they never return without error.",
"all inputs, all hint behaviours, both engines",
"The defect shows only for the rare points with a coordinate in [r, p); the positive part quantifies over all hint answers.",
["aggregator_lib_circuit.go: CalcVerifyBN256Msm1, CalcVerifyBN256Add1, VerifyBN256Msm, VerifyBN256Add"])
p("C51","The stand-alone on-curve and multi-scalar-multiplication circuits accept exactly what their name says",
"CheckOnCurveCircuit on integer constants is accepted, in either engine, iff y^2 = x^3 + 3 mod p or x = y = 0 mod p, and panics on circuit variables. MultiScalarMul is accepted iff the expected point is the sum, for points in general position. For CheckOnCurveCircuitVar the claim is false: it accepts every pair of circuit variables.",
"all coordinates, all lists of points and scalars, both engines",
"Quantifies over all coordinates and over both engines.",
["aggregator_lib_circuit.go: CheckOnCurveCircuit.Define, CheckOnCurveCircuitVar.Define","msm.go: MultiScalarMul.Define"])
p("C52","Every satisfying witness has a proof that is accepted",
"For advice columns that satisfy the gates, copy constraints and lookups for the hash of the instances there is a prover such that every proof it produces - commitments and true evaluations under the proof's own Fiat-Shamir challenges - is accepted by the circuit (test engine, hints of this repository, aux values of the specification), unless beta is one of at most 2(n-6) or gamma one of at most 9(n-6) exceptional values or a degenerate value occurs. Every prover has such a run. In particular true evaluations can always be opened, and vanishing constraints always have a quotient of three pieces.",
"all satisfying witnesses, permutations, instances, hash functions and trapdoors",
"Completeness over all witnesses; a test shows acceptance of one proof.",
["circuit.go: AggregatorCircuit.Define","AggregatorVerifierStep1.go: VerifyProof1","AggregatorVerifierStep2.go: VerifyProof2","AggregatorVerifierStep3.go: VerifyProof3"])
p("C53","A false evaluation cannot be opened",
"The final pairing equation holds exactly when the trapdoor is a root of one explicit polynomial, computed from the polynomials behind the commitments. If the proof claims a false evaluation (or the supplied quotient value is false), then for all but 29 values of the challenge y', 4 of v and d+10 of u, this polynomial is non-zero of degree at most d+1, whatever opening proofs are sent after those challenges.",
"all committed polynomials of degree at most d (any d), all claimed evaluations, all opening proofs, all challenges outside the counted exceptions",
"A statement about every cheating prover and every challenge value.",
["AggregatorVerifierStep2.go: VerifyProof2","AggregatorVerifierStep3.go: VerifyProof3","circuit.go: AggregatorCircuit.Define"])
p("C54","The quotient identity enforces the gates, copy constraints and lookups",
"If the committed advice columns and the instance value violate a gate, a copy constraint or a lookup on some row, then for all but n values of theta, 7(n-6) of beta, 14(n-6) of gamma, 22 of y and 4*max(d,n) of x, whatever the prover commits to between those challenges, the quotient identity the verifier checks is false for the true evaluations.",
"all advice columns, permuted columns, product columns and quotient pieces; all permutations; all challenges outside the counted exceptions",
"A statement about every cheating prover and every challenge value.",
["AggregatorVerifierStep1.go: VerifyProof1","AggregatorVerifierStep2.go: VerifyProof2"])
p("C55","An accepted proof has a satisfying witness behind it",
"There are, for every challenge, exceptional sets of bounded size that depend only on what was sent before that challenge (the Lagrange and quotient values, which the transcript does not cover, may be chosen last), such that whenever the circuit is accepted by the test engine, whatever the hints answered: for all polynomials of degree at most d behind the commitments of the proof, the advice polynomials satisfy the gates, copy constraints and lookups for the hash of the instances, or a Fiat-Shamir challenge of the proof is exceptional, or the polynomials yield a non-zero polynomial of degree at most d+1 with the pairing trapdoor as a root.",
"all accepted runs, all hint behaviours, all polynomials behind the commitments",
"Soundness against every prover; a test can only show that particular bad proofs are rejected.",
["circuit.go: AggregatorCircuit.Define","AggregatorVerifierStep1.go: VerifyProof1","AggregatorVerifierStep2.go: VerifyProof2","AggregatorVerifierStep3.go: VerifyProof3"])
p("C56","The second opening proof is determined by the rest of an accepted proof",
"Whatever the hints answer, two accepted proofs with the same instance hash and the same first 102 words have the same point in words 102, 103, provided that x is outside the evaluation domain and u is not the pairing trapdoor. With the hint functions of this repository every point of an accepted proof of big integers is given by its canonical coordinates in [0,p), so the two proofs are equal word for word: an accepted proof cannot be changed into another one without changing the transcript.",
"all pairs of accepted proofs, all hint behaviours (first part)",
"Uniqueness over all pairs of proofs; tests can only try particular modifications.",
["circuit.go: AggregatorCircuit.Define","aggregator_lib_circuit.go: CalcVerifyBN256Msm, GetChallengesShPlonkCircuit","fr.go: ecc_mul","aggregator_lib_circuit.go: MsmHint"])
p("C57","Against random challenges cheating succeeds with probability below 2^-225",
"Take any prover strategy: every message (commitments to polynomials of degree at most n, claimed evaluations, opening proofs) is any function of the challenges drawn before it, and the Lagrange and quotient values are supplied last. If its advice columns do not satisfy the statement then, for eight independent uniform challenges, the probability that the verifier's equations hold without the prover's polynomials exposing the pairing trapdoor is below 2^-225 (for degree bound d, at most a counted number of values per challenge, about 23n + 4 max(d,n) + d in total, out of r). Conversely, for every satisfying witness there is a prover for whom the equations fail with probability at most 12n/r. An accepted run of the circuit whose proof consists of a strategy's messages is a run in which that strategy passes.",
"all prover strategies, all statements, all 8-tuples of challenges",
"A probability over r^8 challenge tuples and all strategies.",
["circuit.go: AggregatorCircuit.Define","aggregator_lib_circuit.go: GetChallengesShPlonkCircuit","AggregatorVerifierStep1.go: VerifyProof1","AggregatorVerifierStep2.go: VerifyProof2","AggregatorVerifierStep3.go: VerifyProof3"])
p("C58","The KYC signature check is ECDSA verification under the fixed key",
"With a signature gadget that implements ECDSA on secp256k1, an accepted KYC witness carries an (r, s) valid for its hash under the fixed key, and every valid one (whose r is the coordinate itself) is accepted with any attributes meeting the conditions; the holder of the private key can get every hash accepted; no (r, s) is valid for more than four hashes modulo n. The witness of the repository's test is accepted, and rejected with the hash that the test has commented out.",
"all witnesses, hashes, nonces and private keys, both engines",
"All signatures and all hashes; the test has one signature.",
["kyc.go: Circuit.Define","kyc_test.go: TestKyc"])
p("C59","An accepted KYC witness needs the issuer's signature",
"FALSE of the code: KycHash is a private input computed from nothing, so an accepted (hash, r, s) can be made from the public key alone. For all a and b != 0 for which a*G + b*Q has first coordinate x < n, r = x, s = x/b, hash = a*x/b is accepted with every choice of attributes meeting the public conditions; in particular r = s = hash = x(G + Q).",
"all a, b and all attributes, both engines",
"A test with the issuer's signature passes either way; the forgery needs the algebra of ECDSA.",
["kyc.go: Circuit.Define, Circuit"])
p("C60","A KYC signature cannot be changed into another accepted one",
"FALSE of the code: for every valid signature, s and n - s are different and both accepted.",
"all witnesses with a valid signature, both engines",
"Quantifies over all signatures.",
["kyc.go: Circuit.Define"])
p("C61","With a random hash function, 2^80 hash computations do not make a false proof acceptable",
"Let the hash function of the transcript be uniformly random. A prover asks for hash values of messages of its choice, one after the other, each depending on the answers so far, and then presents an instance and a proof. It knows polynomials behind the points that it hashes (algebraic prover). The share of hash functions for which the circuit is accepted, although the advice columns behind the proof do not satisfy the statement and the prover's polynomials do not expose the pairing trapdoor, is at most Q(2Q + 6vE)/2^256 for Q questions, v claims per question and E exceptional challenge values in all: below 2^-94 for 2^80 questions and degree n. The transcript hashes a word and its negative alike; even allowing for every choice of signs made afterwards the share stays below 2^-64.",
"all provers, all numbers of questions, all hash functions on any finite set of messages",
"A probability over all hash functions and all adaptive provers.",
["circuit.go: AggregatorCircuit.Define","aggregator_lib_circuit.go: GetChallengesShPlonkCircuit, SqueezeChallenge","AggregatorVerifierStep1.go: VerifyProof1","AggregatorVerifierStep2.go: VerifyProof2","AggregatorVerifierStep3.go: VerifyProof3"])
p("C62","The hint calls of a run do not depend on the data",
"Every run of the circuit that ends without error calls the same hint functions in the same order (1 Keccak, 833 reductions, 48 scalar multiplications, 45 additions), whatever the proof, instances, aux values, engine and hint answers. A run that ends with an error has made an initial part of these calls.",
"all assignments, engines, hint answers and gadgets",
"A test sees the calls of one run; that no data-dependent branch changes them is a statement about all runs.",
["circuit.go: AggregatorCircuit.Define","fr.go: mod","aggregator_lib_circuit.go: CalcVerifyBN256Msm, CalcVerifyBN256Add","circuit.go: VerifyInstanceHash"])
p("C63","Honest proofs are accepted except with negligible probability",
"The circuit has no answer for degenerate values: a curve point with a coordinate between r and p, the point at infinity, a zero scalar, a division by zero. For an honest prover whose commitments are finite, and a trapdoor other than 0, the share of the r^8 tuples of challenges for which the verification meets such a value or fails is below 2^-115. For all other challenges the circuit accepts the prover's proof, with the hint functions of this repository and the prescribed aux values. For every satisfying witness there is such a prover.",
"all verifying keys with a non-constant fixed column, all satisfying witnesses, trapdoors other than 0 (and outside the domain, for the existence of the prover), instances, tuples of challenges",
"A test runs one proof. How often an honest proof is rejected because an intermediate point happens to have a large coordinate is a count over all challenges that no test can sample: the failures are expected once in 2^115 proofs.",
["circuit.go: AggregatorCircuit.Define","aggregator_lib_circuit.go: CalcVerifyBN256Msm, CalcVerifyBN256Add","aggregator_lib_circuit.go: MsmHint, AddHint","AggregatorVerifierStep1.go, AggregatorVerifierStep2.go, AggregatorVerifierStep3.go"])
p("C64","Fiat-Shamir completeness: with a random transcript hash an honest proof is accepted",
"Let the transcript hash be a uniformly random function. For every instance whose commitment has coordinates below r (all but at most 5(p-r)+1 of the r hash values), an honest prover with finite commitments that writes its proof down, drawing each challenge as the hash of what it has sent, is accepted by the circuit, with the hint functions of this repository and the prescribed aux values, for more than a share 1 - 2^-114 of all hash functions.",
"all verifying keys with a non-constant fixed column, honest provers, trapdoors other than 0, instances of at most 43 values, finite sets of messages that include all the prover may hash",
"A test runs the one hash function SHA-256 on a few proofs. The share of hash functions for which the whole run, from the first commitment to the accepted circuit, succeeds is a count over all functions from messages to 256-bit digests.",
["circuit.go: AggregatorCircuit.Define","aggregator_lib_circuit.go: GetChallengesShPlonkCircuit, SqueezeChallenge","AggregatorVerifierStep1.go, AggregatorVerifierStep2.go, AggregatorVerifierStep3.go"])
p("C65","Exactly which assignments some prover can get accepted",
"The hint functions are not part of the constraint system: a prover may answer hints as it likes. Some answers get a circuit assignment accepted (test engine that keeps big integers as they are, words 102 and 103 not machine integers) if and only if for some string of 32 bytes per instance value, not necessarily the encoding of the instance values, its Keccak hash as instance hash meets a list of conditions: 21 canonical aux values with their 21 relations, at most 43 instance values, 104 words of which 24 pairs are curve points modulo p, curve results with coordinates below r (infinity allowed where the gadgets compute it), a finite second opening proof and opening, the pairing equation. FALSE of the code as consequences: a proof accepted for some instance values is, with other hint answers, accepted for any other instance values, as many of them; and multiples of p can be added to the two coordinates of the second opening proof. With the hints of this repository the latter is impossible.",
"all assignments, all hint answers, all multiples of p, all instance values",
"Tests run the hint functions of this repository. What a prover with other hint functions can get accepted is a statement about all hint functions.",
["circuit.go: AggregatorCircuit.Define","circuit.go: VerifyInstanceHash","aggregator_lib_circuit.go: CalcVerifyBN256Msm, CalcVerifyBN256Add","AggregatorVerifierStep1.go, AggregatorVerifierStep2.go, AggregatorVerifierStep3.go"])
p("C66","How a run of the verifier circuit can end",
"Executed in gnark's test engine, the verifier circuit ends in one of three ways. Whatever the hint functions answer: if it returns nil, the assignment is accepted (a constraint that does not hold ends the run); if it returns a Go error, the error is 'bn256.G1Affine is not on curve', and the proof has a point off the curve, all points before it are on the curve, and all words of the earlier transcript blocks are big integers of at most 32 bytes; otherwise it panics. With the hints of this repository the assignment alone decides which: it is accepted exactly under the conditions of C48, it returns the error exactly if the instances can be hashed and committed to (at most 43, none nil, a hash that is not zero, a commitment with coordinates below r) and the proof has such a point, and it panics in all other cases.",
"all assignments of any length and any Go values, all hint answers (first part)",
"Tests sample a few bad inputs. That no other error can come out, and that every input not in one of the two described classes panics, is a statement about all inputs.",
["circuit.go: AggregatorCircuit.Define","aggregator_lib_circuit.go: GetChallengesShPlonkCircuit, VerifyCheckOnCurve"])
p("C67","Constants written as decimal strings",
"fr_from_string returns the integer z exactly if its argument is a decimal number with value z: one or more digits, leading zeros allowed, with or without a sign in front; there is no reduction modulo r and no bound on the length. For any other string it reports no error, but every use of the returned value panics: as operand of the field operations, in an equality assertion, as an exponent.",
"all strings, all integers; all operands, engines and states for the failing case",
"The set of strings is infinite; a test sees a few literals.",
["fr.go: fr_from_string"])
p("C68","How far the circuit fixes the two instance lists",
"FALSE of the code: that the circuit distinguishes target instances from verifier instances. Its result, in every engine and with any hints, depends on the two lists only through their concatenation (target instances first), so a value can be moved from the end of one list to the beginning of the other. With the hints of this repository each instance value counts only modulo p: two assignments whose values agree modulo p one by one are both accepted or both not. What does hold: the message that is hashed determines the number of values and each value modulo p.",
"all assignments, engines, hint answers and states (boundary); all pairs of instance lists that agree modulo p; all pairs of integer lists (message)",
"That a whole class of different public inputs is treated alike is a statement about all assignments; tests use one.",
["circuit.go: AggregatorCircuit.Define, VerifyInstanceHash, Keccak256Hint"])
p("C69","The pairing check at the end accepts exactly one scalar relation",
"With the optimal ate pairing of BN254 there is exactly one scalar tau, different from zero, such that for all points P and Q of G1 (infinity included) the check e(P, g20)*e(Q, g21) = 1 with the two G2 points fixed in the code holds if and only if Q = tau*P; and tau is the discrete logarithm between these two points: g20 = tau*G for the standard generator G of G2, and g21 = -G. The last part of the verifier circuit - fill the pairing circuit with the four final coordinates, add the G2 points, verify - is accepted if and only if the four values are constants that encode two points P, Q of G1 (on the curve or infinity) with Q = tau*P; in every other case it is not accepted. So every accepted run of the verifier circuit, whatever the hints answer, opens its combined commitment at tau. Nothing is assumed about the pairing: additivity in the G1 argument, values of order r and non-degeneracy for the two G2 points are part of the property.",
"all pairs of G1 points; all four values, engines and states; all assignments and hint answers for whole runs",
"Which pairs of points pass a pairing check is a statement about r^2 pairs, and that no pair outside one line passes cannot be sampled.",
["pairing_circuit.go: FillVerifyCircuitsG1, FillVerifyCircuitsG2, VerifyBN256Pairing, GetVerifyCircuitsG2Jac","circuit.go: AggregatorCircuit.Define"])
p("C70","A false proof needs the discrete logarithm between the two G2 points",
"With the optimal ate pairing, the trapdoor of the verifier is the one scalar z with g20 = z*G, where g20 is the first G2 point fixed in the code and G the standard G2 generator. Every accepted run of the verifier circuit, whatever the hints answer, has for every choice of polynomials of degree <= d behind its commitments: a satisfying witness, or an exceptional Fiat-Shamir challenge, or z among the at most d+1 roots of one nonzero polynomial computed from the proof and these polynomials. A prover that makes at most 2^80 calls to a random transcript hash gets a proof accepted with probability below 2^-94 unless its polynomials are a satisfying witness or give z as one of their candidates.",
"all assignments, engines in test mode and hint answers; all choices of polynomials; all provers with at most 2^80 hash calls and all hash functions",
"It speaks of all strategies of a cheating prover and of the relation between two group elements whose logarithm nobody knows.",
["circuit.go: AggregatorCircuit.Define","pairing_circuit.go: GetVerifyCircuitsG2Jac, VerifyBN256Pairing","AggregatorVerifierStep3.go: VerifyProof3"])
p("C71","What the verifier of the outer proof learns",
"FALSE of the code: that a proof which verifies against a public witness shows something about that witness. Public are the target instances of the aggregation circuit (not the verifier instances) and the conditions of the KYC circuit. For every list of at most five field elements there is an accepted run of the aggregation circuit (hint answers of the prover's choice, five instance values in all, always the same Halo2 proof and aux values) whose public witness is that list; and for every accepted assignment, any other public values of the same number are accepted with the same private ones. A public witness of the KYC circuit belongs to an accepted run if and only if the lower age bound is at most the upper one and there is at least one country, so it shows neither a signature nor anything about a person. What holds: the public witness fixes the target instances modulo r.",
"all public witnesses; all pairs of assignments; for the KYC circuit all engines and states",
"It speaks of all private inputs and hint answers that go with a given public witness; a test has one.",
["circuit.go: AggregatorCircuit","kyc.go: Circuit, Conditions, Circuit.Define","main.go: main"])
p("C72","The instance commitment is a fixed point times the scalar in the buffer",
"CalcVerifyCircuitLagrange uses one fixed curve point L, of order exactly r. If it returns no error on a constant k with 0 <= k < p then, whatever the hints answered, entries 0 and 1 of the buffer are the coordinates of k*L, both below r, and all other entries are unchanged; so two accepted calls that store the same coordinates had the same k modulo r. With the hints of this repository and 0 < k < r it is accepted exactly when both coordinates of k*L are below r. A buffer of fewer than three entries panics, and in a compiled circuit it never returns without error.",
"all buffers, scalars, engines, states and hint answers",
"Uniqueness of the scalar and independence of the hints quantify over all hint answers and all pairs of calls.",
["aggregator_lib_circuit.go: CalcVerifyCircuitLagrange, CalcVerifyBN256Msm"])
p("C73","The witness carries exactly the assignment",
"frontend.NewWitness on an assigned circuit returns an error exactly if some input has no value. Otherwise the witness lists every input modulo r, the public inputs first, so that witness.Public() is its beginning: for the aggregation circuit the target instances, then the proof, the verifier instance and the aux values. For the KYC circuit with signature and hash below 2^256, reading the witness back as the inputs of the compiled circuit gives the assigned signature and hash as numbers and every other input modulo r; so proving an assignment succeeds, in every engine, exactly if the signature is valid, the age is in range and the country is in the list, all values taken modulo r, and two assignments of the same shape have the same witness exactly if they agree in this sense.",
"all assignments, witnesses, list lengths, engines",
"That no two assignments share a witness, and that no input is lost or put in another place, is a statement about all assignments.",
["circuit.go: AggregatorCircuit","kyc.go: Circuit, Conditions, Circuit.Define","main.go: main","kyc_test.go"])
p("C74","What each verification step changes",
"Whatever the transcript, aux values, buffer, engine and hints: when VerifyProof1, VerifyProof2 or VerifyProof3 returns without error, the buffer has as many entries as before, and VerifyProof1 has left entries 0 to 9 and 13 to 16 unchanged, VerifyProof2 entries 0 to 11, 22, 28, 35, 41 and 42, VerifyProof3 everything except entries 12 to 17 and 20; so no step changes the instance commitment or a challenge. When one of them returns an error, the array it returns has 43 entries without a value. GetChallengesShPlonkCircuit changes only entries 2 to 9 and CalcVerifyCircuitLagrange only entries 0 and 1, with or without an error; ecc_mul changes only the two entries at its offset and ecc_mul_add only the four, and neither changes anything when it returns an error. In a compiled circuit with a circuit variable at position 102 of the proof, VerifyProof1 returns that array and the error of SetInterface.",
"all transcripts, aux values, buffers, engines, states, hint answers",
"That an entry is never touched is a statement about every run, including those that stop with an error in the middle.",
["AggregatorVerifierStep1.go: VerifyProof1","AggregatorVerifierStep2.go: VerifyProof2","AggregatorVerifierStep3.go: VerifyProof3","fr.go: ecc_mul, ecc_mul_add","aggregator_lib_circuit.go: GetChallengesShPlonkCircuit, CalcVerifyCircuitLagrange"])
with open('/verif/properties.jsonl','w') as f:
    for x in P: f.write(json.dumps(x)+'\n')
print(len(P))
