# Formal model of gnark-halo2-verify (Lean 4 + Mathlib)

## 1. What is modelled

The repository is a gnark circuit library: a Halo2/SHPLONK aggregation verifier over BN254
(`circuit.go`, `aggregator_lib_circuit.go`, `AggregatorVerifierStep{1,2,3}.go`, `fr.go`, `utils.go`,
`msm.go`, `pairing_circuit.go`), a KYC circuit (`kyc.go`), and some helpers (`hash.go`).
Everything is written against gnark's `frontend.API`. The model has these layers.

* **Engine** (`Verif/Model/Engine.lean`). `frontend.Variable` is `Var`: Go `nil`, Go `int`, `*big.Int` (an
  unreduced `Int`), or a circuit *wire*. A wire carries the field value assigned to it by the witness.
  Code in the repo can see whether a value is constant or a wire (`SetInterface`, `.(*big.Int)`) but never
  the value of a wire. A circuit function is `Circ α := Engine → St → Except Panic (α × St)`:
  Go panics are exceptions, Go `error`s are ordinary values (`GoErr`), so swallowed errors stay visible.
  An engine is: a mode (gnark's test engine, or `frontend.Compile` + witness assignment), a hint *strategy*
  (any function: the honest hints or any dishonest prover), and a flag for an implementation detail of the
  test engine we do not want to depend on (whether `AssertIsEqual` compares unreduced integers).
  In test mode a failed assertion panics; in compile mode it clears the flag `sat` of the state.
* **External libraries** (gnark std gadgets, gnark-crypto, go-ethereum bn256, SHA-256, Keccak-256, ECDSA,
  pairing) are parameters (`Ext`) with an explicit contract (`Ext.Lawful`) or direct definitions over
  Mathlib's group law of the curve `y² = x³ + 3` over `ZMod p`.
* **Field layer** `fr.go`, **bytes** `utils.go`, `hash.go`, **hints and string parsing**, **curve gadgets**
  `msm.go`, **transcript**, **pairing inputs**, **KYC**, each function modelled by one Lean definition
  of the same name.
* **VerifyProof1/2/3**: 301 straight-line Go statements. They are transcribed mechanically
  (`tools/gen_steps.py`) into a list of statements of a tiny language whose only constructs are the calls that
  occur in the Go text (`fr_mul`, `fr_add`, `fr_neg`, `fr_div`, `fr_pow`, `fr_from_string`, int literals,
  buffer/transcript/aux reads, buffer assignment, `ecc_mul`, `ecc_mul_add`). The interpreter calls the modelled
  Go functions in Go evaluation order. Each statement carries its line numbers.
* **AggregatorCircuit.Define**, **main**.

## 2. Specification (separate files under `Verif/Spec`)

* BN254: primes, curve, group (Mathlib `WeierstrassCurve.Affine.Point`), point encoding with (0,0) = O.
* Fiat–Shamir schedule as a list of blocks folded through a chained hash.
* Halo2 constraint expressions (gates, permutation with 4 chunks, two lookups) written from the Halo2 protocol
  over a record of named evaluations.
* SHPLONK: rotation sets as lists of points, Mathlib `Lagrange.interpolate`, vanishing products.

## 3. Per-property plan

| id | what is modelled | how it is proved |
|----|------------------|------------------|
| C01–C03, C07 | `fr.go` arithmetic in both modes, arbitrary strategies | unfold, `MODULUS = 0` in `ZMod r`; exact conditions for arguments of every kind in `Props/FieldValues.lean` |
| C04, C05, C36 | `fr_div` | field algebra; negation by witness for 0/0 |
| C06 | `fr_pow` loop as recursion on a big.Int counter | induction on the number of iterations |
| C08 | `PackUInt8Variables` fold | induction on the list; positional-notation injectivity |
| C09 | strings as `List Char`, regexp as a leftmost search, `hex.DecodeString`, `big.Int.String`; matches and hexadecimal numerals specified in Spec/Regex.lean | induction on digits and on the text |
| C10 | hints with go-ethereum `bn256` modelled on the Mathlib group | case analysis + C09 |
| C11 | `hash.go` | case analysis |
| C12, C13, C41 | `SetInterface`, `IsOnCurve`, the G2 constants | unfolding; curve facts; twist multiples by a verified evaluator run by the kernel (`Math/TwistN.lean`) |
| C14, C45, C46 | pure mathematics of BN254 | Pratt certificates; `r·G = 0` by kernel computation; `#E ≤ 2p+1 < 3r`, no 2-torsion |
| C45 (last part of Define) | `finalCheck` | the two tested pairs are the two paired points; a point at infinity stops the run before the pairing |
| C15–C19, C47 | `msm.go`, `ecc_mul`, `ecc_mul_add` | gadget contract + group law; infinity, invalid points and scalars from p on in `Props/CurveValues.lean` |
| C20, C21 | native circuits with mutation: `Define` returns the updated circuit | induction over the number of calls |
| C22 | assertions | direct, on the integers the engine works with; then for canonical values, for engines that reduce, and the failure for integers outside [0, r) |
| C23–C25 | hash gadgets, `VerifyInstanceHash` | direct, strategy constructed explicitly; C23 for values of every kind by induction on the digest (`Props/Digest.lean`) |
| C26–C29 | `SqueezeChallenge`, `GetChallengesShPlonkCircuit` | refinement to the block-fold spec; `be32` injective |
| C30–C33, C37 | statement lists | generic refinement of the interpreter to `ZMod r` semantics, then algebra |
| C34, C35, C38 | `Define` in test mode | composition |
| C39, C40 | `Define` in compile mode; hint log | composition; where and with which error compiling fails by running `Define` on wires up to the first multiplication |
| C42, C43 | `kyc.go` | induction on the country list; for values of every kind (nil, integers outside the field) on the integers the engine reads |
| C58–C60 | `kyc.go` with ECDSA spelled out (`Spec/Ecdsa.lean`, secp256k1 in `Math/Secp*.lean`) | C42 and the group of secp256k1, whose order n is proved; the test's signature by a verified evaluator |
| C44 | `VerifyMultiScalarMul` | gadget contract + induction |
| C48 | whole `Define`, test engine, honest hints | every statement's run is a biconditional; induction over the statement lists; a simulation between runs on machine and big integers |
| C49 | the data of `main.go` and `circuit_test.go` | verified evaluator (`Lemmas/Eval.lean`) for the statement language, run by the kernel; executable SHA-256 and Keccak; textbook optimal ate pairing (`Spec/Ate.lean`), its Miller loop evaluated by a verified evaluator (`Math/AteN.lean`), the final exponentiation by an r-th root |
| C50, C51 | `CalcVerifyBN256Msm1/Add1`, stand-alone circuits | inversion of the run; C21, C12, C44 |
| C52 | the honest prover (`Spec/Knowledge.lean`); the rest is C35 | permuted columns by induction on the input list; running products; division by vanishing polynomials |
| C53–C55 | polynomials behind the commitments (`Spec/Knowledge.lean`); the rest is C34 | non-zero polynomials have few roots, counted challenge by challenge; grand products |
| C56 | whole `Define`; raw integers through `MsmHint` | the calls in which each point is used (`Lemmas/StepPoints.lean`), trapdoor form of the pairing |
| C57 | the verifier's equations with challenges drawn uniformly (`Spec/Interactive.lean`); `C57_circuit` links them to `Define` | the rounds of C55, counted by fibres (`Lemmas/Counting.lean`) |
| C61 | `Define` with the transcript hash drawn at random and an adaptive algebraic prover (`Spec/RandomOracle.lean`) | C34 and the exceptional sets of C55 for each question; unlucky answers (exceptional, colliding or anticipated) are counted by resampling one answer (`Lemmas/RandomOracle.lean`, `Lemmas/OracleChain.lean`) |
| C62 | the hint calls recorded in the state of a run of `Define` | each function appends a fixed list; composed along the code (`Lemmas/HintCalls.lean`), recursion over the step programs; the counts are a closed computation in the kernel |
| C63 | an honest prover (`Spec/Honest.lean`) with challenges drawn uniformly; `C63_run` links it to `Define` | every scalar multiple and partial sum of the opening is a non-constant polynomial in y', v, u; at most 5(p-r)+1 multiples of the generator have a coordinate that is not below r (`Lemmas/Rare*.lean`); counted by fibres |
| C64 | the honest prover's run with a transcript hash drawn uniformly from all functions on a finite set of messages (`Prover.proof`, `oracleHash`) | the eight questions are new unless a digest repeats or equals the seed; each answer hits the exceptional values of its stage (C63) for a small share of the functions; sum over the questions |
| C65 | any hint answers (`Engine.strat`), the conditions as a structure `Provable` | if: the generic form of the completeness proof run with the best answers (`bestStrat`: true curve results, bytes of a chosen string for Keccak); only if: the soundness walk, reading off for every curve call that its result is below r; the consequences by exchanging the data the conditions do not mention |
| C66 | `AggregatorCircuit.Define` in the test engine, its three results nil, Go error, panic | error only from the challenges: an abstract interpretation of the three steps (`Stmt.constCells`, Lemmas/Outcome) shows that every curve gadget gets constants, whose results are never an error; the challenges: walk over the seven blocks, both directions; nil: in the test engine a failed constraint is a panic, by induction over the circuit code (Lemmas/HintsIn); the trichotomy with C48 |
| C67 | `fr_from_string` on all strings (`frFromString`, with the sign handling of `big.Int.SetString`) | induction over the digits against `Nat.ofDigits` (Spec/Decimal, Lemmas/Decimal) |
| C68 | `AggregatorCircuit.Define` as a function of the two instance lists | boundary: the two copying loops are one loop over the concatenation, equality of circuit functions; residues: the conditions of C48 mention the instances only through number, presence and hash; message: injectivity of the fixed-width encoding |
| C69 | `FillVerifyCircuitsG1/G2` and `VerifyBN256Pairing` with the pairing of `Spec/Ate.lean` | Fp12 is a field (`Math/Fp12Field`); reciprocity for two lines on the curve (`Math/Reciprocity`); by induction over the Miller loop the product of the Miller values over collinear G1 points is a power of the line's value at Q whose exponent r divides (`Math/AteLinear`), so the pairing is additive (`Math/AteHom`); the loop of the two fixed points meets no special case, by kernel evaluation; non-degenerate because one value is not 1 (C49) and G1 has prime order. The scalar is the logarithm of `g20` to the G2 generator (C69_secret): in the coordinate ring of the twist the Miller function generates an ideal of points (`Math/TwistEval`, `Math/AteG2`), a relation S + m·D = 0 is a principal ideal (Mathlib's class group), and the r-torsion of the twist is cyclic by counting (`Math/TwistCyclic`) |
| C70 | the same, with `AggregatorCircuit.Define` and the random-oracle model of C61 | C55 and C61 with the trapdoor of C69; the trapdoor is the logarithm between the G2 points by C69_secret, and a nonzero polynomial that exposes it has it among its roots |
| C71 | struct tags of `AggregatorCircuit`, `Conditions`, `Circuit` (`Model/Public.lean`), gnark's `witness.Public()` | the public witness as the list of public inputs in field order; aggregation: C65 (what a prover can get accepted depends only on the number of instance values); KYC: C58 and the forgery C59, as an equivalence |
| C72 | `CalcVerifyCircuitLagrange` | inversion of the run; C15 and C16 for the multiplication; order of the fixed point from C14; binding from injectivity of the scalar action |
| C73 | gnark's `frontend.NewWitness` and the order of the inputs of the compiled circuit (`Model/Public.lean`) | list calculation; 64-bit limbs by division with remainder; the run of the KYC circuit on the witness by C42 |
| C74 | `VerifyProof1`-`VerifyProof3`, `ecc_mul`, `ecc_mul_add`, `GetChallengesShPlonkCircuit`, `CalcVerifyCircuitLagrange` | frame of each statement; induction over the body; the set of written entries by kernel evaluation of the three bodies |

Where the English property is false of the code, the negation is a theorem with suffix `_false`, with a concrete
witness, and the part that holds is stated beside it. This is so for C05 (0/0), C11, C13, C19, C20, C25, C39, C40, C43, C50, C59, C60,
C68, C71, for C51 and C65 in part, for C15 on scalars from p on, for C22 and C42 on integers outside [0, r) in a test engine that does not reduce them, for C36 without its proviso, and for C28 with negative words.

## 4. Trusted base

### 4.1 Logic

* Lean 4.33.0's kernel, and Mathlib as installed.
* Every theorem in `MANIFEST.json` depends on `propext`, `Classical.choice` and `Quot.sound` only (`#print axioms`; vcheck
  prints the list). There is no axiom, `sorry`, `native_decide` or `bv_decide` in the project.
* Finite computations on literals (primality certificates, `r·G = O`, SHA-256 and Keccak on the shipped data, the run of the
  shipped proof) are `decide +kernel`: the kernel evaluates them with its GMP arithmetic on `Nat`.

### 4.2 Fidelity of the model: what a reader has to check against /repo

* `Verif/Model/*.lean` except `Engine.lean`: each definition cites the Go lines it transcribes.
* `Verif/Model/StepSource.lean` holds the text of twelve files of /repo as string literals, byte for byte (`tools/gen_source.py
  check` compares them with /repo). `Verif/Model/GoText.lean` is a reader for the Go text of the three steps and for string
  literals, `Verif/Model/ChalText.lean`, `SqueezeText.lean`, `FrText.lean`, `EccText.lean`, `CalcText.lean`, `GadgetText.lean`,
  `KycText.lean`, `HashText.lean`, `HintText.lean`, `CurveText.lean`, `TwistText.lean`, `KeccakText.lean`, `RegexText.lean`,
  `MainText.lean`, `PlainText.lean`, `MiscText.lean` and `DefineText.lean` are readers and interpreters for the text of the
  challenges, of the functions of `fr.go`, of the curve helpers, of the range checks, of the gadgets of `msm.go`, of the hash
  functions, of the hint functions, of the on-curve tests and of the two `Define` of `circuit.go` and `kyc.go`.
  `Verif/Props/Source.lean`, `SourceDefine.lean`, `SourceGadgets.lean`, `SourceHash.lean`, `SourceHints.lean`, `SourceMain.lean`
  and `SourcePlain.lean` prove, by kernel evaluation of the readers on the text and an equational proof for the interpreter:
  * `source_step1`, `source_step2`, `source_step3`: `AggregatorVerifierStep{1,2,3}.go` read as exactly the programs of
    `Verif/Model/StepProgs.lean`, so their generator `tools/gen_steps.py` is not trusted;
  * `source_challenges`, `run_challenges`: the text of `GetChallengesShPlonkCircuit` reads as a program whose run is the definition in
    `Verif/Model/Transcript.lean`;
  * `source_define`, `run_define`: the same for `AggregatorCircuit.Define` and `Verif/Model/Define.lean`;
  * `source_fr_mul`, `source_fr_add`, `source_fr_sub`, `source_fr_neg`, `source_fr_div`, `source_fr_mul_neg`,
    `source_fr_pow`, `source_mod`: the same for these functions;
  * `source_ecc_mul`, `source_ecc_mul_add`, `source_lagrange`, `source_msm`, `source_add`: the same for the two curve helpers,
    `CalcVerifyCircuitLagrange`, `CalcVerifyBN256Msm` and `CalcVerifyBN256Add`;
  * `source_squeeze`, `run_squeeze`, `source_not_zero`, `source_range_check`: the same for `SqueezeChallenge`, `VerifyNotZero` and
    `VerifyRangeCheck`;
  * `source_scalar_mul`, `source_add_unified`: the same for `VerifyBN254ScalarMul` and `VerifyBN254Add`;
  * `source_instance_hash`, `run_instance_hash`, `source_pack`, `source_keccak`, `source_sha`: the same for `VerifyInstanceHash`,
    `PackUInt8Variables`, `VerifyKeccak256` and `VerifySha256`;
  * `source_msm_hint`, `source_add_hint`, `source_mod_hint`: the same for `MsmHint`, `AddHint` and `modHint`;
  * `source_keccak_hint`, `source_extract`: the same for `Keccak256Hint`, `hexToDecimalString` and `extractAndConvert`; the regular
    expression is read from the text and run by a backtracking matcher;
  * `source_check_on_curve`, `source_check_on_curve_var`, `source_fill_g1`: the same for `VerifyCheckOnCurve`,
    `VerifyCheckOnCurveVar` and `FillVerifyCircuitsG1`;
  * `source_g2`, `source_pairing_check`, `source_pairing_define`: the same for `GetVerifyCircuitsG2Jac`, `FillVerifyCircuitsG2`,
    `VerifyBN256Pairing` and `BN256PairingCircuit.Define`;
  * `source_plain_msm`, `source_plain_add`, `source_msm1`, `source_add1`: the same for `VerifyBN256Msm`, `VerifyBN256Add`,
    `CalcVerifyBN256Msm1` and `CalcVerifyBN256Add1`;
  * `source_hash`, `source_fr_from_string`, `source_multi`: the same for `toBytes`, `ValueOf`, `fr_from_string` and
    `VerifyMultiScalarMul`;
  * `source_define_…`: the `Define` of the nine small circuits are the calls of the model;
  * `source_aggregator_struct`, `source_kyc_struct`, `source_init`: the inputs of the two circuits with their visibility, and the hints
    that are registered, are those of the model;
  * `source_main_run`, `main_run`, `main_circuits`: `main` compiles a circuit of the modelled shape, makes the witness from the shipped
    values, proves and verifies in this order, and panics at the first error;
  * `source_kyc_define`, `run_kyc`: the same for the `Define` of `kyc.go`;
  * `source_main`, `source_lib`, `source_kyc`, `source_pairing`: the decimal constants of these files, in order, are the constants of
    the model.

  With this every function of /repo outside the tests is read. The package variable `MODULUS` (gnark's modulus of BN254Fr) is taken
  to be r. To check by eye: the readers and the meaning they give to each statement form.
* `Verif/Lemmas/Shipped.lean`: the literals of `main.go` (checked by `source_main`) and `circuit_test.go`.
* Check against values printed by the real code: `Verif/Props/Recorded.lean` proves that on the shipped proof the model computes
  the instance hash, the instance commitment, the eight challenges, the whole buffer after VerifyProof1 and the two points of
  the pairing check that are recorded in the repository's tests.
* `Verif/Props/RepoTests.lean`: the outcome that each test of the repository asserts, derived in the model from the general theorems.
* Constants (verifying-key points, δ, ω, domain size, seed, G2 points) are those of the Go text; that they have the meaning used
  in the specification (order of ω, order of the group, points on the curve) is proved.

### 4.3 gnark and the other libraries (not in /repo)

The sandbox has no dependency sources; their behaviour is assumed as follows, from the documented behaviour of gnark v0.10.0,
gnark-crypto v0.12.2-pre and go-ethereum v1.14.5.

* `Model/Engine.lean`: the test engine (all values concrete, a failed assertion panics) and compile-and-solve (circuit inputs and
  hint outputs are wires; a false constraint makes the witness unsatisfying). Hints are arbitrary: the engine carries a strategy
  that answers every call as it likes; theorems name the calls they assume honest. Hint outputs are reduced modulo r.
  `raw` is a parameter: whether the test engine uses unreduced `*big.Int` inputs when comparing and in hints. Soundness
  theorems hold for both values; the completeness and exactness theorems (C35, C48, C49) are for `raw = true`, which is what
  gnark v0.10.0 does.
* `Model/Public.lean`: `witness.Public()` lists the inputs tagged `gnark:",public"` in the order of the fields, reduced modulo r;
  a tag on a struct field applies to everything inside it. `frontend.NewWitness` fails on an input without a value, and otherwise
  lists the public inputs and then the secret ones; the prover solves the compiled circuit with these values on its input wires.
  An `emulated.Element` of the KYC circuit has four limbs of 64 bits, the least significant first.
* `fp.Element.SetInterface` accepts Go integers and `*big.Int` and rejects nil and circuit variables.
* `Spec/Ext.lean`: `Ext` collects SHA-256, Keccak-256, the emulated gadgets `ScalarMul`, `AddUnified`, `MultiScalarMul`, the
  pairing check and ECDSA as parameters. `Ext.Lawful` is the documented contract (scalar multiplication specified for P ≠ O, s ≠ 0;
  complete addition; nothing about the pairing). `Ext.Bilinear`, assumed only by the theorems that mention a trapdoor, says that
  the pairing with the two fixed G2 points is e0(P) + e1(Q) = 0 for homomorphisms into a group of order r, e1 injective. `Ext.Strict` adds that scalar multiplication does not return a wrong result outside its domain. `Ext.EcdsaLaw`
  (`Spec/Ecdsa.lean`), assumed only by C58–C60 and C71, says that the signature gadget accepts only valid ECDSA signatures on secp256k1 and
  all those whose r is the coordinate itself; gnark's gadget excludes some exceptional scalars, which the contract ignores. They are hypotheses,
  not axioms; `idealExt_strict` and `idealExt_bilinear` show that they can be met, `stdExt` with the real hash functions,
  `realExt` with the real hash functions and the pairing of `Spec/Ate.lean` (`realExt_strict`, `C69_bilinear`).
* SHA-256 and Keccak-256 are parameters everywhere except C49, where executable definitions (`Spec/Hashes.lean`, tested on the
  standard vectors by `decide +kernel`) are used. The pairing is a parameter everywhere except `C49_real`, C69 and C70, where it is the optimal
  ate pairing of `Spec/Ate.lean`; that this is the function gnark computes is trusted (up to the final exponentiation's cofactor,
  which does not change the check). Fp12 is the quotient ring Fp[X]/(X¹² - 18X⁶ + 82), proved to be a field in `Math/Fp12Field.lean`.
* go-ethereum `bn256` (used by the hints): group law of Mathlib's affine Weierstrass curve, 32-byte unmarshalling with
  range and curve checks, `String()` formatting; Go `regexp`, `hex`, `big.Int` parsing are modelled on lists of characters.

### 4.4 Not modelled

* Groth16/PLONK setup, proving and Solidity export (`main.go` after `frontend.Compile`, which never returns without error in this
  repo: C39). The number and shape of R1CS constraints.
* Gadget internals (emulated arithmetic, hash gadgets, ECDSA): only their contract.
* Computational hardness: no theorem says that a cheating prover cannot find hash collisions or break discrete logarithms.
  C28 reduces equal challenges to an explicit hash collision; C34 gives the verification equation for the derived challenges. C55 counts the
  exceptional challenges and names the polynomial that exposes the trapdoor. C57 turns the counts into probabilities for independent
  uniform challenges, C61 for a uniformly random hash function. That SHA-256 behaves like a random function, that the trapdoor is hard
  to find, and the extraction of the polynomials from a prover (the provers of C55, C57 and C61 are algebraic) are not modelled.
* Go runtime aspects: memory, logging, timing, concurrency (the code has none). Test files, except the data of C49.
* `RangeCheckCircuit` (a struct type without `Define`), and `fmt.Println` calls.

## 5. Layout

`Verif/Math` BN254 arithmetic and orders; `Verif/Model` the code; `Verif/Spec` the specification; `Verif/Lemmas` helper lemmas;
`Verif/Props` the property theorems `Cxx_*` with examples (further ones in `Props/Instances.lean` and `Props/Cases.lean`). `tools/gen_properties.py` and `tools/gen_manifest.py` write
`properties.jsonl` and `MANIFEST.json`. `seeded/LOG.jsonl` records the wrong programs tried against the theorems.
