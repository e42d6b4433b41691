{
 "C05": {
  "note": "The plain claim is false of the code; C05_false and C05_zero_div_zero prove the counterexample 0/0, C05_unique_partial proves what holds (divisor not zero)."
 },
 "C11": {
  "note": "The claim is false of the code for every input; the theorems prove the negation and the exact outcome."
 },
 "C13": {
  "note": "The claim is false of the code for circuit variables; C13_const_partial proves what holds on constants."
 },
 "C19": {
  "note": "False of the code for ecc_mul_add (C19_false gives the run); ecc_mul propagates its error."
 },
 "C20": {
  "note": "False of the code (C20_false); the theorems give the exact state and statement checked by the n-th call."
 },
 "C16": {
  "note": "Domain of the gnark gadget: P is not infinity, k is not 0 modulo r."
 },
 "C44": {
  "note": "Domain MsmDomain = the general position in which gnark specifies the incomplete gadget."
 },
 "C25": {
  "note": "The binding claim is false of the code (C25_false, C25_two_hashes); C25_some proves what holds for every strategy."
 },
 "C43": {
  "note": "The claim is false of the code; C43_false and C43_unread prove the negation for every satisfying witness, C43_example is a concrete pair."
 },
 "C39": {
  "note": "The claim is false of the code; the theorems prove that compilation fails for every shape, assignment and strategy, and C39_reason where and with which error."
 },
 "C40": {
  "note": "The claim is false of the code; C40_false proves that every returning run uses the unregistered modHint, C40_used that all others are registered."
 },
 "C35": {
  "note": "For the test engine (which hands numbers to hints unreduced) with the repo's hints; the compiler is covered by C39. GeneralPosition lists the degenerate values that are excluded. The shipped proof meets the hypotheses (Props/Shipped.lean, last example)."
 },
 "C48": {
  "note": "Test engine with the repo's hints. C48_every is the full statement (every assignment; machine integers fit 64 bits); C48_circuit is the case without machine integers as last two proof words; C48_all is the case of 104 natural numbers, C48_exact and C48_only_if assume canonical points. Non-vacuity: the shipped proof (C49_spec and the example after it; Props/Instances.lean for C48_circuit; Props/ExactInt.lean, with machine integers, for C48_every)."
 },
 "C49": {
  "note": "The data are the shipped ones, evaluated by the kernel through an evaluator proved equal to the model; the quantifier ranges over the gadgets, the pairing and the engine state. C49_real is the acceptance with the concrete pairing of Spec/Ate.lean (Miller loop and an r-th root of the product evaluated by the kernel)."
 },
 "C36": {
  "note": "Unique outside the evaluation domain, as stated. C36_false shows that the proviso is needed: a concrete proof with x = 1 is accepted with two different aux lists."
 },
 "C50": {
  "note": "The claim is false of the code; C50_msm1/C50_add1 give the exact result for every prover, C50_false and C50_add1_false a concrete wrong result with honest hints, the _partial theorems the case where the claim holds."
 },
 "C51": {
  "note": "C51_checkVar_false is the negation for CheckOnCurveCircuitVar, as stated."
 },
 "C53": {
  "note": "C53_equation is exact; C53_opening_sound counts the exceptional challenges."
 },
 "C54": {
  "note": "The verifying key enters through polynomials K behind its commitments and a permutation encoded by them; they exist for every trapdoor outside the domain (example after C55_accepted)."
 },
 "C55": {
  "note": "C55_accepted is about Define in the test engine with arbitrary hints. The exceptional sets are counted, and each depends only on earlier messages; probabilities are in C57 and C61. The quotient value is not part of the transcript, but the identity determines it from the evaluations."
 },
 "C52": {
  "note": "Existence of the prover is proved, not its efficiency. The last example of Props/Prover.lean gives a verifying key and a witness meeting the hypotheses; C52_run gives the proof."
 },
 "C28": {
  "note": "Stated for non-negative words. C28_signs_false shows why: negating an evaluation word leaves all challenges unchanged."
 },
 "C56": {
  "note": "C56_point for arbitrary hints; C56_canonical and C56_unique for the hints of the repo. The shipped proof meets the hypotheses (example in Props/Unique.lean)."
 },
 "C57": {
  "note": "C57_count bounds the number of challenge tuples for every degree bound d; C57_probability is the case d = n; C57_honest is the completeness side; C57_circuit links strategies to accepted runs of Define. The challenges are independent uniform field elements here: that SHA-256 outputs behave like that is not modelled."
 },
 "C58": {
  "note": "Under Ext.EcdsaLaw (Spec/Ecdsa.lean), the contract of gnark's signature gadget; ecdsaExt meets it. C58_key: the private key exists. C58_shipped evaluates the test's signature in the kernel."
 },
 "C59": {
  "note": "C59_false proves the negation for all a, b; C59_anyone is the literal forgery."
 },
 "C60": {
  "note": "C60_false proves the negation for every valid signature; example at the test's witness."
 },
 "C61": {
  "note": "C61_count counts hash functions on any finite set of messages, for any Q; C61_probability and C61_signs are the numbers for 2^80 questions; C61_reaches: every accepted circuit, in particular the shipped one, is presented by some prover."
 },
 "C62": {
  "note": "C62_calls gives the list and its counts; C62_same is the two-run form. The shipped circuit makes all 927 calls."
 },
 "C63": {
  "note": "C63_count and C63_probability count the failures over all challenges; C63_accepted and C63_run connect them to the circuit; C63_honest gives the prover for a satisfying witness. That the challenges of a run are random is not assumed here: they are any challenges outside the failures."
 },
 "C64": {
  "note": "C64_count and C64_probability count the hash functions for which the prover's proof is not accepted; C64_messages shows that the set of messages exists, C64_instances that almost all instances qualify."
 },
 "C65": {
  "note": "C65_exact is the equivalence (C65_best and C65_needed its halves). The two consequences that a user would not want are C65_instances_false (for the shipped proof: C65_shipped_false) and C65_malleable; C65_contrast shows that the repo's hints refuse shifted words."
 },
 "C66": {
  "note": "C66_error_only and C66_nil hold for any hint answers; C66_error_iff and C66_outcome (the three-way classification) for the hints of the repo. The concrete cases are the shipped circuit with first point (1, 1), which returns the error, and with a nil first word, which panics."
 },
 "C67": {
  "note": "C67_literal links the string function to the function on numbers that the model of the verification steps uses."
 },
 "C68": {
  "note": "The claim that the boundary between the lists is fixed is false of the code: C68_boundary_false proves that Define is the same function for any two ways to cut the same list. C68_residues: values count modulo p. C68_message is the positive part."
 },
 "C69": {
  "note": "The pairing is the textbook definition of Spec/Ate.lean; that gnark's gadget decides the same check is trusted. C69_bilinear and C69_trapdoor discharge the hypotheses Bilinear and Trapdoor of C34, C55-C57, C61-C64 for it. C69_secret identifies the scalar: g20 is that multiple of the standard G2 generator. General additivity in the G2 argument is not stated."
 },
 "C70": {
  "note": "Combines C55 and C61 with C69. VkPolys.Opens says that the hard-coded verifying key was made with this setup; it is a hypothesis. The pairing is the definition of Spec/Ate.lean."
 },
 "C71": {
  "note": "The claim is false of the code: C71_aggregator_false, C71_independent and C71_kyc_false prove it for every public witness. C71_view is the positive part. Under Ext.EcdsaLaw for the KYC circuit; the aggregation part runs in the test engine, since the circuit does not compile (C39)."
 },
 "C22": {
  "note": "C22_notZero and C22_range: canonical values, every engine; C22_reduced: all values, engines that reduce. C22_noncanonical_false: the claim is false of integers outside [0, r) in the test engine without reduction; C22_notZero_int and C22_range_int say what is checked there."
 },
 "C42": {
  "note": "Every assignment (C42_all); for canonical values exactly the specification (C42_exact). C42_noncanonical_false: an age of 30 + r is rejected by a test engine that does not reduce it."
 },
 "C15": {
  "note": "C15_msm: 0 <= k < p under the gadget's contract; C15_msm_strict: any k, with the scalar reduced modulo p. C15_large_false: false of scalars from p on."
 },
 "C73": {
  "note": "NewWitness and Public are gnark functions, modelled from their contract: error on a missing value, public values first, in the order of the fields."
 }
}
