{
 "claims": [
  {
   "property": "C01",
   "status": "proved",
   "theorems": [
    "Verif.C01_mod_value",
    "Verif.C01_mod_accepts_iff",
    "Verif.C01_mod_noncanonical",
    "Verif.C01_exact"
   ],
   "note": ""
  },
  {
   "property": "C02",
   "status": "proved",
   "theorems": [
    "Verif.C02_modHint",
    "Verif.C02_mod_accepts",
    "Verif.C02_exact"
   ],
   "note": ""
  },
  {
   "property": "C03",
   "status": "proved",
   "theorems": [
    "Verif.C03_sound",
    "Verif.C03_complete",
    "Verif.C03_nil"
   ],
   "note": ""
  },
  {
   "property": "C04",
   "status": "proved",
   "theorems": [
    "Verif.C04_sound",
    "Verif.C04_accepts_iff",
    "Verif.C04_quotient",
    "Verif.C04_div_zero",
    "Verif.C04_exact"
   ],
   "note": ""
  },
  {
   "property": "C05",
   "status": "proved",
   "theorems": [
    "Verif.C05_false",
    "Verif.C05_zero_div_zero",
    "Verif.C05_unique_partial"
   ],
   "note": "The plain claim is false of the code; C05_false and C05_zero_div_zero prove the counterexample 0/0, C05_unique_partial proves what holds (divisor not zero)."
  },
  {
   "property": "C06",
   "status": "proved",
   "theorems": [
    "Verif.C06_pow",
    "Verif.C06_pow_le_one",
    "Verif.C06_complete",
    "Verif.C06_panics",
    "Verif.C06_exact"
   ],
   "note": ""
  },
  {
   "property": "C07",
   "status": "proved",
   "theorems": [
    "Verif.C07_value",
    "Verif.C07_range",
    "Verif.C07_complete",
    "Verif.C07_compile_panics"
   ],
   "note": ""
  },
  {
   "property": "C08",
   "status": "proved",
   "theorems": [
    "Verif.C08_value",
    "Verif.C08_empty",
    "Verif.C08_bytes",
    "Verif.C08_injective",
    "Verif.C08_not_injective_32",
    "Verif.C08_nil"
   ],
   "note": ""
  },
  {
   "property": "C09",
   "status": "proved",
   "theorems": [
    "Verif.C09_format",
    "Verif.C09_roundtrip",
    "Verif.C09_decimal",
    "Verif.C09_injective",
    "Verif.C09_no_match",
    "Verif.C09_exact"
   ],
   "note": ""
  },
  {
   "property": "C10",
   "status": "proved",
   "theorems": [
    "Verif.C10_msm",
    "Verif.C10_msm_infinity",
    "Verif.C10_msm_bad_point",
    "Verif.C10_msm_too_big",
    "Verif.C10_msm_arity",
    "Verif.C10_add",
    "Verif.C10_add_infinity",
    "Verif.C10_add_bad_first",
    "Verif.C10_add_bad_second",
    "Verif.C10_add_too_big",
    "Verif.C10_add_arity"
   ],
   "note": ""
  },
  {
   "property": "C11",
   "status": "proved",
   "theorems": [
    "Verif.C11_toBytes_never",
    "Verif.C11_toBytes_false",
    "Verif.C11_toBytes_outcome",
    "Verif.C11_valueOf_ignores",
    "Verif.C11_valueOf_nil"
   ],
   "note": "The claim is false of the code for every input; the theorems prove the negation and the exact outcome."
  },
  {
   "property": "C12",
   "status": "proved",
   "theorems": [
    "Verif.C12_check",
    "Verif.C12_residues",
    "Verif.C12_wire_panics"
   ],
   "note": ""
  },
  {
   "property": "C13",
   "status": "proved",
   "theorems": [
    "Verif.C13_false",
    "Verif.C13_witness",
    "Verif.C13_const_partial",
    "Verif.C13_exact"
   ],
   "note": "The claim is false of the code for circuit variables; C13_const_partial proves what holds on constants."
  },
  {
   "property": "C14",
   "status": "proved",
   "theorems": [
    "Verif.C14_order",
    "Verif.C14_subgroup"
   ],
   "note": ""
  },
  {
   "property": "C15",
   "status": "proved",
   "theorems": [
    "Verif.C15_compile_error",
    "Verif.C15_msm",
    "Verif.C15_msm_strict",
    "Verif.C15_large_false"
   ],
   "note": "C15_msm: 0 <= k < p under the gadget's contract; C15_msm_strict: any k, with the scalar reduced modulo p. C15_large_false: false of scalars from p on."
  },
  {
   "property": "C16",
   "status": "proved",
   "theorems": [
    "Verif.C16_msm_iff",
    "Verif.C16_rejects_valid",
    "Verif.C16_degenerate",
    "Verif.C16_invalid"
   ],
   "note": "Domain of the gnark gadget: P is not infinity, k is not 0 modulo r."
  },
  {
   "property": "C17",
   "status": "proved",
   "theorems": [
    "Verif.C17_add",
    "Verif.C17_add_iff",
    "Verif.C17_invalid"
   ],
   "note": ""
  },
  {
   "property": "C18",
   "status": "proved",
   "theorems": [
    "Verif.C18_ecc_mul",
    "Verif.C18_ecc_mul_add",
    "Verif.C18_ecc_mul_range",
    "Verif.C18_ecc_mul_add_range"
   ],
   "note": ""
  },
  {
   "property": "C19",
   "status": "proved",
   "theorems": [
    "Verif.C19_ecc_mul_propagates",
    "Verif.C19_false"
   ],
   "note": "False of the code for ecc_mul_add (C19_false gives the run); ecc_mul propagates its error."
  },
  {
   "property": "C20",
   "status": "proved",
   "theorems": [
    "Verif.C20_msm_point",
    "Verif.C20_add_point",
    "Verif.C20_msm_nth",
    "Verif.C20_add_nth",
    "Verif.C20_false"
   ],
   "note": "False of the code (C20_false); the theorems give the exact state and statement checked by the n-th call."
  },
  {
   "property": "C21",
   "status": "proved",
   "theorems": [
    "Verif.C21_msm",
    "Verif.C21_add",
    "Verif.C21_identified",
    "Verif.C21_weaker"
   ],
   "note": ""
  },
  {
   "property": "C22",
   "status": "proved",
   "theorems": [
    "Verif.C22_notZero",
    "Verif.C22_range",
    "Verif.C22_empty",
    "Verif.C22_notZero_int",
    "Verif.C22_range_int",
    "Verif.C22_noncanonical_false",
    "Verif.C22_reduced",
    "Verif.C22_nil"
   ],
   "note": "C22_notZero and C22_range: canonical values, every engine; C22_reduced: all values, engines that reduce. C22_noncanonical_false: the claim is false of integers outside [0, r) in the test engine without reduction; C22_notZero_int and C22_range_int say what is checked there."
  },
  {
   "property": "C23",
   "status": "proved",
   "theorems": [
    "Verif.C23_exact",
    "Verif.C23_unique",
    "Verif.C23_keccak",
    "Verif.C23_sha",
    "Verif.C23_circuits"
   ],
   "note": ""
  },
  {
   "property": "C24",
   "status": "proved",
   "theorems": [
    "Verif.C24_residues",
    "Verif.C24_nil",
    "Verif.C24_hash",
    "Verif.C24_residue_collision"
   ],
   "note": ""
  },
  {
   "property": "C25",
   "status": "proved",
   "theorems": [
    "Verif.C25_false",
    "Verif.C25_two_hashes",
    "Verif.C25_some"
   ],
   "note": "The binding claim is false of the code (C25_false, C25_two_hashes); C25_some proves what holds for every strategy."
  },
  {
   "property": "C26",
   "status": "proved",
   "theorems": [
    "Verif.C26_value",
    "Verif.C26_panics"
   ],
   "note": ""
  },
  {
   "property": "C27",
   "status": "proved",
   "theorems": [
    "Verif.C27_schedule"
   ],
   "note": ""
  },
  {
   "property": "C28",
   "status": "proved",
   "theorems": [
    "Verif.C28_encoding",
    "Verif.C28_binding",
    "Verif.C28_all",
    "Verif.C28_signs_false"
   ],
   "note": "Stated for non-negative words. C28_signs_false shows why: negating an evaluation word leaves all challenges unchanged."
  },
  {
   "property": "C29",
   "status": "proved",
   "theorems": [
    "Verif.C29_points",
    "Verif.C29_iff"
   ],
   "note": ""
  },
  {
   "property": "C30",
   "status": "proved",
   "theorems": [
    "Verif.C30_quotient",
    "Verif.C30_forced"
   ],
   "note": ""
  },
  {
   "property": "C31",
   "status": "proved",
   "theorems": [
    "Verif.C31_constants",
    "Verif.C31_literals",
    "Verif.C31_lagrange",
    "Verif.C31_outside"
   ],
   "note": ""
  },
  {
   "property": "C32",
   "status": "proved",
   "theorems": [
    "Verif.C32_values"
   ],
   "note": ""
  },
  {
   "property": "C33",
   "status": "proved",
   "theorems": [
    "Verif.C33_accumulator"
   ],
   "note": ""
  },
  {
   "property": "C34",
   "status": "proved",
   "theorems": [
    "Verif.C34_sound",
    "Verif.C34_honest",
    "Verif.C34_trapdoor",
    "Verif.C34_outside"
   ],
   "note": ""
  },
  {
   "property": "C35",
   "status": "proved",
   "theorems": [
    "Verif.C35_relations",
    "Verif.C35_complete",
    "Verif.C35_iff"
   ],
   "note": "For the test engine (which hands numbers to hints unreduced) with the repo's hints; the compiler is covered by C39. GeneralPosition lists the degenerate values that are excluded. The shipped proof meets the hypotheses (Props/Shipped.lean, last example)."
  },
  {
   "property": "C36",
   "status": "proved",
   "theorems": [
    "Verif.C36_false",
    "Verif.C36_values",
    "Verif.C36_define",
    "Verif.C36_honest",
    "Verif.C36_unique",
    "Verif.C36_unique_list"
   ],
   "note": "Unique outside the evaluation domain, as stated. C36_false shows that the proviso is needed: a concrete proof with x = 1 is accepted with two different aux lists."
  },
  {
   "property": "C37",
   "status": "proved",
   "theorems": [
    "Verif.C37_frame",
    "Verif.C37_reads",
    "Verif.C37_define_reads",
    "Verif.C37_surplus"
   ],
   "note": ""
  },
  {
   "property": "C38",
   "status": "proved",
   "theorems": [
    "Verif.C38_short"
   ],
   "note": ""
  },
  {
   "property": "C39",
   "status": "proved",
   "theorems": [
    "Verif.C39_reason",
    "Verif.C39_main_reason",
    "Verif.C39_false",
    "Verif.C39_compile",
    "Verif.C39_main"
   ],
   "note": "The claim is false of the code; the theorems prove that compilation fails for every shape, assignment and strategy, and C39_reason where and with which error."
  },
  {
   "property": "C40",
   "status": "proved",
   "theorems": [
    "Verif.C40_used",
    "Verif.C40_unregistered",
    "Verif.C40_mod",
    "Verif.C40_false"
   ],
   "note": "The claim is false of the code; C40_false proves that every returning run uses the unregistered modHint, C40_used that all others are registered."
  },
  {
   "property": "C41",
   "status": "proved",
   "theorems": [
    "Verif.C41_order",
    "Verif.C41_twist",
    "Verif.C41_g2",
    "Verif.C41_generator",
    "Verif.C41_fillG2",
    "Verif.C41_fillG1",
    "Verif.C41_fillG1_panic",
    "Verif.C41_wire",
    "Verif.C41_check",
    "Verif.C41_sizes",
    "Verif.C41_pairing"
   ],
   "note": ""
  },
  {
   "property": "C42",
   "status": "proved",
   "theorems": [
    "Verif.C42_exact",
    "Verif.C42_empty",
    "Verif.C42_all",
    "Verif.C42_noncanonical_false"
   ],
   "note": "Every assignment (C42_all); for canonical values exactly the specification (C42_exact). C42_noncanonical_false: an age of 30 + r is rejected by a test engine that does not reduce it."
  },
  {
   "property": "C43",
   "status": "proved",
   "theorems": [
    "Verif.C43_false",
    "Verif.C43_all",
    "Verif.C43_unread",
    "Verif.C43_example"
   ],
   "note": "The claim is false of the code; C43_false and C43_unread prove the negation for every satisfying witness, C43_example is a concrete pair."
  },
  {
   "property": "C44",
   "status": "proved",
   "theorems": [
    "Verif.C44_length",
    "Verif.C44_empty",
    "Verif.C44_msm"
   ],
   "note": "Domain MsmDomain = the general position in which gnark specifies the incomplete gadget."
  },
  {
   "property": "C45",
   "status": "proved",
   "theorems": [
    "Verif.C45_no_zero_coordinate",
    "Verif.C45_no_r_coordinate",
    "Verif.C45_tests",
    "Verif.C45_final",
    "Verif.C45_final_infinity"
   ],
   "note": ""
  },
  {
   "property": "C46",
   "status": "proved",
   "theorems": [
    "Verif.C46_constants",
    "Verif.C46_embed"
   ],
   "note": ""
  },
  {
   "property": "C47",
   "status": "proved",
   "theorems": [
    "Verif.C47_scalarMul_mod",
    "Verif.C47_scalarMul",
    "Verif.C47_add",
    "Verif.C47_scalarMul_wire",
    "Verif.C47_add_wire",
    "Verif.C47_constants",
    "Verif.C47_scalarMul_degenerate"
   ],
   "note": ""
  },
  {
   "property": "C48",
   "status": "proved",
   "theorems": [
    "Verif.C48_circuit",
    "Verif.C48_only_if",
    "Verif.C48_exact",
    "Verif.C48_outside",
    "Verif.C48_all",
    "Verif.C48_every"
   ],
   "note": "Test engine with the repo's hints. C48_every is the full statement (every assignment; machine integers fit 64 bits); C48_circuit is the case without machine integers as last two proof words; C48_all is the case of 104 natural numbers, C48_exact and C48_only_if assume canonical points. Non-vacuity: the shipped proof (C49_spec and the example after it; Props/Instances.lean for C48_circuit; Props/ExactInt.lean, with machine integers, for C48_every)."
  },
  {
   "property": "C49",
   "status": "proved",
   "theorems": [
    "Verif.C49_recorded_step",
    "Verif.C49_recorded",
    "Verif.C49_shipped",
    "Verif.C49_accepted",
    "Verif.C49_spec",
    "Verif.C49_pairing",
    "Verif.C49_pairing_nontrivial",
    "Verif.C49_real"
   ],
   "note": "The data are the shipped ones, evaluated by the kernel through an evaluator proved equal to the model; the quantifier ranges over the gadgets, the pairing and the engine state. C49_real is the acceptance with the concrete pairing of Spec/Ate.lean (Miller loop and an r-th root of the product evaluated by the kernel)."
  },
  {
   "property": "C50",
   "status": "proved",
   "theorems": [
    "Verif.C50_msm1",
    "Verif.C50_add1",
    "Verif.C50_msm1_partial",
    "Verif.C50_add1_partial",
    "Verif.C50_msm1_honest",
    "Verif.C50_false",
    "Verif.C50_compile",
    "Verif.C50_add1_honest",
    "Verif.C50_add1_false",
    "Verif.C50_add1_infinity",
    "Verif.C50_msm1_infinity"
   ],
   "note": "The claim is false of the code; C50_msm1/C50_add1 give the exact result for every prover, C50_false and C50_add1_false a concrete wrong result with honest hints, the _partial theorems the case where the claim holds."
  },
  {
   "property": "C51",
   "status": "proved",
   "theorems": [
    "Verif.C51_check",
    "Verif.C51_check_wire",
    "Verif.C51_checkVar_false",
    "Verif.C51_msm"
   ],
   "note": "C51_checkVar_false is the negation for CheckOnCurveCircuitVar, as stated."
  },
  {
   "property": "C52",
   "status": "proved",
   "theorems": [
    "Verif.C52_rows",
    "Verif.C52_quotient",
    "Verif.C52_opening",
    "Verif.C52_honest",
    "Verif.C52_prover",
    "Verif.C52_accepted",
    "Verif.C52_run"
   ],
   "note": "Existence of the prover is proved, not its efficiency. The last example of Props/Prover.lean gives a verifying key and a witness meeting the hypotheses; C52_run gives the proof."
  },
  {
   "property": "C53",
   "status": "proved",
   "theorems": [
    "Verif.C53_equation",
    "Verif.C53_opening_sound"
   ],
   "note": "C53_equation is exact; C53_opening_sound counts the exceptional challenges."
  },
  {
   "property": "C54",
   "status": "proved",
   "theorems": [
    "Verif.C54_rows",
    "Verif.C54_quotient"
   ],
   "note": "The verifying key enters through polynomials K behind its commitments and a permutation encoded by them; they exist for every trapdoor outside the domain (example after C55_accepted)."
  },
  {
   "property": "C55",
   "status": "proved",
   "theorems": [
    "Verif.C55_rounds",
    "Verif.C55_exceptions",
    "Verif.C55_accepted",
    "Verif.C55_honest"
   ],
   "note": "C55_accepted is about Define in the test engine with arbitrary hints. The exceptional sets are counted, and each depends only on earlier messages; probabilities are in C57 and C61. The quotient value is not part of the transcript, but the identity determines it from the evaluations."
  },
  {
   "property": "C56",
   "status": "proved",
   "theorems": [
    "Verif.C56_point",
    "Verif.C56_unique",
    "Verif.C56_canonical"
   ],
   "note": "C56_point for arbitrary hints; C56_canonical and C56_unique for the hints of the repo. The shipped proof meets the hypotheses (example in Props/Unique.lean)."
  },
  {
   "property": "C57",
   "status": "proved",
   "theorems": [
    "Verif.C57_total",
    "Verif.C57_count",
    "Verif.C57_probability",
    "Verif.C57_honest",
    "Verif.C57_circuit"
   ],
   "note": "C57_count bounds the number of challenge tuples for every degree bound d; C57_probability is the case d = n; C57_honest is the completeness side; C57_circuit links strategies to accepted runs of Define. The challenges are independent uniform field elements here: that SHA-256 outputs behave like that is not modelled."
  },
  {
   "property": "C58",
   "status": "proved",
   "theorems": [
    "Verif.C58_sound",
    "Verif.C58_any",
    "Verif.C58_complete",
    "Verif.C58_key",
    "Verif.C58_sign",
    "Verif.C58_binding",
    "Verif.C58_shipped"
   ],
   "note": "Under Ext.EcdsaLaw (Spec/Ecdsa.lean), the contract of gnark's signature gadget; ecdsaExt meets it. C58_key: the private key exists. C58_shipped evaluates the test's signature in the kernel."
  },
  {
   "property": "C59",
   "status": "proved",
   "theorems": [
    "Verif.C59_false",
    "Verif.C59_anyone"
   ],
   "note": "C59_false proves the negation for all a, b; C59_anyone is the literal forgery."
  },
  {
   "property": "C60",
   "status": "proved",
   "theorems": [
    "Verif.C60_false"
   ],
   "note": "C60_false proves the negation for every valid signature; example at the test's witness."
  },
  {
   "property": "C61",
   "status": "proved",
   "theorems": [
    "Verif.C61_count",
    "Verif.C61_probability",
    "Verif.C61_signs",
    "Verif.C61_reaches"
   ],
   "note": "C61_count counts hash functions on any finite set of messages, for any Q; C61_probability and C61_signs are the numbers for 2^80 questions; C61_reaches: every accepted circuit, in particular the shipped one, is presented by some prover."
  },
  {
   "property": "C62",
   "status": "proved",
   "theorems": [
    "Verif.C62_calls",
    "Verif.C62_same"
   ],
   "note": "C62_calls gives the list and its counts; C62_same is the two-run form. The shipped circuit makes all 927 calls."
  },
  {
   "property": "C63",
   "status": "proved",
   "theorems": [
    "Verif.C63_representable",
    "Verif.C63_exceptions",
    "Verif.C63_count",
    "Verif.C63_probability",
    "Verif.C63_accepted",
    "Verif.C63_honest",
    "Verif.C63_run"
   ],
   "note": "C63_count and C63_probability count the failures over all challenges; C63_accepted and C63_run connect them to the circuit; C63_honest gives the prover for a satisfying witness. That the challenges of a run are random is not assumed here: they are any challenges outside the failures."
  },
  {
   "property": "C64",
   "status": "proved",
   "theorems": [
    "Verif.C64_count",
    "Verif.C64_probability",
    "Verif.C64_messages",
    "Verif.C64_instances"
   ],
   "note": "C64_count and C64_probability count the hash functions for which the prover's proof is not accepted; C64_messages shows that the set of messages exists, C64_instances that almost all instances qualify."
  },
  {
   "property": "C65",
   "status": "proved",
   "theorems": [
    "Verif.C65_best",
    "Verif.C65_needed",
    "Verif.C65_exact",
    "Verif.C65_instances_false",
    "Verif.C65_malleable",
    "Verif.C65_contrast",
    "Verif.C65_shipped_false"
   ],
   "note": "C65_exact is the equivalence (C65_best and C65_needed its halves). The two consequences that a user would not want are C65_instances_false (for the shipped proof: C65_shipped_false) and C65_malleable; C65_contrast shows that the repo's hints refuse shifted words."
  },
  {
   "property": "C66",
   "status": "proved",
   "theorems": [
    "Verif.C66_error_only",
    "Verif.C66_nil",
    "Verif.C66_error_iff",
    "Verif.C66_outcome"
   ],
   "note": "C66_error_only and C66_nil hold for any hint answers; C66_error_iff and C66_outcome (the three-way classification) for the hints of the repo. The concrete cases are the shipped circuit with first point (1, 1), which returns the error, and with a nil first word, which panics."
  },
  {
   "property": "C67",
   "status": "proved",
   "theorems": [
    "Verif.C67_exact",
    "Verif.C67_literal",
    "Verif.C67_bad"
   ],
   "note": "C67_literal links the string function to the function on numbers that the model of the verification steps uses."
  },
  {
   "property": "C68",
   "status": "proved",
   "theorems": [
    "Verif.C68_boundary_false",
    "Verif.C68_residues",
    "Verif.C68_message"
   ],
   "note": "The claim that the boundary between the lists is fixed is false of the code: C68_boundary_false proves that Define is the same function for any two ways to cut the same list. C68_residues: values count modulo p. C68_message is the positive part."
  },
  {
   "property": "C69",
   "status": "proved",
   "theorems": [
    "Verif.C69_add",
    "Verif.C69_roots",
    "Verif.C69_bilinear",
    "Verif.C69_check",
    "Verif.C69_secret",
    "Verif.C69_tau_ne",
    "Verif.C69_nondegenerate",
    "Verif.C69_circuit",
    "Verif.C69_accepted",
    "Verif.C69_trapdoor",
    "Verif.C69_final"
   ],
   "note": "The pairing is the textbook definition of Spec/Ate.lean; that gnark's gadget decides the same check is trusted. C69_bilinear and C69_trapdoor discharge the hypotheses Bilinear and Trapdoor of C34, C55-C57, C61-C64 for it. C69_secret identifies the scalar: g20 is that multiple of the standard G2 generator. General additivity in the G2 argument is not stated."
  },
  {
   "property": "C70",
   "status": "proved",
   "theorems": [
    "Verif.C70_unique",
    "Verif.C70_trapdoor",
    "Verif.C70_accepted",
    "Verif.C70_candidates",
    "Verif.C70_count",
    "Verif.C70_probability"
   ],
   "note": "Combines C55 and C61 with C69. VkPolys.Opens says that the hard-coded verifying key was made with this setup; it is a hypothesis. The pairing is the definition of Spec/Ate.lean."
  },
  {
   "property": "C71",
   "status": "proved",
   "theorems": [
    "Verif.C71_view",
    "Verif.C71_aggregator_false",
    "Verif.C71_independent",
    "Verif.C71_kyc_false"
   ],
   "note": "The claim is false of the code: C71_aggregator_false, C71_independent and C71_kyc_false prove it for every public witness. C71_view is the positive part. Under Ext.EcdsaLaw for the KYC circuit; the aggregation part runs in the test engine, since the circuit does not compile (C39)."
  },
  {
   "property": "C72",
   "status": "proved",
   "theorems": [
    "Verif.C72_base",
    "Verif.C72_point",
    "Verif.C72_binding",
    "Verif.C72_iff",
    "Verif.C72_range",
    "Verif.C72_compile"
   ],
   "note": ""
  },
  {
   "property": "C73",
   "status": "proved",
   "theorems": [
    "Verif.C73_aggregator",
    "Verif.C73_public",
    "Verif.C73_limbs",
    "Verif.C73_kyc",
    "Verif.C73_kyc_run",
    "Verif.C73_kyc_binding"
   ],
   "note": "NewWitness and Public are gnark functions, modelled from their contract: error on a missing value, public values first, in the order of the fields."
  },
  {
   "property": "C74",
   "status": "proved",
   "theorems": [
    "Verif.C74_challenges",
    "Verif.C74_lagrange",
    "Verif.C74_ecc_mul",
    "Verif.C74_ecc_mul_add",
    "Verif.C74_step1",
    "Verif.C74_step2",
    "Verif.C74_step3",
    "Verif.C74_wire"
   ],
   "note": ""
  }
 ]
}