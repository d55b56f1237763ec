{
 "claims": [
  {
   "property": "C01",
   "status": "proved",
   "theorems": [
    "Bls.Props.C01_arithmetic",
    "Bls.Props.C01_rep_bijective"
   ],
   "note": "All canonical operands, both multiplication routines; instruction-level model of src/arithmetic.s."
  },
  {
   "property": "C02",
   "status": "proved",
   "theorems": [
    "Bls.Props.C02_dispatch",
    "Bls.Props.C02_lazy",
    "Bls.Props.C02_three_p",
    "Bls.Props.C02_four_p_false"
   ],
   "note": "Proved for all operand pairs; also a witness that the \"around 4p\" comment is imprecise."
  },
  {
   "property": "C03",
   "status": "partial",
   "theorems": [
    "Bls.Props.C03_add_false",
    "Bls.Props.C03_double_false",
    "Bls.Props.C03_subtract_false",
    "Bls.Props.C03_negate_false",
    "Bls.Props.C03_square_false",
    "Bls.Props.C03_multiply",
    "Bls.Props.C03_multiply_valid",
    "Bls.Props.C03_add_partial",
    "Bls.Props.C03_double_partial",
    "Bls.Props.C03_subtract_partial",
    "Bls.Props.C03_negate_partial",
    "Bls.Props.C03_add_exact",
    "Bls.Props.C03_double_exact",
    "Bls.Props.C03_subtract_exact",
    "Bls.Props.C03_negate_exact",
    "Bls.Props.C03_square_exact",
    "Bls.Props.C03_square_partial"
   ],
   "note": "The claim is false of the code: negations with concrete valid operands for add, double, subtract, negate and square. multiply is exact for all valid (and lazily added) operands. add, double, subtract, negate and square: the exact (if and only if) condition on the operands (C03_*_exact); the _partial theorems give simpler sufficient conditions."
  },
  {
   "property": "C04",
   "status": "partial",
   "theorems": [
    "Bls.Props.C04_add64_false",
    "Bls.Props.C04_sub64_false",
    "Bls.Props.C04_add64_partial",
    "Bls.Props.C04_sub64_partial",
    "Bls.Props.C04_carry_bit",
    "Bls.Props.C04_mul64",
    "Bls.Props.C04_madd",
    "Bls.Props.C04_madd3",
    "Bls.Props.C04_madd5",
    "Bls.Props.C04_square_helpers",
    "Bls.Props.C04_madd2s_exact"
   ],
   "note": "The claim is false of Add64 and Sub64 exactly when y = 2^64-1 and the carry-in is 1 (iff proved). Mul64 and madd0..3 are proved as claimed; madd and the helpers of _square are described exactly for all words: the top word ignores the carry of the additions."
  },
  {
   "property": "C05",
   "status": "proved",
   "theorems": [
    "Bls.Props.C05_placement"
   ],
   "note": "All nine routines, any placement (aliased, overlapping or disjoint at word granularity)."
  },
  {
   "property": "C06",
   "status": "proved",
   "theorems": [
    "Bls.Props.C06_roundtrip",
    "Bls.Props.C06_toMont",
    "Bls.Props.C06_fromMont"
   ],
   "note": ""
  },
  {
   "property": "C07",
   "status": "proved",
   "theorems": [
    "Bls.Props.C07_BE",
    "Bls.Props.C07_LE",
    "Bls.Props.C07_value",
    "Bls.Props.C07_reverse"
   ],
   "note": "Both byte orders, with and without Montgomery conversion, checked decoders accept exactly the strings below p."
  },
  {
   "property": "C08",
   "status": "proved",
   "theorems": [
    "Bls.Props.C08_inverse",
    "Bls.Props.C08_field"
   ],
   "note": "Kaliski loop with its 768-iteration bound; termination is totality of the model function."
  },
  {
   "property": "C09",
   "status": "proved",
   "theorems": [
    "Bls.Props.C09_exp",
    "Bls.Props.C09_zero"
   ],
   "note": "All four classes, exponent arrays of any length."
  },
  {
   "property": "C10",
   "status": "proved",
   "theorems": [
    "Bls.Props.C10_sqrt",
    "Bls.Props.C10_nonresidue"
   ],
   "note": "Aliasing of output and input: the code copies *this first, the model is by value."
  },
  {
   "property": "C100",
   "status": "proved",
   "theorems": [
    "Bls.Props.C100_branches",
    "Bls.Props.C100_rebuild",
    "Bls.Props.C100_leak",
    "Bls.Props.C100_public_key"
   ],
   "note": "x86-64 build; branches of the source, not of a compiled program"
  },
  {
   "property": "C101",
   "status": "proved",
   "theorems": [
    "Bls.Props.C101_jacobian_g1",
    "Bls.Props.C101_jacobian_g2",
    "Bls.Props.C101_jacobian_all",
    "Bls.Props.C101_affine",
    "Bls.Props.C101_compressed_infinity"
   ],
   "note": ""
  },
  {
   "property": "C102",
   "status": "proved",
   "theorems": [
    "Bls.Props.C102_hmac",
    "Bls.Props.C102_long",
    "Bls.Props.C102_extract",
    "Bls.Props.C102_expand",
    "Bls.Props.C102_expand_overlap",
    "Bls.Props.C102_extract_expand",
    "Bls.Props.C102_xmd",
    "Bls.Props.C102_xmd_overlap",
    "Bls.Props.C102_info_false",
    "Bls.Props.C102_prk_false",
    "Bls.Props.C102_tag_false"
   ],
   "note": "The library itself calls these functions with keys and salts of 4, 20 and 32 bytes and with separate buffers. C36 takes the copy of _key onto itself as no effect."
  },
  {
   "property": "C103",
   "status": "proved",
   "theorems": [
    "Bls.Props.C103_scalar_le",
    "Bls.Props.C103_scalar_be",
    "Bls.Props.C103_scalar_be_in_place",
    "Bls.Props.C103_fp",
    "Bls.Props.C103_fp_in_place",
    "Bls.Props.C103_fp_in_place_false",
    "Bls.Props.C103_tower_le",
    "Bls.Props.C103_tower_be",
    "Bls.Props.C103_tower_in_place_false",
    "Bls.Props.C103_jacobian",
    "Bls.Props.C103_affine",
    "Bls.Props.C103_compressed"
   ],
   "note": "Affine and compressed encodings work on a local copy of the point; they are stated for points with reduced coordinates."
  },
  {
   "property": "C104",
   "status": "proved",
   "theorems": [
    "Bls.Props.C104_sum_g1",
    "Bls.Props.C104_sum_g2",
    "Bls.Props.C104_unchanged",
    "Bls.Props.C104_sum_false",
    "Bls.Props.C104_pairing",
    "Bls.Props.C104_pairing_false"
   ],
   "note": "The callback may overwrite elements but not free them."
  },
  {
   "property": "C105",
   "status": "proved",
   "theorems": [
    "Bls.Props.C105_weighted_sum",
    "Bls.Props.C105_calculate",
    "Bls.Props.C105_add_pair",
    "Bls.Props.C105_verify",
    "Bls.Props.C105_aggregate",
    "Bls.Props.C105_answers",
    "Bls.Props.C105_callback",
    "Bls.Props.C105_verify_tight"
   ],
   "note": "The blocks of malloc in key generation are in C80."
  },
  {
   "property": "C106",
   "status": "proved",
   "theorems": [
    "Bls.Props.C106_test",
    "Bls.Props.C106_complete",
    "Bls.Props.C106_quotient",
    "Bls.Props.C106_sound",
    "Bls.Props.C106_witness",
    "Bls.Props.C106_two_values",
    "Bls.Props.C106_setup",
    "Bls.Props.C106_outside"
   ],
   "note": "The library has no function for commitments; the statements are about the calls of a user of the library."
  },
  {
   "property": "C107",
   "status": "proved",
   "theorems": [
    "Bls.Props.C107_equation",
    "Bls.Props.C107_inputs",
    "Bls.Props.C107_inputs_differ",
    "Bls.Props.C107_last",
    "Bls.Props.C107_malleable",
    "Bls.Props.C107_outside"
   ],
   "note": "The library has no function for such proofs; the statements are about the calls of a user of the library."
  },
  {
   "property": "C108",
   "status": "proved",
   "theorems": [
    "Bls.Props.C108_complete",
    "Bls.Props.C108_extract",
    "Bls.Props.C108_signature",
    "Bls.Props.C108_simulate",
    "Bls.Props.C108_outside"
   ],
   "note": "The library has no function for such proofs; the statements are about the calls of a user of the library."
  },
  {
   "property": "C109",
   "status": "proved",
   "theorems": [
    "Bls.Props.C109_equal",
    "Bls.Props.C109_hides",
    "Bls.Props.C109_add",
    "Bls.Props.C109_two_openings",
    "Bls.Props.C109_trapdoor"
   ],
   "note": "The library has no function for such commitments; the statements are about the calls of a user of the library."
  },
  {
   "property": "C11",
   "status": "proved",
   "theorems": [
    "Bls.Props.C11_fp",
    "Bls.Props.C11_fp_one_of_two",
    "Bls.Props.C11_fp2",
    "Bls.Props.C11_fp2_one_of_two"
   ],
   "note": ""
  },
  {
   "property": "C110",
   "status": "proved",
   "theorems": [
    "Bls.Props.C110_decrypt",
    "Bls.Props.C110_hides",
    "Bls.Props.C110_add",
    "Bls.Props.C110_again",
    "Bls.Props.C110_parts",
    "Bls.Props.C110_outside"
   ],
   "note": "The library has no function for encryption; the statements are about the calls of a user of the library."
  },
  {
   "property": "C111",
   "status": "proved",
   "theorems": [
    "Bls.Props.C111_opens",
    "Bls.Props.C111_back",
    "Bls.Props.C111_complete",
    "Bls.Props.C111_hides",
    "Bls.Props.C111_one_party"
   ],
   "note": "The library has no function for hidden signatures; the statements are about the calls of a user of the library."
  },
  {
   "property": "C112",
   "status": "proved",
   "theorems": [
    "Bls.Props.C112_exact",
    "Bls.Props.C112_complete",
    "Bls.Props.C112_exists",
    "Bls.Props.C112_unique",
    "Bls.Props.C112_value",
    "Bls.Props.C112_shift"
   ],
   "note": "The library has no function for it; the statements are about the calls of a user of the library."
  },
  {
   "property": "C113",
   "status": "proved",
   "theorems": [
    "Bls.Props.C113_exact",
    "Bls.Props.C113_order",
    "Bls.Props.C113_complete",
    "Bls.Props.C113_infinity",
    "Bls.Props.C113_any",
    "Bls.Props.C113_update"
   ],
   "note": "The library has no function for it; the statements are about the calls of a user of the library."
  },
  {
   "property": "C12",
   "status": "proved",
   "theorems": [
    "Bls.Props.C12_encode",
    "Bls.Props.C12_decode",
    "Bls.Props.C12_from_to",
    "Bls.Props.C12_to_from"
   ],
   "note": ""
  },
  {
   "property": "C13",
   "status": "partial",
   "theorems": [
    "Bls.Props.C13_add_false",
    "Bls.Props.C13_add_carry_false",
    "Bls.Props.C13_add_partial",
    "Bls.Props.C13_add_exact",
    "Bls.Props.C13_add_throws",
    "Bls.Props.C13_multiply_false",
    "Bls.Props.C13_multiply_partial",
    "Bls.Props.C13_multiply_exact",
    "Bls.Props.C13_multiply_bounds"
   ],
   "note": "The claim is false of the code: carries meeting an all-ones word are dropped, and the final carry is written one word too high. Witnesses for each failure. C13_add_exact and C13_multiply_exact give the exact (if and only if) condition on the operands for a right result."
  },
  {
   "property": "C14",
   "status": "proved",
   "theorems": [
    "Bls.Props.C14_compare",
    "Bls.Props.C14_bits",
    "Bls.Props.C14_rsh"
   ],
   "note": ""
  },
  {
   "property": "C15",
   "status": "proved",
   "theorems": [
    "Bls.Props.C15_divide",
    "Bls.Props.C15_modPrime",
    "Bls.Props.C15_undefined_iff"
   ],
   "note": "For all divisors with a nonzero top word, with the exact condition for undefined behaviour."
  },
  {
   "property": "C16",
   "status": "proved",
   "theorems": [
    "Bls.Props.C16_encode",
    "Bls.Props.C16_lower_case",
    "Bls.Props.C16_digest",
    "Bls.Props.C16_roundtrip",
    "Bls.Props.C16_decode",
    "Bls.Props.C16_odd"
   ],
   "note": ""
  },
  {
   "property": "C17",
   "status": "proved",
   "theorems": [
    "Bls.Props.C17_structure",
    "Bls.Props.C17_fp2",
    "Bls.Props.C17_tests"
   ],
   "note": "Validity of results is carried by the type FpV of canonical values."
  },
  {
   "property": "C18",
   "status": "proved",
   "theorems": [
    "Bls.Props.C18_sqrt",
    "Bls.Props.C18_nonresidue"
   ],
   "note": ""
  },
  {
   "property": "C19",
   "status": "proved",
   "theorems": [
    "Bls.Props.C19_structure",
    "Bls.Props.C19_fp6",
    "Bls.Props.C19_fp12",
    "Bls.Props.C19_tests"
   ],
   "note": ""
  },
  {
   "property": "C20",
   "status": "partial",
   "theorems": [
    "Bls.Props.C20_fp2",
    "Bls.Props.C20_assign",
    "Bls.Props.C20_partial",
    "Bls.Props.C20_fp6_exact",
    "Bls.Props.C20_fp12_exact",
    "Bls.Props.C20_fp6_false",
    "Bls.Props.C20_fp12_false",
    "Bls.Props.C20_out_of_range"
   ],
   "note": "In-place maps proved for all supported powers, fp2 for all powers. The copying maps of fp6 and fp12 are wrong for powers 3 mod 6 (negation proved, and exactly for which elements they are right), right otherwise. Powers of 12 and more read out of bounds."
  },
  {
   "property": "C21",
   "status": "proved",
   "theorems": [
    "Bls.Props.C21_cyclotomic"
   ],
   "note": ""
  },
  {
   "property": "C22",
   "status": "proved",
   "theorems": [
    "Bls.Props.C22_group_law",
    "Bls.Props.C22_constants"
   ],
   "note": "Against the group law of Mathlib on the Weierstrass curve; every Jacobian representation."
  },
  {
   "property": "C23",
   "status": "proved",
   "theorems": [
    "Bls.Props.C23_equal",
    "Bls.Props.C23_isOnCurve",
    "Bls.Props.C23_affine"
   ],
   "note": ""
  },
  {
   "property": "C24",
   "status": "proved",
   "theorems": [
    "Bls.Props.C24_scale"
   ],
   "note": ""
  },
  {
   "property": "C25",
   "status": "proved",
   "theorems": [
    "Bls.Props.C25_weightedSum",
    "Bls.Props.C25_bounds",
    "Bls.Props.C25_callback_g1",
    "Bls.Props.C25_callback_g2"
   ],
   "note": "The run with the callback, its exceptions and the exact number of calls is in C25_callback_g1 and C25_callback_g2."
  },
  {
   "property": "C26",
   "status": "proved",
   "theorems": [
    "Bls.Props.C26_jacobian_g1",
    "Bls.Props.C26_jacobian_g2",
    "Bls.Props.C26_affine_g1",
    "Bls.Props.C26_affine_g2",
    "Bls.Props.C26_unchecked",
    "Bls.Props.C26_unchecked_le",
    "Bls.Props.C26_unchecked_jacobian_g2",
    "Bls.Props.C26_unchecked_affine_g2"
   ],
   "note": ""
  },
  {
   "property": "C27",
   "status": "partial",
   "theorems": [
    "Bls.Props.C27_roundtrip_partial",
    "Bls.Props.C27_exact",
    "Bls.Props.C27_infinity_false"
   ],
   "note": "C27_exact says exactly for which triples the round trip works; it fails for infinity unless both stored coordinates are zero, in particular for zero() (C27_infinity_false)."
  },
  {
   "property": "C28",
   "status": "partial",
   "theorems": [
    "Bls.Props.C28_on_curve",
    "Bls.Props.C28_complete",
    "Bls.Props.C28_canonical_partial",
    "Bls.Props.C28_exact",
    "Bls.Props.C28_forms",
    "Bls.Props.C28_reencode",
    "Bls.Props.C28_validity_check_vacuous",
    "Bls.Props.C28_canonical_false"
   ],
   "note": "C28_exact gives the accepted strings exactly; they include non-canonical ones, so uniqueness of the encoding is false (C28_canonical_false)."
  },
  {
   "property": "C29",
   "status": "proved",
   "theorems": [
    "Bls.Props.C29_inCorrectSubgroup",
    "Bls.Props.C29_multiples",
    "Bls.Props.C29_orders"
   ],
   "note": "Both curves, every representative. The orders of both curve groups are proved with explicit torsion points and an elliptic-curve primality certificate."
  },
  {
   "property": "C30",
   "status": "proved",
   "theorems": [
    "Bls.Props.C30_clearCofactor",
    "Bls.Props.C30_in_subgroup",
    "Bls.Props.C30_homomorphism",
    "Bls.Props.C30_nontrivial"
   ],
   "note": "clearCofactor is multiplication by the effective cofactor of RFC 9380 on both curves."
  },
  {
   "property": "C31",
   "status": "partial",
   "theorems": [
    "Bls.Props.C31_g2",
    "Bls.Props.C31_g2_rfc",
    "Bls.Props.C31_rfc_unique",
    "Bls.Props.C31_g1_partial",
    "Bls.Props.C31_g1_exceptions",
    "Bls.Props.C31_g1_exceptions_list",
    "Bls.Props.C31_g1_exceptions_rfc"
   ],
   "note": "Proved in full for g2. False for g1: 16 field elements (listed in Spec/Exceptions.lean) reach the kernel of the isogeny and g1::mapToCurve returns the off-curve triple (0,0,1); the negation is proved for each and the property for all others."
  },
  {
   "property": "C32",
   "status": "proved",
   "theorems": [
    "Bls.Props.C32_concat",
    "Bls.Props.C32_perm",
    "Bls.Props.C32_empty",
    "Bls.Props.C32_yield"
   ],
   "note": ""
  },
  {
   "property": "C33",
   "status": "proved",
   "theorems": [
    "Bls.Props.C33_finalExponentiation",
    "Bls.Props.C33_isGtValid",
    "Bls.Props.C33_calculate"
   ],
   "note": ""
  },
  {
   "property": "C34",
   "status": "proved",
   "theorems": [
    "Bls.Props.C34_add_left",
    "Bls.Props.C34_add_right",
    "Bls.Props.C34_scale",
    "Bls.Props.C34_infinity",
    "Bls.Props.C34_equal",
    "Bls.Props.C34_nondegenerate",
    "Bls.Props.C34_generators"
   ],
   "note": ""
  },
  {
   "property": "C35",
   "status": "proved",
   "theorems": [
    "Bls.Props.C35_sha256",
    "Bls.Props.C35_unique",
    "Bls.Props.C35_bounds"
   ],
   "note": "Specification with constants given as roots of primes; any split, any initial buffer content."
  },
  {
   "property": "C36",
   "status": "proved",
   "theorems": [
    "Bls.Props.C36_hmac",
    "Bls.Props.C36_extract",
    "Bls.Props.C36_expand",
    "Bls.Props.C36_expand_error",
    "Bls.Props.C36_extract_expand"
   ],
   "note": ""
  },
  {
   "property": "C37",
   "status": "proved",
   "theorems": [
    "Bls.Props.C37_xmd",
    "Bls.Props.C37_error",
    "Bls.Props.C37_negative"
   ],
   "note": "Message length below 2^31 because the parameter is an int."
  },
  {
   "property": "C38",
   "status": "proved",
   "theorems": [
    "Bls.Props.C38_secretKey",
    "Bls.Props.C38_deriveChildSk",
    "Bls.Props.C38_short_seed"
   ],
   "note": "Key generation equals draft-03 KeyGen / EIP-2333 (2020); the unbounded loop is characterised for every number of iterations."
  },
  {
   "property": "C39",
   "status": "proved",
   "theorems": [
    "Bls.Props.C39_fromBytes",
    "Bls.Props.C39_roundtrip"
   ],
   "note": ""
  },
  {
   "property": "C40",
   "status": "partial",
   "theorems": [
    "Bls.Props.C40_false",
    "Bls.Props.C40_order_false",
    "Bls.Props.C40_aggregate_partial",
    "Bls.Props.C40_exact",
    "Bls.Props.C40_empty"
   ],
   "note": "False as stated: aggregate_secret_keys({1},{2^128-1}) = 0. C40_exact: the result is the sum mod r exactly when no step loses a carry (lists of at most 2^61 keys)."
  },
  {
   "property": "C41",
   "status": "proved",
   "theorems": [
    "Bls.Props.C41_aggregate",
    "Bls.Props.C41_aggregateIf",
    "Bls.Props.C41_order",
    "Bls.Props.C41_grouping"
   ],
   "note": ""
  },
  {
   "property": "C42",
   "status": "proved",
   "theorems": [
    "Bls.Props.C42_publicKey",
    "Bls.Props.C42_homomorphism",
    "Bls.Props.C42_injective"
   ],
   "note": ""
  },
  {
   "property": "C43",
   "status": "partial",
   "theorems": [
    "Bls.Props.C43_commutes_partial",
    "Bls.Props.C43_exact",
    "Bls.Props.C43_public_side"
   ],
   "note": "Holds exactly when the addition of the reduced digest loses no carry (C43_exact). No digest that loses one is known, so neither the full statement nor its negation is proved."
  },
  {
   "property": "C44",
   "status": "partial",
   "theorems": [
    "Bls.Props.C44_partial",
    "Bls.Props.C44_exact",
    "Bls.Props.C44_unique",
    "Bls.Props.C44_long_message",
    "Bls.Props.C44_truncation",
    "Bls.Props.C44_collision",
    "Bls.Props.C44_long_tag"
   ],
   "note": "Proved for messages shorter than 2^31 bytes and tags of at most 255 bytes. False beyond: lengths are passed as int, so longer messages are undefined behaviour or truncated, and the error return for long tags is ignored; the negations are proved. C44_exact says for all lengths when the result is defined and what is hashed."
  },
  {
   "property": "C45",
   "status": "proved",
   "theorems": [
    "Bls.Props.C45_sign",
    "Bls.Props.C45_sign_defined",
    "Bls.Props.C45_pop",
    "Bls.Props.C45_aggregate",
    "Bls.Props.C45_fast"
   ],
   "note": "For every message for which sign is defined (all messages shorter than 2^31 bytes)."
  },
  {
   "property": "C46",
   "status": "proved",
   "theorems": [
    "Bls.Props.C46_exact",
    "Bls.Props.C46_unique",
    "Bls.Props.C46_valid",
    "Bls.Props.C46_spec",
    "Bls.Props.C46_pop",
    "Bls.Props.C46_pop_unique",
    "Bls.Props.C46_reject",
    "Bls.Props.C46_reject_aggregate"
   ],
   "note": "The answer false for invalid inputs is for messages shorter than 2^31 bytes; acceptance is characterised for all messages."
  },
  {
   "property": "C47",
   "status": "partial",
   "theorems": [
    "Bls.Props.C47_partial",
    "Bls.Props.C47_converse",
    "Bls.Props.C47_false_verify",
    "Bls.Props.C47_false_pop",
    "Bls.Props.C47_false_aggregate",
    "Bls.Props.C47_aggregate_empty",
    "Bls.Props.C47_false_fast"
   ],
   "note": "False of the code: infinity is accepted as a key with infinity as the signature of every message, in all four functions; the negations are proved. Proved: nothing but infinity is accepted for it."
  },
  {
   "property": "C48",
   "status": "proved",
   "theorems": [
    "Bls.Props.C48_length",
    "Bls.Props.C48_duplicate",
    "Bls.Props.C48_decision",
    "Bls.Props.C48_perm"
   ],
   "note": "Decision rule and permutations for messages shorter than 2^31 bytes (longer ones are undefined behaviour, C44)."
  },
  {
   "property": "C49",
   "status": "partial",
   "theorems": [
    "Bls.Props.C49_empty",
    "Bls.Props.C49_sum_partial",
    "Bls.Props.C49_perm_partial",
    "Bls.Props.C49_false"
   ],
   "note": "Proved for keys on the curve. False for keys off the curve, which are not checked: four keys are accepted in one order and rejected in another."
  },
  {
   "property": "C50",
   "status": "proved",
   "theorems": [
    "Bls.Props.C50_BE",
    "Bls.Props.C50_LE",
    "Bls.Props.C50_order_BE",
    "Bls.Props.C50_order_LE"
   ],
   "note": ""
  },
  {
   "property": "C51",
   "status": "proved",
   "theorems": [
    "Bls.Props.C51_hex",
    "Bls.Props.C51_frobenius",
    "Bls.Props.C51_pairing",
    "Bls.Props.C51_multiply",
    "Bls.Props.C51_bits",
    "Bls.Props.C51_inverse",
    "Bls.Props.C51_weightedSum",
    "Bls.Props.C51_modPrime",
    "Bls.Props.C51_fromMessage",
    "Bls.Props.C51_verify",
    "Bls.Props.C51_pop",
    "Bls.Props.C51_aggregateVerify",
    "Bls.Props.C51_keys",
    "Bls.Props.C15_divide",
    "Bls.Props.C15_undefined_iff",
    "Bls.Props.C15_modPrime",
    "Bls.Props.C102_long"
   ],
   "note": "Exact conditions for every modelled function that can read or write outside a buffer or shift too far; the others are shown never to. For the division see C15, for memcpy between overlapping ranges C102."
  },
  {
   "property": "C52",
   "status": "partial",
   "theorems": [
    "Bls.Props.C52_portable",
    "Bls.Props.C52_sqrt",
    "Bls.Props.C52_fp2",
    "Bls.Props.C52_fp6",
    "Bls.Props.C52_fp12",
    "Bls.Props.C52_mulBy01_partial",
    "Bls.Props.C52_mulBy01_exact",
    "Bls.Props.C52_mulBy01_false",
    "Bls.Props.C52_points",
    "Bls.Props.C52_words",
    "Bls.Props.C52_rsh",
    "Bls.Props.C52_divide"
   ],
   "note": "Proved for all listed functions except fp6::mulBy01Assign, which writes c2 before its last read of the arguments: false when an argument is the member c2 of the object (C52_mulBy01_false), exact condition in C52_mulBy01_exact."
  },
  {
   "property": "C53",
   "status": "proved",
   "theorems": [
    "Bls.Props.C53_sign",
    "Bls.Props.C53_pop_prove",
    "Bls.Props.C53_verify",
    "Bls.Props.C53_pop_verify",
    "Bls.Props.C53_key_bytes",
    "Bls.Props.C53_not_compressed",
    "Bls.Props.C53_not_standard",
    "Bls.Props.C53_separation"
   ],
   "note": "Note that the draft of the standard hashes the compressed key in proofs of possession, the code the 96 little-endian bytes (C53_not_compressed); the two give different proofs, with the secret key 1 as witness (C53_not_standard)."
  },
  {
   "property": "C54",
   "status": "proved",
   "theorems": [
    "Bls.Props.C54_order",
    "Bls.Props.C54_meaning",
    "Bls.Props.C54_equal",
    "Bls.Props.C54_points_false",
    "Bls.Props.C54_residues_false"
   ],
   "note": "The negative parts of the statement are proved with witnesses."
  },
  {
   "property": "C55",
   "status": "proved",
   "theorems": [
    "Bls.Props.C55_message",
    "Bls.Props.C55_key",
    "Bls.Props.C55_negate",
    "Bls.Props.C55_negate_both",
    "Bls.Props.C55_infinity"
   ],
   "note": "That the hypothesis of C55_key is not empty is shown with the hash of abc, evaluated in the kernel."
  },
  {
   "property": "C56",
   "status": "proved",
   "theorems": [
    "Bls.Props.C56_single",
    "Bls.Props.C56_common",
    "Bls.Props.C56_fast_single",
    "Bls.Props.C56_concat",
    "Bls.Props.C56_all",
    "Bls.Props.C56_converse_false",
    "Bls.Props.C56_sign_add"
   ],
   "note": ""
  },
  {
   "property": "C57",
   "status": "proved",
   "theorems": [
    "Bls.Props.C57_rogue_key"
   ],
   "note": ""
  },
  {
   "property": "C58",
   "status": "proved",
   "theorems": [
    "Bls.Props.C58_meaning",
    "Bls.Props.C58_operations_g1",
    "Bls.Props.C58_operations_g2",
    "Bls.Props.C58_vectors",
    "Bls.Props.C58_tests",
    "Bls.Props.C58_encodings",
    "Bls.Props.C58_pairing",
    "Bls.Props.C58_verifiers",
    "Bls.Props.C58_children",
    "Bls.Props.C58_two_forms",
    "Bls.Props.C58_exceptions"
   ],
   "note": "The exceptions named in the property are shown with witnesses in C58_exceptions."
  },
  {
   "property": "C59",
   "status": "proved",
   "theorems": [
    "Bls.Props.C59_transport_g1",
    "Bls.Props.C59_transport_g2",
    "Bls.Props.C59_compressed",
    "Bls.Props.C59_affine",
    "Bls.Props.C59_signed"
   ],
   "note": ""
  },
  {
   "property": "C60",
   "status": "proved",
   "theorems": [
    "Bls.Props.C60_field",
    "Bls.Props.C60_secret_key",
    "Bls.Props.C60_child"
   ],
   "note": ""
  },
  {
   "property": "C61",
   "status": "proved",
   "theorems": [
    "Bls.Props.C61_binary",
    "Bls.Props.C61_unary",
    "Bls.Props.C61_no_leak",
    "Bls.Props.C61_confined"
   ],
   "note": "The latency of single instructions is outside the model. The C++ wrapper of negate branches on isZero before the call."
  },
  {
   "property": "C62",
   "status": "proved",
   "theorems": [
    "Bls.Props.C62_glv",
    "Bls.Props.C62_psi",
    "Bls.Props.C62_tests"
   ],
   "note": ""
  },
  {
   "property": "C63",
   "status": "proved",
   "theorems": [
    "Bls.Props.C63_add",
    "Bls.Props.C63_sub",
    "Bls.Props.C63_neg",
    "Bls.Props.C63_mul",
    "Bls.Props.C63_inverse",
    "Bls.Props.C63_read",
    "Bls.Props.C63_words",
    "Bls.Props.C63_unreduced_false"
   ],
   "note": ""
  },
  {
   "property": "C64",
   "status": "partial",
   "theorems": [
    "Bls.Props.C64_words_partial",
    "Bls.Props.C64_hash_partial",
    "Bls.Props.C64_decode_false",
    "Bls.Props.C64_off_curve_false",
    "Bls.Props.C64_inverse_false",
    "Bls.Props.C64_verify_false",
    "Bls.Props.C64_ops_exact",
    "Bls.Props.C64_square_exact",
    "Bls.Props.C64_square_partial",
    "Bls.Props.C64_inverse_partial",
    "Bls.Props.C64_inverse_zero",
    "Bls.Props.C64_inverse_last_false"
   ],
   "note": "False of the code, because the portable add, subtract and square lose carries: bytes that only one of the builds takes for a point (in both directions), a wrong inverse, and coordinates of a public key under which the x86-64 build accepts signatures of every message and the portable build accepts none. Proved for all inputs: multiplication of valid elements, conversions, byte codecs, sign and order, and the field elements obtained from a message are the same. C64_ops_exact says exactly on which operands add, double, subtract, negate and the accumulating multiplications agree, C64_square_exact does for squares; C64_inverse_partial gives a condition under which inverses agree."
  },
  {
   "property": "C65",
   "status": "partial",
   "theorems": [
    "Bls.Props.C65_same",
    "Bls.Props.C65_calls",
    "Bls.Props.C65_count",
    "Bls.Props.C65_leak",
    "Bls.Props.C65_false"
   ],
   "note": "False of the code: scale is double-and-add with a branch per digit. C65_calls gives the sequence exactly, C65_leak says that it determines the key; it does not depend on the point or the message."
  },
  {
   "property": "C66",
   "status": "proved",
   "theorems": [
    "Bls.Props.C66_choice",
    "Bls.Props.C66_pointer",
    "Bls.Props.C66_runs",
    "Bls.Props.C66_needed",
    "Bls.Props.C66_product"
   ],
   "note": "Names beginning with BLS_DISABLE_BMI2 count whatever their value (BLS_DISABLE_BMI2=0 disables too)."
  },
  {
   "property": "C67",
   "status": "proved",
   "theorems": [
    "Bls.Props.C67_linear",
    "Bls.Props.C67_threshold",
    "Bls.Props.C67_wrong_part"
   ],
   "note": ""
  },
  {
   "property": "C68",
   "status": "proved",
   "theorems": [
    "Bls.Props.C68_path",
    "Bls.Props.C68_reveals",
    "Bls.Props.C68_convert"
   ],
   "note": "The condition on the carries is the one of C43."
  },
  {
   "property": "C69",
   "status": "proved",
   "theorems": [
    "Bls.Props.C69_rounds",
    "Bls.Props.C69_sizes",
    "Bls.Props.C69_remark_false",
    "Bls.Props.C69_times",
    "Bls.Props.C69_key_times"
   ],
   "note": "C69_remark_false is the negation of the remark in the source (src/fp.cpp:297); the inverse itself is right there too (C08)."
  },
  {
   "property": "C70",
   "status": "proved",
   "theorems": [
    "Bls.Props.C70_injective",
    "Bls.Props.C70_honest",
    "Bls.Props.C70_needed",
    "Bls.Props.C70_rogue"
   ],
   "note": ""
  },
  {
   "property": "C71",
   "status": "proved",
   "theorems": [
    "Bls.Props.C71_xmd",
    "Bls.Props.C71_hkdf",
    "Bls.Props.C71_hkdf_padding",
    "Bls.Props.C71_lamport",
    "Bls.Props.C71_siblings",
    "Bls.Props.C71_child_string"
   ],
   "note": ""
  },
  {
   "property": "C72",
   "status": "proved",
   "theorems": [
    "Bls.Props.C72_second",
    "Bls.Props.C72_first",
    "Bls.Props.C72_size",
    "Bls.Props.C72_final"
   ],
   "note": ""
  },
  {
   "property": "C73",
   "status": "proved",
   "theorems": [
    "Bls.Props.C73_sizes",
    "Bls.Props.C73_g1",
    "Bls.Props.C73_g2",
    "Bls.Props.C73_fromMessage",
    "Bls.Props.C73_hash",
    "Bls.Props.C73_hash_defined",
    "Bls.Props.C73_reached"
   ],
   "note": ""
  },
  {
   "property": "C74",
   "status": "proved",
   "theorems": [
    "Bls.Props.C74_list",
    "Bls.Props.C74_zero_iff",
    "Bls.Props.C74_outside"
   ],
   "note": "calculate returns 0, which is not in the target group, for second arguments of order 13"
  },
  {
   "property": "C75",
   "status": "proved",
   "theorems": [
    "Bls.Props.C75_add",
    "Bls.Props.C75_scale",
    "Bls.Props.C75_clear",
    "Bls.Props.C75_torsion",
    "Bls.Props.C75_example"
   ],
   "note": ""
  },
  {
   "property": "C76",
   "status": "proved",
   "theorems": [
    "Bls.Props.C76_own_curve_g1",
    "Bls.Props.C76_own_curve_g2",
    "Bls.Props.C76_cusp",
    "Bls.Props.C76_key",
    "Bls.Props.C76_order_two"
   ],
   "note": "scale does not check its point: with (1,1,1) it returns the secret key in another form"
  },
  {
   "property": "C77",
   "status": "proved",
   "theorems": [
    "Bls.Props.C77_signature",
    "Bls.Props.C77_infinity",
    "Bls.Props.C77_key",
    "Bls.Props.C77_key_infinity",
    "Bls.Props.C77_key_affine",
    "Bls.Props.C77_affine",
    "Bls.Props.C77_second",
    "Bls.Props.C77_both"
   ],
   "note": "signatures in compressed form are malleable as byte strings, a consequence of C28"
  },
  {
   "property": "C78",
   "status": "proved",
   "theorems": [
    "Bls.Props.C78_complete",
    "Bls.Props.C78_weight",
    "Bls.Props.C78_count",
    "Bls.Props.C78_subgroup_needed"
   ],
   "note": "the batch test is what a caller composes of the API; no function of the library does it alone"
  },
  {
   "property": "C79",
   "status": "proved",
   "theorems": [
    "Bls.Props.C79_honest",
    "Bls.Props.C79_bitmap",
    "Bls.Props.C79_bit",
    "Bls.Props.C79_move"
   ],
   "note": ""
  },
  {
   "property": "C80",
   "status": "proved",
   "theorems": [
    "Bls.Props.C80_hmac",
    "Bls.Props.C80_expand",
    "Bls.Props.C80_expand_leak",
    "Bls.Props.C80_secret_key",
    "Bls.Props.C80_derive_child",
    "Bls.Props.C80_balanced",
    "Bls.Props.C80_short_seed",
    "Bls.Props.C80_first_attempt",
    "Bls.Props.C80_uninitialised_key",
    "Bls.Props.C80_repeated_block",
    "Bls.Props.C80_wrong_key"
   ],
   "note": "blocks are named by the number of their malloc; addresses are not modelled"
  },
  {
   "property": "C81",
   "status": "proved",
   "theorems": [
    "Bls.Props.C81_rogue",
    "Bls.Props.C81_extract",
    "Bls.Props.C81_forgery",
    "Bls.Props.C81_converse",
    "Bls.Props.C81_replay"
   ],
   "note": ""
  },
  {
   "property": "C82",
   "status": "proved",
   "theorems": [
    "Bls.Props.C82_calls",
    "Bls.Props.C82_unique",
    "Bls.Props.C82_bounds",
    "Bls.Props.C82_first",
    "Bls.Props.C82_twice",
    "Bls.Props.C82_twice_differs",
    "Bls.Props.C82_continue"
   ],
   "note": "the library itself digests each object once"
  },
  {
   "property": "C83",
   "status": "proved",
   "theorems": [
    "Bls.Props.C83_zero",
    "Bls.Props.C83_registered",
    "Bls.Props.C83_absorb",
    "Bls.Props.C83_only",
    "Bls.Props.C83_aggregate"
   ],
   "note": ""
  },
  {
   "property": "C84",
   "status": "proved",
   "theorems": [
    "Bls.Props.C84_same",
    "Bls.Props.C84_rounds",
    "Bls.Props.C84_sharp",
    "Bls.Props.C84_library",
    "Bls.Props.C84_differs"
   ],
   "note": "the values are those of C15"
  },
  {
   "property": "C85",
   "status": "proved",
   "theorems": [
    "Bls.Props.C85_sum_g1",
    "Bls.Props.C85_sum_g2",
    "Bls.Props.C85_sharp",
    "Bls.Props.C85_pairing",
    "Bls.Props.C85_pairing_unbounded",
    "Bls.Props.C85_throw"
   ],
   "note": "the number of calls is that of C25 and C32; work is counted in operations on points and lines"
  },
  {
   "property": "C86",
   "status": "partial",
   "theorems": [
    "Bls.Props.C86_false",
    "Bls.Props.C86_master_partial",
    "Bls.Props.C86_child_partial"
   ],
   "note": "false: the first salt is not hashed as the final EIP and the drafts from 04 on demand (C86_false: the seed of the first test of the EIP); the keys agree exactly if the attempt with the unhashed salt is zero or happens to be the same number; they are those of the version of 2020 (C38)"
  },
  {
   "property": "C87",
   "status": "partial",
   "theorems": [
    "Bls.Props.C87_false",
    "Bls.Props.C87_core_pairing",
    "Bls.Props.C87_pop_partial",
    "Bls.Props.C87_verify_partial",
    "Bls.Props.C87_aggregate_partial",
    "Bls.Props.C87_aggregate_nonzero",
    "Bls.Props.C87_fast_partial",
    "Bls.Props.C87_fast_both",
    "Bls.Props.C87_fast_false",
    "Bls.Props.C87_pop_false"
   ],
   "note": "false: the library accepts infinity under keys that are or sum to infinity, pop_fast_aggregate_verify hashes under the tag of the basic scheme (C87_fast_false: the draft's signature of abc for the secret key 1 is rejected and the one of sign is rejected by the draft) and pop_verify hashes another form of the key (C87_pop_false); the _partial theorems say exactly what is accepted in the draft's terms"
  },
  {
   "property": "C88",
   "status": "partial",
   "theorems": [
    "Bls.Props.C88_false",
    "Bls.Props.C88_done_partial",
    "Bls.Props.C88_public_key",
    "Bls.Props.C88_child",
    "Bls.Props.C88_verify",
    "Bls.Props.C88_forged"
   ],
   "note": "false: the constructors are not constexpr, so g1::BASE and g2::BASE are zeros until the initialisers of g.cpp have run: then public_key returns infinity, child keys are the parent and verify accepts anything under infinity; right once all units are initialised, in any order (C88_done_partial)"
  },
  {
   "property": "C89",
   "status": "proved",
   "theorems": [
    "Bls.Props.C89_fp",
    "Bls.Props.C89_fp_one",
    "Bls.Props.C89_fp_fails",
    "Bls.Props.C89_fp_mul",
    "Bls.Props.C89_fp2",
    "Bls.Props.C89_fp2_one",
    "Bls.Props.C89_fp2_fails"
   ],
   "note": ""
  },
  {
   "property": "C90",
   "status": "proved",
   "theorems": [
    "Bls.Props.C90_multiples",
    "Bls.Props.C90_value",
    "Bls.Props.C90_equal",
    "Bls.Props.C90_one",
    "Bls.Props.C90_opening"
   ],
   "note": ""
  },
  {
   "property": "C91",
   "status": "proved",
   "theorems": [
    "Bls.Props.C91_g1_add",
    "Bls.Props.C91_g2_add",
    "Bls.Props.C91_g1_msm",
    "Bls.Props.C91_g2_msm",
    "Bls.Props.C91_pairing_check",
    "Bls.Props.C91_map_g1",
    "Bls.Props.C91_map_g2",
    "Bls.Props.C91_default_options"
   ],
   "note": ""
  },
  {
   "property": "C92",
   "status": "proved",
   "theorems": [
    "Bls.Props.C92_share",
    "Bls.Props.C92_dealer",
    "Bls.Props.C92_needs_subgroup"
   ],
   "note": ""
  },
  {
   "property": "C93",
   "status": "proved",
   "theorems": [
    "Bls.Props.C93_unblind",
    "Bls.Props.C93_wrong_factor",
    "Bls.Props.C93_hides",
    "Bls.Props.C93_unchecked"
   ],
   "note": ""
  },
  {
   "property": "C94",
   "status": "proved",
   "theorems": [
    "Bls.Props.C94_unlock",
    "Bls.Props.C94_fresh",
    "Bls.Props.C94_three",
    "Bls.Props.C94_three_one"
   ],
   "note": ""
  },
  {
   "property": "C95",
   "status": "proved",
   "theorems": [
    "Bls.Props.C95_fp_mod",
    "Bls.Props.C95_fp_mul",
    "Bls.Props.C95_fp_exp",
    "Bls.Props.C95_g1_add",
    "Bls.Props.C95_g2_add",
    "Bls.Props.C95_g1_sum",
    "Bls.Props.C95_g2_sum",
    "Bls.Props.C95_pairing",
    "Bls.Props.C95_g1_map",
    "Bls.Props.C95_g2_map",
    "Bls.Props.C95_strings"
   ],
   "note": ""
  },
  {
   "property": "C96",
   "status": "proved",
   "theorems": [
    "Bls.Props.C96_decode",
    "Bls.Props.C96_strings",
    "Bls.Props.C96_char_false",
    "Bls.Props.C96_bytesToHex",
    "Bls.Props.C96_hmac",
    "Bls.Props.C96_expand",
    "Bls.Props.C96_secretKey",
    "Bls.Props.C96_deriveChildSk",
    "Bls.Props.C96_weightedSum"
   ],
   "note": ""
  },
  {
   "property": "C97",
   "status": "proved",
   "theorems": [
    "Bls.Props.C97_hmac",
    "Bls.Props.C97_expand",
    "Bls.Props.C97_secretKey",
    "Bls.Props.C97_secretKey_readable",
    "Bls.Props.C97_seed_determined",
    "Bls.Props.C97_deriveChildSk",
    "Bls.Props.C97_short_seed"
   ],
   "note": "arrays on the stack are not followed, only blocks of malloc and of the vector"
  },
  {
   "property": "C98",
   "status": "proved",
   "theorems": [
    "Bls.Props.C98_same",
    "Bls.Props.C98_add_tests",
    "Bls.Props.C98_double_tests",
    "Bls.Props.C98_multiply_tests",
    "Bls.Props.C98_square_tests",
    "Bls.Props.C98_add",
    "Bls.Props.C98_double",
    "Bls.Props.C98_subtract",
    "Bls.Props.C98_negate",
    "Bls.Props.C98_multiply",
    "Bls.Props.C98_square",
    "Bls.Props.C98_reduction_unique",
    "Bls.Props.C98_doublings"
   ],
   "note": "conditions of if statements of the source; what a compiler makes of them is outside; operands on which the routine is wrong (C03) are left out"
  },
  {
   "property": "C99",
   "status": "proved",
   "theorems": [
    "Bls.Props.C99_accesses",
    "Bls.Props.C99_leak",
    "Bls.Props.C99_leak_g2"
   ],
   "note": "accesses inside the point additions are not followed"
  }
 ]
}