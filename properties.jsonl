{"id": "C01", "title": "Base-field arithmetic is exact on x86-64", "statement": "On an x86-64 build, for every two valid base-field elements (raw value below p), fp add, subtract, negate, dbl, multiply and square return a valid element that represents exactly the sum, difference, opposite, double, product and square modulo p of what the operands represent, on both CPU dispatch paths (plain and BMI2/ADX).", "quantifier": "all pairs of valid 381-bit field elements, both multiplication routines", "why_tests_cant": "2^762 operand pairs; carry bugs show up with probability about 2^-64", "anchors": ["src/arithmetic.cpp:_negate,_square,resolve_blsmul", "src/arithmetic.s:_add,_double,_subtract,__negate,__multiply,__mul_ex", "src/fp.cpp:fp::add,fp::subtract,fp::multiply,fp::square,fp::negate,fp::dbl"]}
{"id": "C02", "title": "CPU dispatch is unobservable", "statement": "The two x86-64 multiplication routines selected at load time by CPU features / the BLS_DISABLE_BMI2 variable store the same six words for every pair of operands whose product is below 2^384*p (in particular all operands below 3p), so results never depend on the machine.", "quantifier": "all operand pairs with x*y < 2^384*p, including lazily-added operands", "why_tests_cant": "only one routine runs on a given test machine, and a divergence would be on a measure-zero set", "anchors": ["src/arithmetic.cpp:resolve_blsmul,cpu_has_bmi2_and_adx", "src/arithmetic.s:__multiply,__mul_ex"]}
{"id": "C03", "title": "Portable (non x86-64) base-field arithmetic is exact", "statement": "On a non-x86-64 build, for every two valid base-field elements fp add, subtract, negate, dbl, multiply and square return the exact result modulo p.", "quantifier": "all pairs of valid field elements on the portable backend", "why_tests_cant": "failures need a limb equal to 2^64-1 or a product limb of all ones: random testing never hits them", "anchors": ["src/arithmetic.cpp:_add,_double,_subtract,_negate,_multiply,_square,Add64,Sub64,madd2s,madd1s"]}
{"id": "C04", "title": "Carry primitives", "statement": "Add64(x,y,c) returns the low word and the carry-out of x+y+c and Sub64(x,y,b) the low word and borrow-out of x-y-b for every x,y and every carry/borrow in {0,1}; Mul64 returns the full 128-bit product; madd0/1/2/3 and the helpers of the squaring return the sums their comments promise whenever those fit.", "quantifier": "all 64-bit words and both carry values", "why_tests_cant": "2^129 inputs; the wrong case is a single value of y", "anchors": ["src/arithmetic.cpp:Add64,Sub64,Mul64,madd0,madd1,madd2,madd3,madd2s,madd1s"]}
{"id": "C05", "title": "In-place operation is safe (aliasing) and touches nothing else", "statement": "Every x86-64 arithmetic routine leaves in the destination exactly the result computed from the operands' values before the call, even if the destination is the same object as one or both operands, changes no other word of caller memory, and returns with the callee-saved registers and the stack pointer unchanged.", "quantifier": "all operand values, all placements of the three objects that are equal or disjoint", "why_tests_cant": "aliasing combinations times all values; tests check only a few aliased calls", "anchors": ["src/arithmetic.s:_add,_ladd,_double,_ldouble,_subtract,_lsubtract,__negate,__multiply,__mul_ex"]}
{"id": "C06", "title": "Montgomery conversion is a bijection", "statement": "toMont followed by fromMont, and fromMont followed by toMont, return the original element for every valid element; toMont of any six words (valid or not) is valid and represents that integer modulo p.", "quantifier": "all valid elements / all 384-bit words", "why_tests_cant": "2^381 values", "anchors": ["src/fp.cpp:fp::toMont,fp::fromMont"]}
{"id": "C07", "title": "Field element codec: accept exactly canonical encodings, round-trip", "statement": "fp::fromBytesBE/LE with validity check accepts a 48-byte string iff the integer it encodes is below p, and toBytesBE/LE of the accepted element returns the same 48 bytes; conversely decoding the encoding of a valid element returns it. Big- and little-endian encodings are reverses of each other.", "quantifier": "all 48-byte strings, all valid elements, both byte orders, both Montgomery options", "why_tests_cant": "2^384 strings, including the boundary p-1, p, p+1 and all non-canonical ones", "anchors": ["src/fp.cpp:fp::fromBytesBE,fp::fromBytesLE,fp::toBytesBE,fp::toBytesLE,fp::isValid"]}
{"id": "C08", "title": "Base-field inversion", "statement": "fp::inverse terminates and returns a valid element; for every nonzero valid x, x.multiply(x.inverse()) is one, and the inverse of zero is zero.", "quantifier": "all valid elements", "why_tests_cant": "the binary inversion loop has data-dependent length; 2^381 inputs", "anchors": ["src/fp.cpp:fp::inverse,fp::div2,fp::mul2"]}
{"id": "C09", "title": "Exponentiation", "statement": "x.exp(s) is x to the power of the integer encoded by s for every word-array length and every s, in fp, fp2, fp6 and fp12 (x.exp(0) is one, also for x = 0).", "quantifier": "all valid x, all exponents of any length", "why_tests_cant": "unbounded exponent length", "anchors": ["include/bls12-381/scalar.hpp:fp::exp,fp2::exp,fp6::exp,fp12::exp"]}
{"id": "C10", "title": "Square roots in the base field", "statement": "fp::sqrt returns true iff the element is a square, and then the stored root squares back to it (also when the output aliases the input); isQuadraticNonResidue is true iff the element is zero or not a square.", "quantifier": "all valid elements", "why_tests_cant": "half of 2^381 elements on each side; zero is a special case", "anchors": ["src/fp.cpp:fp::sqrt,fp::isQuadraticNonResidue"]}
{"id": "C11", "title": "Sign and lexicographic order select exactly one of y and -y", "statement": "For every nonzero valid y exactly one of y and -y is lexicographically largest and it is the one whose canonical integer exceeds (p-1)/2; sign() is true iff the canonical integer is even; same for fp2 (imaginary part first for the lexicographic order, real part first for sign).", "quantifier": "all nonzero elements of fp and fp2", "why_tests_cant": "boundary (p-1)/2 vs (p+1)/2 cannot be sampled", "anchors": ["src/fp.cpp:fp::isLexicographicallyLargest,fp::sign,fp2::isLexicographicallyLargest,fp2::sign"]}
{"id": "C12", "title": "Scalar byte codec", "statement": "scalar::fromBytesBE/LE and toBytesBE/LE are mutually inverse for every array length N, encode the positional integer value, and BE is the reversal of LE.", "quantifier": "all lengths N, all word arrays, all byte strings", "why_tests_cant": "unbounded N, 2^(64N) values", "anchors": ["include/bls12-381/scalar.hpp:toBytesLE,toBytesBE,fromBytesLE,fromBytesBE"]}
{"id": "C13", "title": "Scalar addition and multiplication are exact integer operations", "statement": "scalar::add<NC>(a,b) returns the array whose integer value is a+b whenever the sum fits in NC words and throws otherwise; scalar::multiply<NC>(a,b) returns the exact product whenever it fits.", "quantifier": "all word arrays of all lengths", "why_tests_cant": "needs limb 2^64-1 meeting a carry: probability 2^-64 per limb", "anchors": ["include/bls12-381/scalar.hpp:scalar::add,scalar::multiply", "src/arithmetic.cpp:Add64"]}
{"id": "C14", "title": "Scalar comparison, equality, bit length and right shift", "statement": "scalar::cmp orders arrays by integer value, equal decides equality, bitLength(s) is the number of binary digits of s (0 for 0) and rsh(s,k) is floor(s/2^k) for every k, including k >= 64N.", "quantifier": "all lengths N, all arrays, all shift amounts", "why_tests_cant": "unbounded shift amounts and lengths", "anchors": ["include/bls12-381/scalar.hpp:cmp,equal,bitLength,rsh"]}
{"id": "C15", "title": "Multi-precision division and reduction", "statement": "bn_divn_safe(a,b) returns quotient and remainder with a = quotient*b + remainder and remainder < b, for every dividend of N words and every divisor of M <= N words whose top word is in [1,2^63) (in particular the group order and the field prime); no buffer is accessed out of bounds. If the highest bit of the divisor is set, the same holds unless N = M and the upper 63 bits of the dividend are zero; exactly then memory outside the buffers is written. fp::modPrime(k) represents k mod p for every k.", "quantifier": "all dividends and divisors of all sizes in the stated range", "why_tests_cant": "Knuth-D correction branches are taken with probability about 2^-64", "anchors": ["src/scalar.cpp:bn_divn_low,bn_lshb_low,dv_lshd,dv_cmp,bn_subn_low,dv_rshd,bn_mul1_low,bn_sub1_low,bn_addn_low,bn_add1_low,bn_rshb_low", "include/bls12-381/scalar.hpp:bn_divn_safe,fp::modPrime"]}
{"id": "C16", "title": "Hex codec", "statement": "hexToBytes(bytesToHex(b)) = b for every byte string b; decoding ignores letter case and accepts the digits with or without 0x prefix; odd-length strings give the empty result; exactly the empty string and the string 0 make hexToBytes read out of bounds.", "quantifier": "all byte strings of any length", "why_tests_cant": "unbounded length", "anchors": ["src/scalar.cpp:hexToBytes,bytesToHex"]}
{"id": "C17", "title": "fp2 is the field Fp[u]/(u^2+1)", "statement": "fp2 add, subtract, negate, dbl, conjugate, multiply, square, mulByNonResidue, mulByB, mulByFq and inverse return valid elements and compute in Fp[u]/(u^2+1); inverse(0)=0; frobeniusMap(k) is x -> x^(p^k) for every k.", "quantifier": "all valid fp2 elements, all k", "why_tests_cant": "2^1524 operand pairs; lazy (unreduced) intermediate sums", "anchors": ["src/fp.cpp:fp2::multiply,fp2::square,fp2::inverse,fp2::mulByNonResidue,fp2::mulByB,fp2::frobeniusMap,fp2::conjugate"]}
{"id": "C18", "title": "Square roots in fp2", "statement": "fp2::sqrt returns true iff the element is a square and then the stored root squares back to it; isQuadraticNonResidue is true iff the element is zero or not a square.", "quantifier": "all valid fp2 elements", "why_tests_cant": "special branch when alpha = -1", "anchors": ["src/fp.cpp:fp2::sqrt,fp2::isQuadraticNonResidue"]}
{"id": "C19", "title": "fp6 and fp12 are the stated tower fields", "statement": "fp6 operations compute in Fp2[v]/(v^3-(1+u)) and fp12 operations in Fp6[w]/(w^2-v): add, subtract, negate, dbl, multiply, square, mulBy01, mulBy1, mulByNonResidue, mulByBaseField, mulBy014, conjugate and inverse (x*inverse(x)=1 for every nonzero x), with valid results.", "quantifier": "all valid fp6/fp12 elements", "why_tests_cant": "2^4572 elements; Karatsuba/Toom style shortcuts must agree with schoolbook products everywhere", "anchors": ["src/fp.cpp:fp6::multiplyAssign,fp6::squareAssign,fp6::mulBy01,fp6::mulBy1,fp6::inverse,fp12::multiplyAssign,fp12::squareAssign,fp12::inverse,fp12::mulBy014Assign"]}
{"id": "C20", "title": "Frobenius maps", "statement": "For every element x of fp2, fp6 and fp12 and every supported power k, frobeniusMap(k) and frobeniusMapAssign(k) both give x^(p^k).", "quantifier": "all elements, all powers", "why_tests_cant": "table constants times all elements; one branch per residue of k", "anchors": ["src/fp.cpp:fp6::frobeniusMap,fp6::frobeniusMapAssign,fp12::frobeniusMap,fp12::frobeniusMapAssign,frobeniusCoeffs61,frobeniusCoeffs62,frobeniusCoeffs12"]}
{"id": "C21", "title": "Cyclotomic squaring and exponentiation", "statement": "For every fp12 element x of the cyclotomic subgroup (x^(p^4-p^2+1)=1), cyclotomicSquare(x) = x*x and cyclotomicExp(s) = exp(s) = x^s for all s.", "quantifier": "all cyclotomic elements, all exponents", "why_tests_cant": "equality is false outside the subgroup, so tests on random elements say nothing", "anchors": ["src/fp.cpp:fp12::cyclotomicSquareAssign,fp12::fp4Square", "include/bls12-381/scalar.hpp:fp12::cyclotomicExp"]}
{"id": "C22", "title": "Group law on both curves", "statement": "For all points of y^2=x^3+4 over Fp (g1) and y^2=x^3+4(1+u) over Fp2 (g2) in any Jacobian representation, add, dbl, negate, subtract return a representation of the sum, double, opposite and difference in the elliptic-curve group, including P+P, P+(-P) and the point at infinity; results have valid coordinates.", "quantifier": "all pairs of curve points, all Jacobian representatives", "why_tests_cant": "exceptional cases (equal points in different representations, inverse points) are measure zero", "anchors": ["src/g.cpp:g1::addAssign,g1::doubleAssign,g1::negate,g1::subtract,g2::addAssign,g2::doubleAssign,g2::negate,g2::subtract"]}
{"id": "C23", "title": "Point equality, on-curve test and affine normalisation", "statement": "equal is true iff both arguments denote the same group element; isOnCurve is true iff the coordinates denote a curve point; affine returns a representation of the same point whose z is one (or the point at infinity).", "quantifier": "all Jacobian triples with valid coordinates", "why_tests_cant": "infinitely many representations per point", "anchors": ["src/g.cpp:g1::equal,g1::isOnCurve,g1::affine,g2::equal,g2::isOnCurve,g2::affine"]}
{"id": "C24", "title": "Scalar multiplication", "statement": "P.scale(s) is the integer multiple s*P in the group for every curve point P and every scalar of every word length (no reduction needed, s may exceed the group order).", "quantifier": "all points, all scalars of any length", "why_tests_cant": "unbounded scalars", "anchors": ["include/bls12-381/scalar.hpp:g1::scale,g2::scale"]}
{"id": "C25", "title": "Multi-scalar multiplication", "statement": "weightedSum(points, scalars) is sum e_i*P_i over the common prefix of both lists for every length and every 256-bit scalar, and does not depend on the yield callback. The number of calls of yield depends only on the number of points; an exception thrown by yield reaches the caller.", "quantifier": "all lists of points and scalars of any length", "why_tests_cant": "window size changes with the list length; unbounded lengths", "anchors": ["src/g.cpp:g1::weightedSum,g2::weightedSum"]}
{"id": "C26", "title": "Uncompressed point codecs", "statement": "fromAffineBytes / fromJacobianBytes (BE and LE) with the check enabled return a point iff all coordinates are canonical and the point is on the curve (all-zero affine bytes denote infinity), and encoding then decoding returns the same group element; decoding then encoding affine bytes returns the same bytes.", "quantifier": "all byte strings and all curve points, g1 and g2", "why_tests_cant": "2^768 / 2^2304 strings", "anchors": ["src/g.cpp:g1::fromAffineBytesBE,g1::fromJacobianBytesBE,g1::toAffineBytesBE,g1::toJacobianBytesBE,g2::fromAffineBytesBE,g2::toAffineBytesBE"]}
{"id": "C27", "title": "Compressed point codec round-trip", "statement": "For every curve point P, fromCompressedBytesBE(toCompressedBytesBE(P)) succeeds and denotes P (finite points and infinity).", "quantifier": "all points of both curves, any representation", "why_tests_cant": "2^381 points and the representation of infinity", "anchors": ["src/g.cpp:g1::toCompressedBytesBE,g1::fromCompressedBytesBE,g2::toCompressedBytesBE,g2::fromCompressedBytesBE"]}
{"id": "C28", "title": "Compressed decoding accepts only canonical encodings", "statement": "If fromCompressedBytesBE(b) succeeds then b is the compressed encoding of the returned point; in particular every decoded point is on the curve, and no two different byte strings decode to the same point.", "quantifier": "all 48- and 96-byte strings", "why_tests_cant": "the non-canonical strings are a thin set", "anchors": ["src/g.cpp:g1::fromCompressedBytesBE,g2::fromCompressedBytesBE"]}
{"id": "C29", "title": "Subgroup membership test", "statement": "For every on-curve point P, inCorrectSubgroup() is true iff q*P is the point at infinity, where q is the prime group order.", "quantifier": "all curve points of g1 and g2, inside and outside the prime-order subgroup", "why_tests_cant": "the test replaces a multiplication by q with an endomorphism identity; the cofactor has many small subgroups", "anchors": ["src/g.cpp:g1::inCorrectSubgroup,g2::inCorrectSubgroup,g1::glvEndomorphism,g2::psi"]}
{"id": "C30", "title": "Cofactor clearing lands in the prime-order subgroup", "statement": "For every on-curve point P, clearCofactor() is on the curve and q*clearCofactor(P) is infinity; it is a group homomorphism.", "quantifier": "all curve points of g1 and g2", "why_tests_cant": "2^381 / 2^762 points", "anchors": ["src/g.cpp:g1::clearCofactor,g2::clearCofactor"]}
{"id": "C31", "title": "Map to curve returns a valid subgroup point", "statement": "For every field element e, mapToCurve(e) is on the curve and in the prime-order subgroup.", "quantifier": "all fp (g1) and fp2 (g2) elements", "why_tests_cant": "exceptional inputs of the SWU map and of the isogeny are isolated field elements", "anchors": ["src/g.cpp:g1::mapToCurve,g1::swuMapG1,g1::isogenyMapG1,g2::mapToCurve,g2::swuMapG2,g2::isogenyMap"]}
{"id": "C32", "title": "Pairing product is a homomorphism of the list of pairs", "statement": "pairing::calculate on the concatenation of two lists of pairs is the product of the two results; the result is independent of the order of the pairs, of the yield callback, and is one for the empty list.", "quantifier": "all lists of pairs of valid points of any length", "why_tests_cant": "unbounded list length, all permutations", "anchors": ["src/pairing.cpp:calculate,miller_loop,final_exponentiation,add_pair"]}
{"id": "C33", "title": "Final exponentiation and GT membership", "statement": "final_exponentiation raises every nonzero f to the fixed power 3*(p^12-1)/q; hence every nonzero pairing value v satisfies isGtValid (v^q = 1).", "quantifier": "all nonzero fp12 elements", "why_tests_cant": "2^4572 elements; addition chain with Frobenius shortcuts", "anchors": ["src/pairing.cpp:final_exponentiation", "src/fp.cpp:fp12::isGtValid"]}
{"id": "C34", "title": "Bilinearity of the pairing", "statement": "For subgroup points P,P' of g1 and Q,Q' of g2: e(P+P',Q)=e(P,Q)*e(P',Q), e(P,Q+Q')=e(P,Q)*e(P,Q') and e(aP,bQ)=e(P,Q)^(ab), with e computed through add_pair and calculate (points at infinity give 1).", "quantifier": "all subgroup points, all scalars", "why_tests_cant": "2^510 pairs of points", "anchors": ["src/pairing.cpp:calculate,add_pair,miller_loop,pre_compute,doubling_step,addition_step"]}
{"id": "C35", "title": "SHA-256 streaming equals the standard", "statement": "A fresh sha256 object fed with any sequence of update calls and then digested outputs the FIPS 180-4 SHA-256 of the concatenation of the pieces.", "quantifier": "all messages below 2^61 bytes, all ways of splitting them", "why_tests_cant": "unbounded messages and splits; padding boundary cases", "anchors": ["src/sha256.cpp:sha256::update,sha256::digest,sha256::transform,sha256::pad"]}
{"id": "C36", "title": "HMAC and HKDF equal RFC 2104 / RFC 5869", "statement": "hkdf256_hmac, hkdf256_extract and hkdf256_expand compute HMAC-SHA-256, HKDF-Extract and HKDF-Expand for every key, message, info and every output length 1..8160; expand returns an error for L > 8160 (and for L = 0).", "quantifier": "all keys, messages, infos and lengths", "why_tests_cant": "keys of every length relative to the block size, every output length", "anchors": ["src/signatures.cpp:hkdf256_hmac,hkdf256_extract,hkdf256_expand,hkdf256_extract_expand"]}
{"id": "C37", "title": "expand_message_xmd equals RFC 9380", "statement": "xmd_sh256 writes exactly expand_message_xmd(msg, DST, len) of RFC 9380 (SHA-256) for every message, every DST of at most 255 bytes and every length up to 8160, and returns -1 and writes nothing otherwise.", "quantifier": "all messages, tags and lengths", "why_tests_cant": "unbounded message length, all output lengths", "anchors": ["src/signatures.cpp:xmd_sh256"]}
{"id": "C38", "title": "Secret keys are in range", "statement": "If secret_key(seed) returns for a seed of at least 32 bytes, the result is HKDF output mod q of the first salt in the salt chain that gives a nonzero value, and lies in [1,q-1]; shorter seeds give 0. derive_child_sk returns keys in [1,q-1].", "quantifier": "all seeds", "why_tests_cant": "unbounded seeds; zero retry loop is never reached by tests", "anchors": ["src/signatures.cpp:secret_key,derive_child_sk,parent_sk_to_lamport_pk"]}
{"id": "C39", "title": "Secret key byte codec", "statement": "sk_from_bytes(sk_to_bytes(sk)) = sk for every sk < q; sk_from_bytes(b,true) is the big-endian integer of b mod q; sk_from_bytes(b,false) is that integer if it is below q and 0 otherwise.", "quantifier": "all 32-byte strings and all keys", "why_tests_cant": "2^256 strings and the boundary q", "anchors": ["src/signatures.cpp:sk_to_bytes,sk_from_bytes"]}
{"id": "C40", "title": "Secret key aggregation is addition modulo q", "statement": "aggregate_secret_keys(sks) is the sum of the keys modulo q for every list of keys below q (0 for the empty list), independent of order.", "quantifier": "all lists of keys of any length", "why_tests_cant": "needs a limb of 2^64-1 meeting a carry: probability 2^-64", "anchors": ["src/signatures.cpp:aggregate_secret_keys", "include/bls12-381/scalar.hpp:scalar::add"]}
{"id": "C41", "title": "Aggregation is the group sum", "statement": "aggregate_public_keys and aggregate_signatures return the group sum of their arguments, independent of order and grouping; the templated versions return the sum over exactly the indices selected by the predicate; the empty aggregate is infinity.", "quantifier": "all lists of curve points, all accessors and predicates", "why_tests_cant": "unbounded lists, all permutations", "anchors": ["src/signatures.cpp:aggregate_public_keys,aggregate_signatures", "include/bls12-381/signatures.hpp:aggregate_public_keys,aggregate_signatures"]}
{"id": "C42", "title": "public_key is a homomorphism consistent with aggregation", "statement": "public_key(sk) is sk*G in affine form; the public key of (a+b mod q) equals the sum of the public keys of a and b; public_key(sk) is infinity iff q divides sk.", "quantifier": "all keys", "why_tests_cant": "2^256 keys", "anchors": ["src/signatures.cpp:public_key,aggregate_public_keys,aggregate_secret_keys"]}
{"id": "C43", "title": "Unhardened derivation commutes with public_key", "statement": "derive_child_g1_unhardened(public_key(sk), i) denotes the same point as public_key(derive_child_sk_unhardened(sk, i)) for every key and every index.", "quantifier": "all keys below q and all 32-bit indices", "why_tests_cant": "2^287 combinations; breaks exactly when a carry is lost", "anchors": ["src/signatures.cpp:derive_child_sk_unhardened,derive_child_g1_unhardened"]}
{"id": "C44", "title": "Hashing to the signature group", "statement": "fromMessage(msg,dst) is, for every message and every tag of at most 255 bytes, a point of the prime-order subgroup of g2, equal to clearCofactor(iso(swu(u0)) + iso(swu(u1))) with u0,u1 from expand_message_xmd.", "quantifier": "all messages and tags", "why_tests_cant": "unbounded messages", "anchors": ["src/signatures.cpp:fromMessage"]}
{"id": "C45", "title": "Honest signatures verify", "statement": "verify(public_key(sk), m, sign(sk, m)) is true for every secret key and every message; likewise aggregate_verify on the aggregate of honest signatures, pop_verify(public_key(sk), pop_prove(sk)) and pop_fast_aggregate_verify on a common message.", "quantifier": "all keys (or lists of keys), all messages", "why_tests_cant": "2^256 keys times unbounded messages", "anchors": ["src/signatures.cpp:sign,verify,aggregate_verify,pop_prove,pop_verify,pop_fast_aggregate_verify"]}
{"id": "C46", "title": "Verification accepts only the signature", "statement": "If verify(pk, m, s) is true then pk and s are on the curve and in the prime-order subgroup, and s is the unique point with s = sk*H(m) where pk = sk*G: two different accepted signature points for the same (pk,m) do not exist. Off-curve or wrong-subgroup inputs are rejected by verify, aggregate_verify and pop_verify.", "quantifier": "all triples (pk, message, signature)", "why_tests_cant": "adversarial inputs outside the subgroup", "anchors": ["src/signatures.cpp:verify,aggregate_verify,pop_verify"]}
{"id": "C47", "title": "The identity is not accepted as a public key", "statement": "verify, pop_verify and aggregate_verify reject the point at infinity as a public key (KeyValidate of the BLS signature draft), so nobody can produce a key/signature pair valid for every message.", "quantifier": "all messages, all representations of infinity", "why_tests_cant": "one particular input among 2^381", "anchors": ["src/signatures.cpp:verify,pop_verify,aggregate_verify", "src/pairing.cpp:add_pair,calculate"]}
{"id": "C48", "title": "Aggregate verification decision rule", "statement": "aggregate_verify(pks, msgs, s, dup) is false when the lists have different lengths, when dup is set and two messages coincide, or when any key or the signature is off curve or outside the subgroup; otherwise it is true iff prod e(pk_i,H(m_i)) = e(G,s). Its answer is invariant under permuting the (key, message) pairs.", "quantifier": "all lists of keys and messages of any length", "why_tests_cant": "unbounded lists and all permutations", "anchors": ["src/signatures.cpp:aggregate_verify"]}
{"id": "C49", "title": "Fast aggregate verification", "statement": "pop_fast_aggregate_verify(pks, m, s) is false for the empty list and otherwise equals verify(sum pks, m, s), independent of the order of keys.", "quantifier": "all nonempty key lists, all messages and signatures", "why_tests_cant": "unbounded lists", "anchors": ["src/signatures.cpp:pop_fast_aggregate_verify"]}
{"id": "C50", "title": "Tower-element codecs", "statement": "fp2, fp6 and fp12 fromBytes (BE and LE) accept exactly the strings all of whose 48-byte coordinates are canonical, and are inverse to toBytes.", "quantifier": "all byte strings of 96, 288 and 576 bytes and all valid elements", "why_tests_cant": "2^4608 strings", "anchors": ["src/fp.cpp:fp2::fromBytesBE,fp6::fromBytesBE,fp12::fromBytesBE,fp2::toBytesBE,fp6::toBytesBE,fp12::toBytesBE"]}
{"id": "C51", "title": "No undefined behaviour on documented inputs", "statement": "For all inputs inside the documented preconditions the modelled functions read and write inside their buffers and never shift by the word size, and each call that can have undefined behaviour is identified: hexToBytes on the strings \"\" and \"0\", hexToBytes<N> on too few digits, frobeniusMap of fp12 with power >= 12, miller_loop with no pairs, scalar::multiply with a result array shorter than NA+NB, fromMessage with a tag longer than 255 bytes (uninitialised buffer), messages whose length is a negative int, bn_divn_low with a divisor that uses its top bit, hkdf256_hmac with a key of more than 64 bytes (memcpy of an array onto itself). Failing allocations, static initialisation and narrow size_t are C80, C88 and C96.", "quantifier": "all inputs", "why_tests_cant": "sanitizers only see executed paths", "anchors": ["src/scalar.cpp:hexToBytes", "src/fp.cpp:fp12::frobeniusMap", "src/pairing.cpp:miller_loop", "include/bls12-381/scalar.hpp:scalar::multiply", "src/signatures.cpp:fromMessage"]}
{"id": "C52", "title": "In-place functions may be called with the destination as operand", "statement": "For all objects x, y, z, equal or not, the functions that write through a pointer or reference (the portable _add, _ladd, _double, _ldouble, _subtract, _lsubtract, _negate, _multiply, _square; addAssign, subtractAssign, doubleAssign, multiplyAssign, squareAssign, frobeniusMapAssign, mulBy01Assign, mulBy014Assign and sqrt(c) of the tower; addAssign and doubleAssign of g1 and g2; the word loops of the division; scalar::rsh and bn_divn_safe) leave in the destination the result for the values the operands had before the call, and change no other object. So x.multiplyAssign(x) is x squared, P.addAssign(P) is 2P and x.sqrt(x) is allowed.", "quantifier": "all identifications of destination and operands, all contents", "why_tests_cant": "a function that writes its result before its last read of an operand passes every test in which the objects differ", "anchors": ["src/arithmetic.cpp:_add,_subtract,_negate,_multiply,_square", "src/fp.cpp:fp2::multiplyAssign,fp6::multiplyAssign,fp6::mulBy01Assign,fp12::multiplyAssign,fp12::mulBy014Assign,fp::sqrt,fp2::sqrt", "src/g.cpp:g1::addAssign,g2::addAssign", "src/scalar.cpp:bn_lshb_low,dv_lshd,bn_subn_low,dv_rshd,bn_mul1_low,bn_sub1_low,bn_addn_low,bn_add1_low,bn_rshb_low"]}
{"id": "C53", "title": "What is hashed and signed", "statement": "sign(sk, m) is sk times hash_to_curve of m under the tag BLS_SIG_BLS12381G2_XMD:SHA-256_SSWU_RO_NUL_; pop_prove(sk) is sk times hash_to_curve, under the tag BLS_POP_BLS12381G2_XMD:SHA-256_SSWU_RO_POP_, of the 96 little-endian bytes x, y of public_key(sk) (zeros for infinity). verify and pop_verify accept exactly these points. The byte string determines the key, and the two tags differ, so a signature on a message is never computed from the same hash input as a proof of possession.", "quantifier": "all secret keys, keys and messages shorter than 2^31 bytes", "why_tests_cant": "a wrong tag or encoding is self-consistent: everything signed still verifies", "anchors": ["src/signatures.cpp:sign,verify,pop_prove,pop_verify,CIPHERSUITE_ID,POP_CIPHERSUITE_ID"]}
{"id": "C54", "title": "Comparison operators are a strong order on the representation", "statement": "operator<=> of fp, fp2, g1 and g2 is a strict total order for all contents, and operator== is equality of all stored words, so the types are sound keys of std::set and std::map. fp is ordered as a 384-bit number, fp2 and the points lexicographically in the order of their members. For fp and fp2 == coincides with equal(); for points == implies equal() but not conversely, and the order of fp is not the order of the residues it stands for.", "quantifier": "all contents of the objects, canonical or not", "why_tests_cant": "antisymmetry and transitivity are statements about all pairs and triples", "anchors": ["include/bls12-381/fp.hpp:fp::cmp,fp::operator<=>,fp2::operator<=>", "include/bls12-381/g.hpp:g1::operator<=>,g2::operator<=>"]}
{"id": "C55", "title": "What a signature is bound to", "statement": "A point accepted by verify for a public key other than infinity and two messages implies that the two messages have the same hash_to_curve; a point accepted for one message whose hash is not infinity under two public keys implies that the keys are the same point. The opposite of an accepted signature other than infinity is rejected; changing the sign of key and signature together does not change the verdict. A signature is infinity only if the secret key is 0 mod q or the message hashes to infinity.", "quantifier": "all keys, messages and points, on the curve or not", "why_tests_cant": "a verifier that ignores part of the message, or the sign bit, accepts every honest signature", "anchors": ["src/signatures.cpp:verify,sign,fromMessage"]}
{"id": "C56", "title": "The verification functions fit together", "statement": "aggregate_verify of one key and one message is verify; aggregate_verify of valid keys with one common message is pop_fast_aggregate_verify, and of one valid key verify. Accepted aggregates can be added: if s is accepted for a list of pairs, then s + s' is accepted for its concatenation with another list exactly if s' is accepted for that list. Signatures accepted one by one are accepted in aggregate, whoever made them; the converse is false. Signing is additive in the secret key modulo q.", "quantifier": "all lists of keys and messages (messages shorter than 2^31 bytes), all points, both values of the duplicate flag", "why_tests_cant": "relations between functions for lists of any length and for signatures that sign did not make", "anchors": ["src/signatures.cpp:verify,aggregate_verify,pop_fast_aggregate_verify,aggregate_signatures,sign"]}
{"id": "C57", "title": "Rogue keys", "statement": "Without proofs of possession pop_fast_aggregate_verify gives no evidence about single signers: for every valid public key pk and every scalar x the key x G - pk is valid, and the signature of any message under x alone is accepted for the keys pk, x G - pk.", "quantifier": "all valid keys, all scalars, all messages", "why_tests_cant": "the attack needs a key chosen after the victim's; no test of honest signers contains one", "anchors": ["src/signatures.cpp:pop_fast_aggregate_verify,aggregate_public_keys"]}
{"id": "C58", "title": "Nothing depends on the Jacobian coordinates of a point", "statement": "If a and a' are on the curve and equal() (the same point in other coordinates), then add, subtract, dbl, negate, scale, weightedSum, aggregate, glvEndomorphism, psi, frobeniusMap and clearCofactor give equal points; isZero, isOnCurve, inCorrectSubgroup, equal, the affine encodings and the compressed encoding of a finite point are identical; the pairing receives the same pairs; verify, pop_verify, aggregate_verify and pop_fast_aggregate_verify give the same answer; unhardened child keys of finite points are equal. The exceptions are operator==, the Jacobian encodings, and for infinity the compressed encoding and the child keys.", "quantifier": "all points of the curves in all their coordinates", "why_tests_cant": "every point has p-1 triples; tests use the few that the library's own formulas produce", "anchors": ["src/g.cpp:g1::add,g1::scale,g1::affine,g1::toCompressedBytesBE,g2::add,g2::scale,g2::psi,g2::affine", "src/pairing.cpp:add_pair", "src/signatures.cpp:verify,pop_verify,aggregate_verify,pop_fast_aggregate_verify,derive_child_g1_unhardened"]}
{"id": "C59", "title": "Keys and signatures survive transport", "statement": "For every point of g1 and g2 the checked decoders return the same point from its affine encodings (both byte orders, raw or not), the same triple from its Jacobian encodings, and the same point from its compressed encoding if it is finite. So the verification functions answer for decoded keys and signatures as for the originals; a signature made with a key that is not 0 mod q on a message whose hash is not infinity verifies after both have gone through the compressed form.", "quantifier": "all points of the curves, all messages, all secret keys", "why_tests_cant": "composes codec and verifier for all points, of which tests see few", "anchors": ["src/g.cpp:g1::fromCompressedBytesBE,g1::toCompressedBytesBE,g2::fromCompressedBytesBE,g2::toCompressedBytesBE,g1::fromAffineBytesLE,g2::fromAffineBytesLE", "src/signatures.cpp:verify,sign"]}
{"id": "C60", "title": "How evenly bytes are reduced", "statement": "Each field element is the hash_to_field image of floor(2^512/p) or one more 64-byte strings (at least 2^131); each secret key below q comes from floor(2^384/q) or one more 48-byte strings (at least 2^129). The summand of the unhardened derivations comes from three 32-byte digests if it is below 2^256 - 2q and from two otherwise, so it is not uniform.", "quantifier": "all field elements, all keys", "why_tests_cant": "a bias of the last bits is invisible in samples", "anchors": ["src/signatures.cpp:fromMessage,secret_key,derive_child_sk_unhardened,derive_child_g1_unhardened,derive_child_g2_unhardened", "include/bls12-381/scalar.hpp:fp::modPrime"]}
{"id": "C61", "title": "The assembly routines touch only their operands, in an order that does not depend on the data", "statement": "Every run of an assembly routine makes the same list of memory accesses relative to its three pointers: it reads the six words of each operand (the one-operand routines do not use the third argument), then writes the six words of the destination once each, and touches nothing else but its own frame. Addresses and order do not depend on memory contents or other registers, and there is no branch.", "quantifier": "all nine routines, all machine states at entry, all pointer values including overlapping ones", "why_tests_cant": "tests compare results; they do not see which addresses were read, nor that this is so for all data", "anchors": ["src/arithmetic.s:_add,_ladd,_double,_ldouble,_subtract,_lsubtract,__negate,__multiply,__mul_ex"]}
{"id": "C62", "title": "The endomorphisms", "statement": "glvEndomorphism is the endomorphism (x,y) -> (beta x, y) of the curve with a primitive cube root of unity beta, satisfies s^2 + s + 1 = 0, and is multiplication by z^2 - 1 exactly on the points of order q. psi is the endomorphism (conj(x)/xi^((p-1)/3), conj(y)/xi^((p-1)/2)), satisfies psi^2 - (z+1) psi + p = 0 on every point, is multiplication by z exactly on the points of order q, and by p there; g2::frobeniusMap with power n is its n-th iterate, and the twelfth is the identity.", "quantifier": "all points of both curves in all coordinates", "why_tests_cant": "an equation between endomorphisms holds for all points or fails for most; eigenvalues distinguish the subgroup from the rest of the curve", "anchors": ["src/g.cpp:g1::glvEndomorphism,g2::psi,g2::frobeniusMap,g1::inCorrectSubgroup,g2::inCorrectSubgroup"]}
{"id": "C63", "title": "Field elements that are not reduced", "statement": "The words of an fp are public and unchecked raw decoding stores any six words. Whatever the words are, inverse, the encodings, sign and isLexicographicallyLargest answer for the residue (inverse of every multiple of p is 0), and a product is exact and reduced if one operand is reduced. A sum means the right residue iff the words do not overflow 384 bits and is reduced iff they add up to less than 2p; a difference is right iff the subtrahend exceeds the minuend by at most p, an opposite iff the words are at most p. equal, isZero, isOne, isValid, isEven and isOdd speak of the words, so equal residues may compare different.", "quantifier": "all pairs of six words", "why_tests_cant": "values at or above p come from unchecked input only, and the bounds are met by single values", "anchors": ["src/arithmetic.s:_add,_double,_subtract,_negate,_multiply", "src/fp.cpp:fp::inverse,fp::sign,fp::isLexicographicallyLargest,fp::fromMont,fp::equal,fp::isZero,fp::isOne,fp::isOdd,fp::isEven"]}
{"id": "C64", "title": "The portable build computes the same as the x86-64 build", "statement": "A program built without the assembly routines returns the same results as the x86-64 build: the same field elements, the same decisions on encoded points and the same verdicts on signatures.", "quantifier": "all inputs of all functions, both builds", "why_tests_cant": "the builds differ on about one in 2^60 random operands, so random tests on either machine agree; chosen operands differ", "anchors": ["src/arithmetic.cpp:_add,_double,_subtract,_negate,_multiply,_square", "src/fp.cpp:fp::inverse,fp::toMont,fp::fromMont", "src/g.cpp:g1::isOnCurve,g1::fromAffineBytesBE", "src/signatures.cpp:verify"]}
{"id": "C65", "title": "The sequence of point operations does not depend on the secret key", "statement": "public_key and sign perform a sequence of point additions and doublings that does not depend on the secret key.", "quantifier": "all keys, all messages", "why_tests_cant": "results do not show which operations were made; timing measurements are noisy and cover few keys", "anchors": ["include/bls12-381/scalar.hpp:g1::scale,g2::scale", "src/signatures.cpp:public_key,sign"]}
{"id": "C66", "title": "The multiplication routine chosen at load time exists on the processor", "statement": "The ELF resolver reads the environment to its end and binds _multiply to the routine with mulx, adcx and adox iff cpuid announces BMI2 and ADX (with a highest leaf below 2^31) and no entry of the environment begins with BLS_DISABLE_BMI2; without ifunc the pointer is the plain routine until the static constructor has run and follows cpuid afterwards. The bound routine and all other routines consist of instructions the processor has, so on every processor and in every environment the product is stored; the extended routine without the extensions faults from every state.", "quantifier": "all cpuid answers, all arguments and environments of a process, all machine states", "why_tests_cant": "a test machine has one processor; that no illegal instruction is ever executed cannot be seen on it", "anchors": ["src/arithmetic.cpp:cpu_has_bmi2_and_adx,resolve_blsmul,bls_mul_init", "src/arithmetic.s:__multiply,__mul_ex"]}
{"id": "C67", "title": "Shared keys", "statement": "public_key and sign are linear: g1::weightedSum of public keys and g2::weightedSum of signatures on one message are the public key and the signature of the weighted sum of the keys modulo q. In particular n shares of a polynomial of degree below n over Z/q (Shamir), weighted with the interpolation factors at zero, give the public key and the signature of its value at zero, whichever n share holders take part, and verify accepts the result under the common public key. If one part is replaced by another point of the group and its factor is not zero, verify rejects the result.", "quantifier": "all n, all polynomials, all sets of distinct points, all keys congruent to the shares, all messages sign is defined for, all wrong parts", "why_tests_cant": "the number of holders, the polynomial and the wrong part range over infinite or astronomically large sets", "anchors": ["src/signatures.cpp:public_key,sign,verify", "src/g.cpp:weightedSum"]}
{"id": "C68", "title": "What unhardened derivation gives away", "statement": "Along every path of indices on which no addition loses a carry and no key is zero, the chain of derive_child_g1_unhardened starting at public_key(sk) stays equal to the public key of the chain of derive_child_sk_unhardened, and the two ends of the secret chain differ modulo q by a number computed from public keys alone: so the parent public key together with one derived secret key gives the parent key and all its other unhardened descendants. Without any exception, whoever sees a signature of a key on a message can turn it into the signature of each unhardened child on that message, and back.", "quantifier": "all keys below q, all paths, all indices, all messages, all public keys on the curve in any coordinates", "why_tests_cant": "chains of every length and every key; that a conversion always works is not visible from samples", "anchors": ["src/signatures.cpp:derive_child_sk_unhardened,derive_child_g1_unhardened,sign,verify"]}
{"id": "C69", "title": "How long fp::inverse runs", "statement": "For every canonical element but zero the first loop of fp::inverse ends by finding v zero after k rounds with 381 <= k <= 762, exactly as the almost inverse algorithm does on integers of any size; before and after every round the words u, v and s are at most p and r is below 2p, so no addition, doubling or subtraction in the loop loses a bit. The remark in the source that the branch k <= 384 is taken if and only if the input is fp::one() is false: it is taken for one() and also for its opposite and for other elements. The number of rounds depends on the element, and through affine the time of public_key depends on the secret key even between keys of the same length and weight.", "quantifier": "all canonical nonzero elements, all rounds; witnesses for the negative statements", "why_tests_cant": "the inputs with few rounds are so rare that no random test meets them; bounds on intermediate values are not visible outside", "anchors": ["src/fp.cpp:fp::inverse", "src/signatures.cpp:public_key"]}
{"id": "C70", "title": "Messages extended by the public key", "statement": "A message followed by the affine bytes of the signer's public key determines both, for messages of every length and keys in any coordinates. So signers with different keys can sign one message: the aggregate of their signatures on the extended messages passes aggregate_verify with the check for repeated messages, which rejects every aggregate of two or more signers of one plain message. The rogue key x G - pk, with which one person signs for two (C57), is of no use here: the signature under x of either extended message is rejected for the two keys, unless the two extended messages have the same hash or one of the keys is infinity.", "quantifier": "all lists of keys different modulo q, all messages shorter than 2^31-96 bytes, all valid public keys, all scalars", "why_tests_cant": "injectivity and rejection for all keys cannot be sampled; the test program signs one message with two keys", "anchors": ["src/g.cpp:toAffineBytesBE", "src/signatures.cpp:sign,aggregate_verify"]}
{"id": "C71", "title": "Equal derived values come from collisions of SHA-256", "statement": "Two calls of xmd_sh256 with different messages, tags or lengths, two calls of hkdf256_extract_expand with different keys, infos or salts of one length, and two calls of parent_sk_to_lamport_pk with different keys or indices agree (already in the first 32 bytes of the first two) only if two different strings out of short lists computed from the inputs have the same SHA-256 value. The lengths of the salts matter: a zero at the end of a salt shorter than 64 bytes changes nothing. The string hashed by the unhardened derivations determines the public key, if it is finite, and the index; two unhardened children of a key are equal exactly if the two hashes are congruent modulo q.", "quantifier": "all messages, tags, salts, keys, infos, lengths, indices; all functions that meet the definition of SHA-256", "why_tests_cant": "absence of collisions other than those of the hash function is a statement about all pairs of inputs", "anchors": ["src/signatures.cpp:xmd_sh256,hkdf256_extract_expand,parent_sk_to_lamport_pk,derive_child_g1_unhardened"]}
{"id": "C72", "title": "The target group is the set of the pairing values", "statement": "If a is a point of the first subgroup other than infinity, then every fp12 element accepted by isGtValid is e(a, b) for a point b of the second subgroup, and for one only; the same holds with the sides exchanged. isGtValid accepts exactly q elements, among them all pairings of members. Every accepted element is the final_exponentiation of a nonzero element, and final_exponentiation gives one exactly at the q-th powers of nonzero elements.", "quantifier": "all points, all fp12 elements, all callbacks", "why_tests_cant": "a test can show values that are pairings, not that no other value is accepted or that each is reached exactly once", "anchors": ["src/pairing.cpp:calculate,add_pair,final_exponentiation", "src/fp.cpp:fp12::isGtValid"]}
{"id": "C73", "title": "How evenly the maps to the curves spread their arguments", "statement": "g1::mapToCurve sends at most 48 p/q elements of fp to one point and g2::mapToCurve at most 16 p^2/q elements of fp2 to one point; of the 256^256 contents of the buffer from which fromMessage computes the point at most a share of 16/q leads to one given point, infinity included. Every content leads to a point of the subgroup. At least q/48 and q/16 points of the subgroups are reached by the two maps.", "quantifier": "all points of the curves, all field elements, all contents of the buffer", "why_tests_cant": "a statement about the numbers of preimages of all points cannot be sampled", "anchors": ["src/g.cpp:g1::mapToCurve,g2::mapToCurve", "src/signatures.cpp:fromMessage"]}
{"id": "C74", "title": "The pairing of points outside the subgroups: zero or in the target group", "statement": "add_pair and calculate do not test their points. For every list of pairs of points of the curves calculate is defined; its value is zero if some pair consists of finite points of which the second has order 13, and is accepted by isGtValid otherwise. Points of order 13 exist on the second curve, so the value can lie outside the target group.", "quantifier": "all lists of pairs of points of the curves, all callbacks", "why_tests_cant": "the exceptional points are 168 among 2^762", "anchors": ["src/pairing.cpp:pre_compute,miller_loop,calculate,add_pair"]}
{"id": "C75", "title": "The pairing is linear in the first argument on the whole curve", "statement": "With a second argument in the subgroup, the pairing is additive in its first argument on all points of the curve, has its values in the target group, is raised to the power 1-z when the cofactor of the first argument is cleared, and is one exactly if the second argument is infinity or the first is infinity after clearing its cofactor. Adding a point that vanishes when the cofactor is cleared changes no pairing: every member of the subgroup has the pairings of a point of the curve that inCorrectSubgroup rejects, so the subgroup test cannot be replaced by the pairing equation.", "quantifier": "all points of the first curve, all members of the second subgroup, all scalars, all callbacks", "why_tests_cant": "an equation between values at all points of the curve", "anchors": ["src/pairing.cpp:calculate,add_pair", "src/g.cpp:g1::clearCofactor,g1::inCorrectSubgroup"]}
{"id": "C76", "title": "Points that are not on the curve", "statement": "The group operations do not test their points and do not contain the constant of the curve. A triple with z != 0 and y^2 != x^3 is a point of exactly one curve y^2 = x^3 + c; isOnCurve says whether c is the constant of the library, and add, subtract, dbl, negate, affine, equal and scale on points of that curve compute in its group, for every c. On the cusp y^2 = x^3 scale multiplies the field element x z / y by the number. So scale of an unchecked triple gives the number away: completely for (1,1,1), from which the key is read with two multiplications and one inversion, and its parity for (x,0,z).", "quantifier": "all triples, all word arrays", "why_tests_cant": "the curves are as many as field elements; the tests use points of one of them", "anchors": ["src/g.cpp:g1::addAssign,g1::doubleAssign,g1::isOnCurve,g2::addAssign,g2::doubleAssign,g2::isOnCurve", "include/bls12-381/scalar.hpp:g1::scale,g2::scale"]}
{"id": "C77", "title": "Which byte strings are accepted as a signature or a key", "statement": "A receiver decodes a compressed signature of 96 bytes and calls verify. If a signature other than infinity is valid for a key and a message, the strings that pass are its compressed form and, exactly if the first coordinate x1 satisfies x1 + p < 2^381, one more: the string in which p is added to x1, which everybody can compute. If infinity is valid, all strings with the two top bits set pass. The same holds for compressed keys of 48 bytes and messages that do not hash to infinity. In affine form exactly one string passes. For every message that does not hash to infinity there are secret keys whose signature has two strings and keys whose signature has one.", "quantifier": "all keys, messages, points and byte strings", "why_tests_cant": "there are 2^768 strings; the tests decode strings that the library has written", "anchors": ["src/g.cpp:g2::fromCompressedBytesBE,g2::toCompressedBytesBE,g1::fromCompressedBytesBE,g1::toCompressedBytesBE,g2::fromAffineBytesLE", "src/signatures.cpp:verify"]}
{"id": "C78", "title": "Batches of signatures tested with weights", "statement": "A batch of signatures on any messages is tested with one call: keys and signatures are multiplied by weights, the signatures are added up and aggregate_verify is called. A batch of valid signatures is accepted with all weights. If all points pass the membership tests and one signature is not valid, then given the other weights at most one weight modulo r is accepted, so of all choices of weights out of N values different modulo r at most one in N is accepted. The membership test of the signatures is needed: there is a point of order 13 so that every valid signature plus this point is rejected by verify but accepted in a batch with every weight divisible by 13.", "quantifier": "all numbers of signatures, keys, messages, points and weights", "why_tests_cant": "soundness is a statement about all weights and all wrong signatures; a test shows only that one batch is refused for one choice", "anchors": ["src/signatures.cpp:aggregate_verify,verify", "src/g.cpp:g2::weightedSum,g1::scale"]}
{"id": "C79", "title": "Certificates of a group with bitmaps", "statement": "The members of a list vote for one of two messages; the certificate is the sum of the votes with two bitmaps, tested by aggregate_verify with the keys that aggregate_public_keys makes of the selected ones. Votes put together by the same bitmaps as the keys are accepted. If a certificate is accepted and the first message does not hash to infinity, the same signature with another first bitmap is accepted exactly if the selected keys have the same sum; so with one bit changed it is rejected unless the key there is infinity. A vote moved from one message to the other makes it invalid unless the key is infinity or both messages hash to the same point.", "quantifier": "all lists of members, keys in the group, bitmaps and messages", "why_tests_cant": "tests verify certificates made honestly and do not try all changes of a bitmap", "anchors": ["src/signatures.cpp:aggregate_verify,aggregate_public_keys,aggregate_signatures,sign"]}
{"id": "C80", "title": "Memory and failing allocations in key generation", "statement": "hkdf256_hmac, hkdf256_expand, hkdf256_extract_expand, secret_key and derive_child_sk are followed with a heap in which every malloc may fail and new memory is arbitrary. If no allocation fails there is no undefined behaviour, the keys are those of the drafts whatever uninitialised memory contains, and every block is given back exactly once. Whatever the allocator does, a returned key is never zero, so a failure is never reported, and no block is leaked. Failures are not noticed: if the allocation in hkdf256_extract fails, secret_key returns the uninitialised array modulo r for every seed; if an allocation of HMAC in the expansion fails, the previous block is used again and success is reported; if the block for the seed or a block of hkdf256_expand is refused, there is a write through a null pointer. hkdf256_expand with length 0 leaks two blocks. A seed of fewer than 32 bytes gives zero without an allocation.", "quantifier": "all allocators, all contents of uninitialised memory, all heaps, seeds, keys, salts and lengths", "why_tests_cant": "tests never see a failing malloc; leaks and the use of uninitialised memory do not change their results", "anchors": ["src/signatures.cpp:hkdf256_hmac,hkdf256_extract,hkdf256_expand,hkdf256_extract_expand,secret_key,ikm_to_lamport_sk,parent_sk_to_lamport_pk,derive_child_sk"]}
{"id": "C81", "title": "Proofs of possession and keys made from other people's keys", "statement": "From a proof accepted by pop_verify for a key u G + a pk, with u and a known and a invertible modulo r, the calls scale and subtract compute sk times the hash of that key, where sk is the secret key of pk, and this point satisfies the pairing equation of the verification functions for pk; for u G - pk it is u times the hash minus the proof. Conversely this value of the victim gives the proof. So passing pop_verify with a key made from another key is the same as forging for that key. A proof for one key is accepted for another exactly if the multiples of the two hashes agree.", "quantifier": "all keys on the curve, all u and a, all proofs, all representatives", "why_tests_cant": "tests know all secret keys; the claim is about keys whose secret nobody in the test knows", "anchors": ["src/signatures.cpp:pop_verify,pop_prove,public_key"]}
{"id": "C82", "title": "A sha256 object that is used after digest", "statement": "digest does not reset the object. For every sequence of update and digest on one object each digest is the compression function over a stream to which every earlier digest has added its padding and then once more the bytes of the incomplete block, with a length field that counts these twice. Up to the first digest this is SHA-256. Two calls of digest in a row return different values for the empty message, and hashing abc, digesting and going on with def gives neither the hash of abcdef nor that of def. No sequence of calls writes outside the 64-byte buffer.", "quantifier": "all sequences of update and digest of any length, all initial contents of the buffer", "why_tests_cant": "tests digest each object once", "anchors": ["src/sha256.cpp:digest,pad,update"]}
{"id": "C83", "title": "Keys that cancel", "statement": "For keys on the curve that add up to infinity pop_fast_aggregate_verify accepts infinity, and only infinity, for every message. For every secret key the opposite secret key completes such a pair; both proofs of possession are accepted and, unless the secret key is 0, neither public key is infinity. Keys that cancel can be added to any list of keys without changing any answer. Conversely one point is accepted by the same keys for two messages with different hashes only if the keys add up to infinity and the point is infinity. In aggregate_verify two keys that cancel and are not infinity accept infinity exactly if their messages have the same hash.", "quantifier": "all lists of keys on the curve of any length, all secret keys, messages below 2^31 bytes and signatures", "why_tests_cant": "tests use keys made from unrelated seeds, which never cancel", "anchors": ["src/signatures.cpp:pop_fast_aggregate_verify,aggregate_verify,pop_verify"]}
{"id": "C84", "title": "How long the division runs", "statement": "bn_divn_low has two loops without a fixed number of rounds. For every divisor with a nonzero top word the leading digit of the quotient takes at most three subtractions and every other digit at most five rounds of the correcting loop; there are at most N + 1 - M of these digits. Both numbers are reached. For the group order and the field prime, the only divisors the library uses, the numbers are two and two. The counts depend on the number that is reduced, in secret_key on secret bytes.", "quantifier": "all dividends and all divisors with a nonzero top word, of all sizes", "why_tests_cant": "a loop that ends late for rare operands shows in no test, and the worst cases need top words chosen for them", "anchors": ["src/scalar.cpp:bn_divn_low", "include/bls12-381/scalar.hpp:bn_divn_safe"]}
{"id": "C85", "title": "How long a callback waits", "statement": "weightedSum calls its callback often enough: for every number of points at most 764 additions and doublings of points happen in a row without a call, before the first call, between calls and after the last, and this number is reached; in all there is one addition for every digit that is not zero, two for every bucket and one for every window, and as many doublings as the windows have bits. calculate does not: its one call, made for 20 pairs or more, comes after the lines have been computed and before the loop, which multiplies 68 lines for every pair without a call, so no bound on the work in a row holds for all lists. An exception thrown by the callback of calculate reaches the caller; a callback that returns does not change the value.", "quantifier": "all lists of fewer than 2^64 points and scalars, all lists of pairs, all callbacks", "why_tests_cant": "the longest run of work without a call depends on the number of points and on every scalar, and a test cannot show that no longer one exists", "anchors": ["src/g.cpp:weightedSum", "src/pairing.cpp:miller_loop", "src/pairing.cpp:calculate"]}
{"id": "C86", "title": "Key generation of EIP-2333", "statement": "secret_key is derive_master_SK and derive_child_sk is derive_child_SK of EIP-2333 in its final form, as the header says.", "quantifier": "all seeds of at least 32 bytes, all parent keys and indices", "why_tests_cant": "the tests compare with vectors of the version of 2020; that the functions agree or differ for other seeds takes an argument about the sequence of salts", "anchors": ["src/signatures.cpp:secret_key", "src/signatures.cpp:derive_child_sk"]}
{"id": "C87", "title": "The schemes of the CFRG draft", "statement": "verify, aggregate_verify, pop_verify and pop_fast_aggregate_verify accept exactly what Verify and AggregateVerify of the basic scheme and PopVerify and FastAggregateVerify of the proof of possession scheme of draft-irtf-cfrg-bls-signature accept for the points given.", "quantifier": "all keys, lists of keys and signatures on the curves, all messages below 2^31 bytes", "why_tests_cant": "test vectors are made with the library's own choices; that no other key, message or signature separates the library from the draft, and exactly which ones do, is about all points and messages", "anchors": ["src/signatures.cpp:verify", "src/signatures.cpp:aggregate_verify", "src/signatures.cpp:pop_verify", "src/signatures.cpp:pop_fast_aggregate_verify"]}
{"id": "C88", "title": "Calls from the initialisers of the caller", "statement": "public_key, the unhardened derivation of public keys, sign and verify give the same results whenever they are called, also from the initialiser of a constant of the caller before the constants of the library have been initialised.", "quantifier": "all subsets of the library's translation units initialised so far, all keys, messages and signatures", "why_tests_cant": "a test program calls the library from main, after all initialisers; the order of initialisers is chosen by the linker", "anchors": ["src/g.cpp:BASE", "src/signatures.cpp:public_key", "src/signatures.cpp:derive_child_g1_unhardened", "src/signatures.cpp:derive_child_g2_unhardened", "src/signatures.cpp:sign", "src/signatures.cpp:verify"]}
{"id": "C89", "title": "Which square root", "statement": "Where a square root exists, fp::sqrt stores the one that is itself a square, and fp2::sqrt the one whose first coordinate that is not zero is not a square; exactly one of the two roots is such. Where none exists, fp::sqrt stores the root of the opposite that is not a square and fp2::sqrt a root of x(a-1)/(a+1) with a = x^((p-1)/2).", "quantifier": "all elements of fp and fp2", "why_tests_cant": "a test squares the result, which does not tell the two roots apart, and looks at few elements", "anchors": ["src/fp.cpp:fp::sqrt", "src/fp.cpp:fp2::sqrt"]}
{"id": "C90", "title": "What a product of pairings says", "statement": "For pairs of points of the subgroups, which are multiples a_i of the first and b_i of the second generator, add_pair for each and then calculate give the pairing of the generators to the power sum a_i b_i. The products of two lists agree exactly if the sums agree modulo the group order, and a product is one exactly if q divides the sum. So the test of an opening of a polynomial commitment, the pairs (C - yG, -H) and (W, T - xH), is one exactly if c - y = w(t - x) modulo q.", "quantifier": "all lists of pairs of points of the subgroups, of any length, in any coordinates, with infinity among them; all callbacks; both builds", "why_tests_cant": "a test compares products for chosen multiples; that no other list of points gives the same value is a statement about all of them", "anchors": ["src/pairing.cpp:add_pair,calculate,miller_loop,final_exponentiation"]}
{"id": "C91", "title": "The precompiled contracts of EIP-2537", "statement": "The README names EIP-2537. A caller that checks and strips the 16 zero bytes of the field elements of this standard, swaps the coefficients of fp2, and otherwise calls fromAffineBytesBE with check_valid, inCorrectSubgroup, add, weightedSum, add_pair, calculate, mapToCurve and toAffineBytesBE, computes the seven functions of the standard (G1ADD, G2ADD, G1MSM, G2MSM, PAIRING_CHECK, MAP_FP_TO_G1, MAP_FP2_TO_G2): on every byte string it returns exactly the string that the standard demands, and an error exactly where the standard demands one. With the default options of fromAffineBytesBE it does not: a string that is no point of the curve is accepted.", "quantifier": "all byte strings of all lengths; both builds", "why_tests_cant": "a test compares chosen strings; the rejections, scalars above the order, infinity, and the 16 exceptional arguments of the map to G1 are not met by chance", "anchors": ["src/g.cpp:g1::fromAffineBytesBE", "src/g.cpp:g2::fromAffineBytesBE", "src/g.cpp:g1::toAffineBytesBE", "src/g.cpp:g2::toAffineBytesBE", "src/g.cpp:g1::add", "src/g.cpp:g2::add", "src/g.cpp:g1::weightedSum", "src/g.cpp:g2::weightedSum", "src/g.cpp:g1::mapToCurve", "src/g.cpp:g2::mapToCurve", "src/g.cpp:g1::inCorrectSubgroup", "src/g.cpp:g2::inCorrectSubgroup", "src/pairing.cpp:pairing::add_pair", "src/pairing.cpp:pairing::calculate"]}
{"id": "C92", "title": "Shares of a key can be checked", "statement": "If a dealer publishes the public keys of the coefficients of a polynomial, then weightedSum of them with the powers of x equals the public key of s exactly if s is the share at x, modulo the order q. The dealer need not be trusted: for any n published points of the subgroup, any n holders of accepted shares at different places hold the key of the first point, so their combined key has it as public key and their combined signatures are accepted under it. For points of the curve outside the subgroup this fails: there are two points with accepted shares at 1 and 4 whose combination is not a key of the first point.", "quantifier": "all numbers n of coefficients, all coefficients, places, shares and messages; all published points of the subgroup; both builds", "why_tests_cant": "the claim is about a dishonest choice of points and about every share that could be accepted; the failing case needs a point of order 3 and places equal modulo 3", "anchors": ["src/g.cpp:g1::weightedSum", "src/g.cpp:g1::equal", "src/g.cpp:g1::inCorrectSubgroup", "src/signatures.cpp:public_key", "src/signatures.cpp:sign", "src/signatures.cpp:verify"]}
{"id": "C93", "title": "Blind signatures", "statement": "If the hash of a message is multiplied by r, the result by the key, and the result by the inverse of r modulo q (three calls of g2::scale), the outcome is the signature of the message and verify accepts it. With a factor that is not the inverse, and a key not zero modulo q and a hash other than infinity, verify returns false. The blinded point hides the message: for two hashes other than infinity and every r not divisible by q there is exactly one factor of four words between 1 and q - 1 with which the second hash gives the same blinded point as the first one with r. The signer has to test what it multiplies: there are five points of the curve outside the subgroup so that two keys give the same five multiples exactly if they are equal modulo 13 * 23 * 2713 * 11953 * 262069, a number of 52 bits.", "quantifier": "all keys, factors and messages that are hashed without undefined behaviour; all points of the subgroup; both builds", "why_tests_cant": "that every message is equally compatible with a blinded point is a statement about all factors up to q", "anchors": ["src/g.cpp:g2::scale", "src/g.cpp:g2::fromMessage", "src/signatures.cpp:sign", "src/signatures.cpp:verify", "src/signatures.cpp:public_key"]}
{"id": "C94", "title": "Secrets made with the pairing", "statement": "A secret locked as e(r pk, H(m)), with r G published, is unlocked as e(r G, s) exactly by the points s of the subgroup that verify(pk, m, s) accepts, for every r not divisible by the group order q. For a key and a hash other than infinity, two factors give the same secret exactly if they are equal modulo q. Three parties that publish the multiples a, b, c of both generators compute the same value e(G, H)^(abc), each with its own factor, by scale and one pairing; the value is one exactly if a factor is zero modulo q.", "quantifier": "all valid keys and points, all messages that are hashed without undefined behaviour, all factors, all callbacks; both builds", "why_tests_cant": "that nothing but an accepted signature unlocks the secret is a statement about all points", "anchors": ["src/pairing.cpp:pairing::add_pair", "src/pairing.cpp:pairing::calculate", "src/g.cpp:g1::scale", "src/g.cpp:g2::scale", "src/g.cpp:g2::fromMessage", "src/signatures.cpp:verify"]}
{"id": "C95", "title": "The library behind the host functions of a virtual machine", "statement": "A host that only checks the lengths of little-endian byte strings and calls the library (modPrime, multiply, exp, add, scale, weightedSum, add_pair and calculate, mapToCurve, with check_valid set) computes exactly: the residue of a 64-byte number; the product of two elements; the power with a 64-byte exponent; the sum of two points; the sum of multiples of n points; the product of the pairings of n pairs of points of the subgroups as twelve numbers; the maps of RFC 9380. It rejects exactly the strings that denote no such values (numbers not below the prime, coordinates off the curve, points outside the subgroup for the pairing, wrong lengths). Every value has exactly one string. This holds whether numbers are plain or in Montgomery form, as long as the options to_mont and from_mont agree.", "quantifier": "all byte strings, all counts n including zero; plain and Montgomery form; both builds", "why_tests_cant": "the strings and their rejections are infinitely many; tests use a few points in plain form", "anchors": ["include/bls12-381/scalar.hpp:fp::modPrime", "include/bls12-381/scalar.hpp:fp::exp", "src/fp.cpp:fp::multiply", "src/fp.cpp:fp::fromBytesLE", "src/fp.cpp:fp12::toBytesLE", "src/g.cpp:g1::fromAffineBytesLE", "src/g.cpp:g2::fromAffineBytesLE", "src/g.cpp:g1::weightedSum", "src/g.cpp:g2::weightedSum", "src/pairing.cpp:pairing::calculate", "src/g.cpp:g1::mapToCurve", "src/g.cpp:g2::mapToCurve"]}
{"id": "C96", "title": "What depends on the width of size_t and on the kind of char", "statement": "On every platform with a size_t of 32 to 64 bits and a char of either kind, hexToBytes reads hexadecimal digits, bytesToHex writes them (or throws if the text is longer than a string can be), hkdf256_hmac, hkdf256_expand, secret_key and derive_child_sk compute the functions of the standards, and weightedSum the sum of multiples. The exceptions are exactly these: characters outside ASCII in hexToBytes are read differently with an unsigned char; arguments so long that the length of a block or of the text does not fit into size_t (2^(w-1)-1 bytes in bytesToHex, 2^w-64 in HMAC, 2^w-65 in secret_key, 2^w-65 or 2^w-97 of info in HKDF) make the block too short, and memory outside it is written.", "quantifier": "all widths from 32 to 64 bits, both kinds of char, all byte strings, seeds, keys, points and scalars of any number", "why_tests_cant": "the tests run on one platform; the arguments where lengths overflow do not fit into a test", "anchors": ["src/scalar.cpp:hexToBytes,bytesToHex", "src/signatures.cpp:hkdf256_hmac", "src/signatures.cpp:hkdf256_expand", "src/signatures.cpp:secret_key", "src/signatures.cpp:derive_child_sk", "src/g.cpp:g1::weightedSum", "src/g.cpp:g2::weightedSum"]}
{"id": "C97", "title": "What key generation leaves behind in memory", "statement": "The blocks that hkdf256_hmac, hkdf256_expand, secret_key and derive_child_sk allocate are not erased before they are given back. For every input their contents at that moment are exactly: the padded key and the text of every HMAC (so a key of 32 bytes can be read off), the first and the last message of every expansion, the seed with a zero byte, and for a derivation the digest of the Lamport keys. So the key can be calculated from the last block of secret_key alone, different seeds leave different blocks, the parent key stands in the first block of derive_child_sk and its complement in the first block of the second Lamport key, and the child key can be calculated from the last one. A seed of fewer than 32 bytes is not copied.", "quantifier": "all keys, texts, lengths, seeds of any length, parent keys, indices, contents of new memory and numbers of attempts", "why_tests_cant": "a test calls the functions and compares their results; memory that has been given back must not be read by it", "anchors": ["src/signatures.cpp:hkdf256_hmac", "src/signatures.cpp:hkdf256_expand", "src/signatures.cpp:hkdf256_extract_expand", "src/signatures.cpp:secret_key", "src/signatures.cpp:ikm_to_lamport_sk", "src/signatures.cpp:parent_sk_to_lamport_pk", "src/signatures.cpp:derive_child_sk"]}
{"id": "C98", "title": "What the branches of the portable field routines show", "statement": "Unlike the assembly routines (C61), the portable _add, _double, _subtract, _negate, _multiply and _square choose by their operands what they run. For all valid operands on which the routine is right, the tests they make are exactly: for _add, _double, _multiply and _square the word by word comparison of the unreduced sum or Montgomery reduction with p, which stops at the first word that differs, so two calls make the same tests exactly when the two unreduced values are on the same side of p and agree with p above the same words; for _subtract whether x < y; for _negate whether x is zero. The tests of 381 doublings in a row determine the value.", "quantifier": "all valid operands without lost carry or borrow (for _multiply also lazily added ones); all sequences of doublings", "why_tests_cant": "a test observes results, and measuring times on some operands says nothing about what the choices depend on", "anchors": ["src/arithmetic.cpp:_add", "src/arithmetic.cpp:_double", "src/arithmetic.cpp:_subtract", "src/arithmetic.cpp:_negate", "src/arithmetic.cpp:_multiply", "src/arithmetic.cpp:_square"]}
{"id": "C99", "title": "What the accesses of weightedSum show", "statement": "Which elements of scalars, points, bucket and windows g1::weightedSum and g2::weightedSum access, and in which order, is exactly the pattern of the bucket method for the values of the scalars: it does not depend on the points, and for lists of given lengths two runs have the same accesses if and only if all the scalars that are used have the same values. So an observer of the addresses learns every scalar completely, and nothing about the points.", "quantifier": "all lists of fewer than 2^64 points (any coordinates, both groups) and scalars of four words", "why_tests_cant": "a test compares sums; the accesses are not part of the result", "anchors": ["src/g.cpp:g1::weightedSum", "src/g.cpp:g2::weightedSum"]}
{"id": "C100", "title": "What the branches of fp::inverse show", "statement": "For every canonical element but zero, the branches that fp::inverse takes in its loop are those of the almost inverse algorithm on integers, one for each round, and the element can be computed from them: undoing the rounds from (1, 0) gives (p, x). So two canonical elements take the same branches only if they are equal. In public_key this holds for the coordinate z of the multiple of the generator, which depends on the secret key.", "quantifier": "all canonical field elements; all secret keys with a multiple other than infinity", "why_tests_cant": "a test compares inverses; that no two of the p elements share a path cannot be tried out", "anchors": ["src/fp.cpp:fp::inverse", "src/signatures.cpp:public_key", "src/g.cpp:g1::affine"]}
{"id": "C101", "title": "How many strings the checked decoders accept", "statement": "With the check enabled, the affine decoders accept exactly one string for each point of the curve: p + 0xd201000000010000 strings of 96 bytes for g1 and h2 q strings of 192 bytes for g2. The Jacobian decoders accept exactly p - 1 strings for each finite point of g1 and p^2 for infinity, p^2 - 1 and p^4 for g2. The compressed decoders take 2^382 (g1) and 2^766 (g2) strings for infinity. All this in both byte orders and with or without conversion from Montgomery form.", "quantifier": "all byte strings of the length and all points", "why_tests_cant": "the numbers are of the order of 2^381 to 2^1524; no test can count them", "anchors": ["src/g.cpp:g1::fromAffineBytesBE,g1::fromAffineBytesLE,g1::fromJacobianBytesBE,g1::fromJacobianBytesLE,g1::fromCompressedBytesBE,g2::fromAffineBytesBE,g2::fromAffineBytesLE,g2::fromJacobianBytesBE,g2::fromJacobianBytesLE,g2::fromCompressedBytesBE"]}
{"id": "C102", "title": "Buffers of the hash functions that overlap", "statement": "hkdf256_hmac and hkdf256_extract write the MAC of the bytes that were in the buffers before the call wherever key, message and output lie in memory, and change no other byte, for keys (salts) of at most 64 bytes; for longer keys the code copies a local array onto itself with memcpy, which ISO C leaves undefined. hkdf256_expand, hkdf256_extract_expand and xmd_sh256 write the result of RFC 5869 and RFC 9380 if the output does not meet prk and info (info; the tag) or has at most 32 bytes; key, salt and message may overlap with the output. Otherwise each block of 32 bytes is computed from prk, info or tag as the blocks before it have left them, and the result is in general not that of the RFC.", "quantifier": "all contents of memory, all addresses and lengths", "why_tests_cant": "placements times contents; tests use separate buffers and short keys", "anchors": ["src/signatures.cpp:hkdf256_hmac,hkdf256_extract,hkdf256_expand,hkdf256_extract_expand,xmd_sh256"]}
{"id": "C103", "title": "Serialisation into memory that overlaps the object", "statement": "The functions with an argument out write there what the function of the same name without out returns for the object as it was before the call, and change no other byte: scalar::toBytesLE and fromBytesLE, the toBytesLE of fp2, fp6 and fp12 and toJacobianBytesBE/LE of g1 and g2 whenever out does not begin strictly inside the object, so also in place; fp::toBytesBE/LE with the default option, and toAffineBytesBE/LE and toCompressedBytesBE of g1 and g2, for every placement. scalar::toBytesBE and fromBytesBE are right if at most one byte (one word) is in common; in place they lose the lower half of the object. The toBytesBE of fp2, fp6 and fp12 are right if at most one component is in common and wrong in place, with both options, and so is fp::toBytesBE with from_mont::no.", "quantifier": "all contents of memory, all addresses, all lengths of word arrays, both multipliers, both options", "why_tests_cant": "placements times contents; tests serialise into separate arrays", "anchors": ["include/bls12-381/scalar.hpp:toBytesLE,toBytesBE,fromBytesLE,fromBytesBE", "src/fp.cpp:fp::toBytesBE,fp2::toBytesBE,fp6::toBytesBE,fp12::toBytesBE,fp::toBytesLE,fp2::toBytesLE,fp6::toBytesLE,fp12::toBytesLE", "src/g.cpp:g1::toJacobianBytesBE,g2::toJacobianBytesBE,g1::toJacobianBytesLE,g2::toJacobianBytesLE,g1::toAffineBytesBE,g2::toAffineBytesBE,g1::toCompressedBytesBE,g2::toCompressedBytesBE"]}
{"id": "C104", "title": "A callback that changes the arguments", "statement": "g1::weightedSum and g2::weightedSum read every point and every scalar once for each window, so if the callback overwrites elements of the spans the result is the sum, over all windows and indices, of the digit of the scalar times the point, each as it is after the calls made until then; a callback that leaves them unchanged gets the weighted sum whatever else it changes. With a changing scalar the result can be a multiple that no value of the scalar gives (a scalar that is 1 and then 8 gives nine times the point). pairing::calculate with at least 20 pairs reads the second points before the only call of the callback and the first points after it: the value is that of the mixed pairs, which can differ from the value before and after even if these two are equal; below 20 pairs nothing can change, and exceptions reach the caller.", "quantifier": "all lists, all callbacks with any state, both groups, both multipliers", "why_tests_cant": "callbacks times lists; tests pass callbacks that only count", "anchors": ["src/g.cpp:g1::weightedSum,g2::weightedSum", "src/pairing.cpp:miller_loop,calculate"]}
{"id": "C105", "title": "Memory of vectors", "statement": "If the memory for a vector or a set is refused, g1::weightedSum, g2::weightedSum, pairing::calculate, verify, pop_verify, pop_prove, pop_fast_aggregate_verify and aggregate_verify throw bad_alloc; otherwise they end as if no memory were needed (result, exception of the callback). In all cases every block they requested is given back and no other. So lack of memory cannot turn a rejection into an acceptance. add_pair adds the pair or leaves the vector as it was. The largest block requested: 39168 bytes in the functions for one signature, and no less is enough for valid points other than infinity; 19584 bytes for each pair in calculate; 19584 (n + 1) bytes, a node or a message in aggregate_verify of n keys; the buckets or the windows in weightedSum.", "quantifier": "all arguments, all callbacks, all sequences of granted and refused requests, all blocks in use before, all growth of vectors up to doubling", "why_tests_cant": "sequences of refusals times arguments; tests never run out of memory", "anchors": ["src/g.cpp:g1::weightedSum,g2::weightedSum", "src/pairing.cpp:miller_loop,calculate,add_pair", "src/signatures.cpp:verify,aggregate_verify,pop_prove,pop_verify,pop_fast_aggregate_verify"]}
{"id": "C106", "title": "Commitments to polynomials", "statement": "With the published points tau^k G and tau H, g1::weightedSum of the points with the coefficients of a polynomial of degree below n is a commitment, and one product of two pairings tests that its value at x is y. A true value is accepted with the commitment to the quotient, which has coefficients exactly if the value is true. A false value with a witness that is a combination of the published points is accepted for at most n of the q secrets. For every y exactly one witness in the subgroup is accepted (if tau is not x); two accepted values at one place give 1/(tau - x) G. The published points can be tested with pairings: they pass exactly if they are the powers of one secret. Outside the subgroup further witnesses are accepted.", "quantifier": "all polynomials, all numbers of points, all secrets, places and values, all points of the curve, all callbacks", "why_tests_cant": "2^255 secrets; a false value accepted for one secret in 2^255/n is not met by tests", "anchors": ["src/g.cpp:g1::weightedSum,g1::scale,g1::subtract,g1::inCorrectSubgroup,g2::scale,g2::subtract", "src/pairing.cpp:add_pair,calculate"]}
{"id": "C107", "title": "Proofs checked with four pairings", "statement": "With weightedSum of the points of a verification key and the public inputs and one product of four pairings, a verifier tests exactly the equation a b = alpha beta + (l + sum x_i l_i) gamma + c delta modulo q (Groth's proofs). The inputs count modulo q only: a proof for x is accepted for x + q, so inputs must be compared with q by the caller; inputs that differ modulo q at one place are told apart unless the point of the place or gamma is infinity. For given A and B exactly one C of the subgroup is accepted for every input, unless delta is infinity. Accepted proofs can be changed: (r A, 1/r B, C) and (A, B + r delta, C + r A) are accepted too, and without the subgroup test a C outside the subgroup.", "quantifier": "all keys and proofs of points in the subgroups, all numbers of inputs, all inputs of four words, all callbacks", "why_tests_cant": "the inputs above q and the changed proofs are accepted, so that no failing test shows them", "anchors": ["src/g.cpp:g1::weightedSum,g1::scale,g1::add,g1::inCorrectSubgroup,g2::scale,g2::add", "src/pairing.cpp:add_pair,calculate"]}
{"id": "C108", "title": "Proofs that a key is known and that a signature has its factor", "statement": "A caller tests an answer z to a challenge c after a point R with z G = R + c P (Schnorr), and a point S of the second group together with the key by also testing z H = R' + c S (Chaum and Pedersen). Whoever has the key can answer every challenge. Two answers to challenges that differ modulo q give the key as quotient of the differences, and for the pair they show that verify accepts S as the signature; so for a point that verify rejects at most one challenge modulo q has an answer. For every key, challenge and answer exactly one R of the subgroup fits, so the answers say nothing about the key; for every R, challenge that is not zero and answer exactly one key fits, so the challenge must depend on the key. Without the membership test there are keys outside the subgroup for which the challenges that are multiples of 3 have answers.", "quantifier": "all keys, points of the curve, challenges and answers of any number of words, all messages", "why_tests_cant": "the challenges are numbers of 255 bits; the keys outside the subgroup are never made by honest callers", "anchors": ["src/g.cpp:g1::scale,g1::add,g1::equal,g2::scale,g2::add,g2::equal", "src/signatures.cpp:verify,public_key"]}
{"id": "C109", "title": "Commitments to vectors that hide them", "statement": "A caller commits to a vector m with a random number r by weightedSum of bases with the entries plus H scaled by r (Pedersen). Two commitments are equal exactly if the differences of the entries and of the random numbers are a relation between the bases modulo q. For every vector and every point of the subgroup exactly one r below q gives the point, unless H is infinity. The sum of two commitments is a commitment to the sums modulo q. Two openings that differ modulo q in one entry give the factor between this base and H, and with this factor every commitment can be opened with every other value of the entry.", "quantifier": "all numbers of bases, all bases of the subgroup, all vectors of four words per entry, all random numbers", "why_tests_cant": "the random numbers are numbers of 255 bits; that every vector fits every commitment is not seen in any number of runs", "anchors": ["src/g.cpp:g1::weightedSum,g1::scale,g1::add,g1::equal"]}
{"id": "C110", "title": "A key used on points of other people", "statement": "A caller encrypts a point M to a public key as the pair k G, M + k pk and decrypts a pair C, D as D - sk C (ElGamal). Decryption gives back every point of the curve. For every pair of points of the subgroup whose first point is not infinity, and every point of the subgroup, exactly one key below q decrypts the pair to the point. Sums of pairs are decrypted to sums of points; adding infinity encrypted with k' to a pair made with k gives the pair made with k + k' modulo q. Holders of parts of a key decrypt together with weightedSum of the first point scaled by the parts. If the first point is not tested for membership, the key is given away modulo 3 * 11 * 10177 * 859267 * 52437899, a number of 64 bits: there is a point of the curve with which two keys decrypt alike exactly if they are equal modulo this number.", "quantifier": "all keys, all random numbers, all points of the curve or the subgroup, all numbers of parts", "why_tests_cant": "keys are numbers of 255 bits; that every point has exactly one key is not seen in any number of runs, and points of small order are not met by chance", "anchors": ["src/g.cpp:g1::scale,g1::add,g1::subtract,g1::equal,g1::weightedSum,g1::inCorrectSubgroup"]}
{"id": "C111", "title": "Signatures that a third party can open", "statement": "A caller hides a signature s as the pair s + r A, r H, where A is the multiple a H of the generator of the second group that belongs to the key a of a third party, and everyone tests the pair W, U with one product of three pairings: e(-G, W) e(pk, h) e(a G, U) = 1. For points of the subgroups the test accepts exactly if verify accepts W - a U, which the third party computes. Every hidden signature that verify accepts passes the test, and the third party gets it back. Without its key the pair says nothing: for every point of the subgroup exactly one key below q takes it out of the pair, unless U is infinity. A pair passes the test for one third party only, unless U is infinity.", "quantifier": "all keys, all messages with a hash, all points of the subgroups, all random numbers, all callbacks", "why_tests_cant": "the equivalence speaks about all pairs of points, of which runs see only those that were made by hiding a signature", "anchors": ["src/signatures.cpp:verify,sign", "src/g.cpp:g2::scale,g2::add,g2::subtract"]}
{"id": "C112", "title": "Values of numbers that only the holder of a key can compute", "statement": "A caller proves with the key x that a point s belongs to the number m, and everyone tests it with X = x H by one product of two pairings: e(-G, H) e(s, m H + X) = 1. For points of the subgroup the test accepts exactly if m s + x s is the generator G. The multiple of G with the inverse of m + x modulo the group order passes. There is a point that passes exactly if m + x is not zero modulo the group order. Two points accepted under one key are the same exactly if the numbers are the same modulo the group order, and then and only then the pairings of the points with H are the same. A point accepted for m under X is accepted for m' under Y exactly if m' H + Y is the same point as m H + X.", "quantifier": "all keys, all numbers, all points of the subgroups, all callbacks", "why_tests_cant": "that no other point passes and that different numbers never have the same value speaks about all points and numbers", "anchors": ["src/g.cpp:g2::scale,g2::add,g1::negate", "src/pairing.cpp:calculate,add_pair"]}
{"id": "C113", "title": "One point for a set of numbers", "statement": "A caller with a secret t keeps a set of numbers as one point: from the generator G of the first group each number x turns P into x P + t P. Everyone tests with T = t H and a point W that x is in the set of V by one product of two pairings: e(-V, H) e(W, x H + T) = 1. For points of the subgroup the test accepts exactly if x W + t W is V. The point does not depend on the order of the numbers. For a number of the set the point of the other numbers passes. The point of the set is infinity exactly if a number is the opposite of t modulo the group order. The test alone does not show that a number is in the set: for every point V and every x for which x H + T is not infinity one point passes, and only one. When another number y comes in, V + (y W - x W) passes with the new point exactly if W did with the old one, unless x and y are the same modulo the group order.", "quantifier": "all secrets, all lists of numbers, all points of the subgroups, all callbacks", "why_tests_cant": "that one point and no other passes speaks about all points; the update is an equivalence over all points, also those never made from a set", "anchors": ["src/g.cpp:g1::scale,g1::add,g1::subtract,g2::scale,g2::add", "src/pairing.cpp:calculate,add_pair"]}
