# Formal model of AntelopeIO/bls12-381 in Lean 4 — design

## 1. Approach

The C++ sources (and the x86-64 assembly file) in `/repo` are read as text and
transcribed, function by function, into total computable Lean functions under
`lean/Verif/Model`. Every model definition cites the file and lines it models.
Specifications are small, separate and use only standard mathematics
(`Nat`, `ZMod p`, Mathlib's `WeierstrassCurve.Affine.Point` group, list-level
transcriptions of FIPS 180-4 / RFC 2104 / RFC 5869 / RFC 9380) under
`lean/Verif/Spec`. The theorems for the properties of `properties.jsonl` are in
`lean/Verif/Props`, one file per group of properties, apart from the helper lemmas
in `lean/Verif/Proof`.

Layers, bottom up:

1. **Words**: `UInt64`; `Add64`, `Sub64`, `Mul64`, `madd*`.
2. **Base field backends**: (a) the portable C++ routines on six words;
   (b) the x86-64 assembly routines as lists of instructions executed by a small
   machine (registers, CF and OF, word memory), generated from the text of
   `src/arithmetic.s`. Both are related to arithmetic on the integer value
   `sum d[i]*2^(64 i)` and from there to `ZMod p` through the Montgomery map.
3. **Polymorphic upper layers**: the tower (`fp2/fp6/fp12`), the curves and the
   pairing are written once over a class of base-field operations (`Ops`, `FpOps`).
   The program is the instance `FpV adx`: canonical six-word values on which every
   operation runs the modelled x86-64 routine. `FpV adx` is proved to be a lawful
   implementation (`LawfulFp`) of a field isomorphic to `ZMod p`; every layer above is
   proved for all lawful implementations and then stated for `FpV adx`.
   The tower rings are the schoolbook structures of `Spec/Tower.lean`; they are proved
   to be fields. `p` and the group order `q` are proved prime inside Lean (an
   elliptic-curve primality certificate for `p`, a Lucas certificate for `q`).
   Constants are evaluated by the kernel on naturals mod `p` (`Proof/Eval.lean`).
4. **Curves**: Jacobian triples are related to Mathlib's point groups of
   `y^2 = x^3 + 4` over `Fp` and `y^2 = x^3 + 4(1+u)` over `Fp2`.
5. **Hashing and key handling**: byte lists.
6. **Signature API**: composition of all layers.

Undefined behaviour and exceptions are explicit outcomes (`Option`/`Except`
results) of the model functions where the C++ function can exhibit them for some
argument of the right type.

Not modelled, since there is no code: three functions are declared but defined nowhere, so that a program that calls them cannot be
linked. They are `init(bool)` (`include/bls12-381/arithmetic.hpp:12`) and the overloads of `pairing::addition_step` and
`pairing::pre_compute` with a `g2&` as last argument (`include/bls12-381/pairing.hpp:20-21`); the definitions take a `const g2&`
(`src/pairing.cpp:44`, `:75`), and only these are called and modelled.

## 2. What is modelled and how each property is to be proved

| id | model | proof |
|----|-------|-------|
| C01 | asm routines + dispatch | symbolic execution of the instruction lists to integer equations; Montgomery reduction lemma |
| C02 | `__multiply`, `__mul_ex` | both equal the same value of x*y/R mod p when x*y < R*p |
| C03 | portable routines | false: concrete counterexamples for add, double, subtract, negate, square; `_exact`: add, double, subtract and negate are right if and only if no carry or borrow meets an all-ones limb (`Spec/Carry.lean`); square right if and only if no doubled product loses a carry in the row by row squaring of the integer (`Spec/Square.lean`, `Proof/SquareLoss.lean`: the result misses Σ 2^(64 s), which is never a multiple of p), and `_partial` with a simpler sufficient condition; multiply exact always |
| C04 | word primitives | false for Add64/Sub64 (y = 2^64-1 with carry): witness + `_partial` with the exact correctness condition; `madd` and the helpers of `_square` described exactly for all words |
| C05 | asm with memory | memory-level Hoare statement over pointers |
| C06 | `toMont`, `fromMont` | corollary of C01 |
| C07, C50 | byte codecs | positional-value lemmas |
| C08 | `fp::inverse` (Kaliski) | loop invariants, bound on iterations |
| C09 | `exp` loops | induction over bits |
| C10, C18 | `sqrt` | Euler criterion in `ZMod p`; norm argument for fp2 |
| C11 | sign, lexicographic test | comparison with (p+1)/2 |
| C12, C14 | scalar codecs, cmp, rsh, bitLength | induction over words |
| C13 | scalar add/multiply | false (lost carry; wrong carry word): witnesses + `_partial`; `_exact`: right if and only if no carry meets an all-ones word (`Spec/Carry.lean`) |
| C15 | RELIC division | Knuth algorithm D invariants; exact condition for undefined behaviour |
| C16 | hex | induction, finite table of digits |
| C17, C19 | tower operations | `ring` over the base field; fields because -1, 1+u, v are non-residues |
| C20 | Frobenius | ring hom in characteristic p, constants evaluated by the kernel; `fp6::frobeniusMap(3)` is wrong: witness + `_partial` |
| C21 | cyclotomic squaring | ideal-membership certificate from x^(p^4-p^2+1)=1 |
| C22, C23 | Jacobian formulas | case analysis against Mathlib's affine group law |
| C24, C25 | scale, weightedSum | induction on bits / windows in any additive commutative group; the run with vectors and callback (`Model/WeightedSum.lean`) is shown to give the same value after a known number of calls, or the exception of the callback |
| C26-C28 | point codecs | codec lemmas + sqrt; canonicity is false: witnesses + `_partial`; exactly which strings are accepted and which triples survive the round trip: `Spec/Lenient.lean`, `Proof/CompressedExact.lean` |
| C29 | endomorphism tests (`Model/Subgroup.lean`) | endomorphisms as group homomorphisms (`Proof/Endo.lean`); soundness from `σ²+σ+1=0`, `ψ⁴-ψ²+1=0`; completeness from the orders of both curves, proved with explicit torsion points (`Proof/Subgroup1.lean`, `Proof/Subgroup2.lean`), the trivial bound `2·#F+1` and a primality certificate (`Proof/PrimeH2.lean`) |
| C30 | clearCofactor (`Model/Subgroup.lean`) | equal to multiplication by the effective cofactor of RFC 9380; checked on generators of the group, which generate because of the order; `ψ = a + bψ²` on the second curve by the same argument |
| C31 | `swuMapG1/G2`, isogenies, `mapToCurve` (`Model/MapToCurve.lean`) | against RFC 9380 `map_to_curve` (`Spec/MapToCurve.lean`); the isogeny tables are checked as polynomial identities in the kernel; proved for all of `fp2`; false for `g1` at exactly 16 inputs, which reach the kernel of the isogeny (`Proof/Exc1.lean`): negation + `_partial` |
| C32 | `miller_loop`, `calculate` (`Model/Pairing.lean`) | the loop over all pairs is the product of one-pair loops (`Proof/Miller.lean`); no pairs given to `miller_loop` directly is undefined behaviour (`none`) |
| C33 | `final_exponentiation` | every element goes to its power 3(p^12-1)/q: cyclotomic powers and Frobenius turn the chain into one integer exponent (`Proof/FinalExp.lean`) |
| C34 | `add_pair`, `calculate` on one pair, with the tests `isOnCurve`, `inCorrectSubgroup` as hypotheses | the Miller loop computes the function `f_{\|z\|,Q}` built from chords (`Proof/Cocycle.lean`, `Proof/Steps.lean`, `Proof/Pair.lean`); linearity in Q: the cocycle of chords and the Frobenius eigenvalue; linearity in P: reciprocity between a line through P and P' and the chords of the loop (`Proof/Bilinear.lean`); no Weil reciprocity or divisor theory is assumed; the value at the generators is evaluated in the kernel on residues (`Proof/Nondeg.lean`) and equals the vector of the test suite, which gives nondegeneracy |
| C35-C37 | SHA-256, HMAC, HKDF, XMD | stream invariant against list-level specs |
| C38-C40 | key functions | composition; the loop of `secret_key` has a fuel argument; the salt chain is the one of draft 03 (later drafts hash the salt before its first use); aggregation false (lost carry): witness + `_partial`; `C40_exact`: right if and only if no step loses a carry |
| C41, C42 | aggregation, public_key | composition; order of the generators by kernel evaluation of the model on residues in ℕ (`Proof/NatEval.lean`) |
| C43 | unhardened derivation | composition; secret side uses the addition of C40: `_partial` and `C43_exact` (if and only if) |
| C44 | `fromMessage` (`Model/Signatures.lean`) | against hash_to_curve of RFC 9380 (`Spec/Signatures.lean`) over any function that meets the definition of SHA-256; lengths are `int`: negations for long messages and long tags, `_partial` |
| C45, C46 | `sign`, `verify`, `pop_prove`, `pop_verify` | from bilinearity and non-degeneracy: acceptance is equivalent to the existence of the secret key (`Proof/Signatures.lean`) |
| C47 | verification with infinity | false: infinity with infinity is accepted for every message; negations + `_partial` (`Proof/Signatures2.lean`) |
| C48 | `aggregate_verify` | decision as an equation of pairings, invariance under permutations |
| C49 | `pop_fast_aggregate_verify` | equal to `verify` of the sum for keys on the curve; false for keys off the curve, where the addition formulas are not associative (four keys, evaluated in the kernel) |
| C51 | UB outcomes (`none`) of all modelled functions | exact conditions (`Proof/Undefined.lean`, `Props/Undefined.lean`); shifts of the division and of the window sums are modelled with their amounts; reads of spans and `std::array`s by constant indices are not repeated as outcomes |
| C52 | the in-place functions on a heap of objects (`Model/Alias.lean`) and the word loops, `scalar::rsh` and `bn_divn_safe` on memory (`Model/DivisionMem.lean`, `Model/ScalarMem.lean`) | each equals one update of the destination by the value function, by cases on which objects coincide; induction over the words for the loops (`Proof/Alias.lean`, `Proof/DivisionMem.lean`); `fp6::mulBy01Assign` is wrong for its own `c2`: negation, exact condition, `_partial` |
| C53 | tags and encoding of `sign`, `pop_prove` (`Model/Signatures.lean`) | the tags as lists of ASCII codes and the encoding of the key in `Spec/Signatures.lean`; `Props/Tags.lean` |
| C54 | `operator<=>`, `operator==` (`Model/Order.lean`) | word comparison is comparison of the numbers, defaulted operators are lexicographic products (`Proof/Order.lean`) |
| C55 | `verify`, `sign` (`Model/Signatures.lean`) | multiples of a point of order `q` are determined by the factor (`Proof/Binding.lean`); the example uses the hash of `abc`, evaluated by the kernel on residues (`Proof/HashEval.lean`: the map from residues to the field commutes with hashing; `Proof/HashValues.lean`) |
| C56 | `verify`, `aggregate_verify`, `pop_fast_aggregate_verify` | every verdict is an equation between sums of multiples of hashes (`Proof/Binding.lean`) |
| C57 | `pop_fast_aggregate_verify` | the same equation (`Proof/Binding.lean`) |
| C58 | operations, tests, encoders, `add_pair`, verifiers | `Spec/Same.lean`: two triples stand for one point; every function is expressed through the point (`Proof/Same.lean`); the exceptions with witnesses, SHA-256 evaluated in the kernel |
| C59 | decoders after encoders, then `verify`, `pop_verify` | C26, C27 and C58 composed |
| C60 | hash-to-field, `secret_key`, unhardened derivation | strings of a length are in bijection with the numbers below `256^n`; counting a residue class (`Proof/Balance.lean`) |
| C61 | the nine assembly routines on the machine of `Model/X86.lean` | the accesses of a run are listed by `trace` (`Spec/Trace.lean`); an abstract execution that knows only the pointers is sound for every instruction and is evaluated on the code (`Proof/Trace.lean`). Not modelled: latency of instructions, caches |
| C62 | `glvEndomorphism`, `psi`, `g2::frobeniusMap` | group homomorphisms given by coordinates; the characteristic equation follows from the relation that generated the order of the curve (`Proof/Endomorphism.lean`) |
| C63 | `class fp` on arbitrary words (`Model/Fp.lean`, `Model/X86Ops.lean`) | `Fp.Means` (`Spec/Unreduced.lean`) is `Rep` without canonicity; the routines are already known on all words, the loop of `inverse` is followed on multiples of `p` as well |
| C64 | `class fp` over the portable routines (`Model/FpP.lean`), all layers above unchanged | conversions, codecs and hashing to the field agree because `_multiply` is exact; false otherwise: chosen points and a chosen key on which the builds decide differently, evaluated by the kernel on the portable side and from C26, C45, C58 on the other; `Props/BuildsExact.lean` characterises the operands on which the field operations of the builds agree (iff for the linear ones, `Props/SquareExact.lean` iff for squares, sufficient for the inverse) |
| C65 | `scale`, `public_key`, `sign` with the list of their calls (`Model/ScaleRun.lean`) | false: the calls are the binary digits of the key (induction over the loop), so they determine it |
| C66 | `cpu_has_bmi2_and_adx`, `resolve_blsmul`, `bls_mul_init` (`Model/Dispatch.lean`) on the bytes of the stack of a process | `Spec/Process.lean`: features from the manual, stack from the ABI, execution that stops at an instruction the processor does not have; induction over the environment; which extensions a routine needs is computed from its instruction list |
| C67 | composition of `weightedSum`, `publicKey`, `sign`, `verify` | `Spec/Threshold.lean` (shares and factors over `ZMod q`); C25 and C46 plus Lagrange interpolation of Mathlib |
| C68 | composition of the derivation functions along a path | `Spec/Derivation.lean` (paths, the added numbers); induction over the path with the exact form of C43; C46 for the signatures |
| C69 | the variables of the loop (`Model/InverseRun.lean`) next to `Fp.inverse` | `Spec/Kaliski.lean` (the algorithm on integers); invariant `u s + v r = p`, product at least halves, one number doubles at most per round |
| C70 | composition of `toAffineBytes`, `sign`, `aggregateVerify` as in `test/unittests.cpp:1963-1990` | C26 for the bytes, C45 for honest signers, the equation of C56 for the rogue key; hashes of the example evaluated by the kernel on residues |
| C71 | the models of C36-C38 and C43 | `Spec/Collision.lean` (the strings hashed on the way); the encodings of the inputs are injective, level by level; C36, C37, C38 for the model |
| C72 | the models of C33 and C34 | the value at the generators is a primitive q-th root of unity, its powers are all roots (`Proof/Target.lean`); `q²` does not divide `p¹² - 1` |
| C73 | the models of C31 and C44; `Model/HashPoint.lean` (`fromMessage` as a function of its buffer) | the maps are those of RFC 9380 (C31); coordinates with a given image are roots of polynomials of degree 2, 3 and 11, the sign fixes the rest (`Proof/Few.lean`); multiplication by the cofactor has `h` preimages; C60 for the bytes (`Proof/MapCount.lean`) |
| C74 | the models of C32 and C33 | the multiples of the point that the loop meets and the order of the curve have no common factor but 13 (kernel computation), so all lines are nonzero; for order 13 the loop passes through the point at infinity and reaches (0,0,0) (`Proof/PairZero.lean`) |
| C75 | the models of C32-C34 | the cocycle of lines of C34 needs the first argument only to have x ≠ 0; at x = 0 the loop stays in the field of p⁴ elements, which the final exponentiation sends to one; the curve has no points of order 6 or 9, so addition is compared at triple points (`Proof/PairAny.lean`) |
| C76 | the models of C22-C24 | the proof of the group law holds for every constant c ≠ 0; on the cusp triples are parametrised as (u², u³, t u), addition adds the t (`Proof/OffCurve.lean`) |
| C77 | the models of C27, C28 and C45 | exactness of the decoders with the uniqueness of valid signatures; multiples of the generator with and without room evaluated by the kernel (`Proof/Strings.lean`) |
| C78 | `scale`, `weightedSum` and `aggregate_verify` as modelled for C24, C25 and C45 | the decision as a linear equation in the weights over the group of order r; a point of order 13 by kernel evaluation (`Proof/Batch.lean`) |
| C79 | the templates of signatures.hpp with predicate and `aggregate_verify` | the sum of the scalars of the selected keys and linearity (`Proof/Quorum.lean`) |
| C80 | the text of these functions with a heap of blocks, stores and loads through it, `none` for null, freed or too short blocks (`Model/Malloc.lean`) | every function evaluated exactly on any heap, the expansion by induction over its blocks (`Proof/Malloc.lean`, `Proof/MallocKeys.lean`) |
| C81 | as C46 and C57 | discrete logarithms of the keys from the exact characterisation of pop_verify; linear algebra modulo r (`Proof/PopRogue.lean`) |
| C82 | the object left behind by `digest` (`Model/Sha256Object.lean`) | invariant with the stream and the count as separate quantities (`Proof/Sha256Object.lean`) |
| C83 | nothing new | `pop_fast_aggregate_verify` reduced to `verify` of the sum (`Proof/Cancel.lean`) |
| C84 | the division again with counters (`Model/DivisionRun.lean`), same value | each correction removes the two top words of the divisor from an excess bounded by their lower word (`Proof/DivisionRun.lean`) |
| C85 | the loops again with the list of their steps (`Model/CallbackSteps.lean`), same values and calls | a bound on the steps since the last call is carried through the loops (`Proof/CallbackSteps.lean`) |
| C86 | `hkdf_mod_r` of the final EIP (`Spec/Eip2333.lean`) | its attempts are those of C38 without the first; witness by evaluation in the kernel |
| C87 | the decisions of the draft on points (`Spec/Cfrg.lean`) | from C45 and C49 by splitting off keys that are infinity; witnesses by evaluation of the hash in the kernel |
| C88 | the functions with the storage of the base points as it is before and after initialisation (`Model/StaticInit.lean`); zeros before it are an assumption about implementations, the language leaves it undefined | the base point is infinity in the group law |
| C89 | `sqrt` of C10 and C18; `FirstNotSquare` (`Spec/WhichRoot.lean`) | the root of s^2 is s times the quadratic character of the trace of s |
| C90 | `addPair`, `calculate` of C32–C34 | induction over the list with bilinearity and the order of the pairing of the generators |
| C91 | `Model/Eip2537.lean`: the caller, which is not code of the repository, over the modelled functions; `Spec/Eip2537.lean`: the standard | the affine codec of C26, the group law, C25, C29, C90 and the comparison with RFC 9380 of C31; the triple (0,0,1) of the exceptions is written as zeros, which is infinity |
| C92 | composition of `weightedSum`, `publicKey`, `equal`, `sign`, `verify` | `Spec/Threshold.lean`; C25 turns acceptance into an equation in the subgroup, which is cyclic; Lagrange interpolation; the counterexample uses the point (0, 2) of order 3 |
| C93 | composition of `scale`, `fromMessage`, `sign`, `verify` | C24, C46; the subgroup of order q is cyclic, each of its points except infinity generates it; for the last statement explicit points of orders 13, 23, 2713, 11953, 262069 |
| C94 | composition of `scale`, `addPair`, `calculate`, `fromMessage`, `verify` | C34 and the primitivity of the pairing value of C72 turn equality of secrets into equations modulo q; C46 |
| C95 | a caller (no code of /repo) of the modelled functions, `Model/HostBytes.lean` against the relations of `Spec/HostBytes.lean` | codecs of C26, C50, C07; C09, C15, C29, C31, C90; every relation determines its output |
| C96 | the text of these functions with sums of `size_t` modulo `2^w` and both kinds of `char` (`Model/Platform.lean`) | equal to the models of C16, C25, C36, C38 while the lengths fit, and undefined otherwise (`Proof/Platform.lean`) |
| C97 | the text of these functions with the content of every block at its `free` (`Model/Freed.lean`), against the list of values of the standards that stand there (`Spec/Freed.lean`) | the loops followed with their buffers (`Proof/Freed.lean`) |
| C98 | the six routines with the outcomes of the conditions they evaluate (`Model/BranchRun.lean`), against a description by the unreduced value alone (`Spec/BranchRun.lean`) | twelve cases of the comparison; the unreduced values as in C03; induction over the doublings (`Proof/BranchRun.lean`) |
| C99 | `weightedSum` with the list of its accesses to elements (`Model/BucketRun.lean`), against a pattern made from the digits of natural numbers (`Spec/BucketRun.lean`) | the pattern can be read off from left to right (`Proof/BucketRun.lean`) |
| C100 | the branches of the loop of `fp::inverse` (`Model/InverseBranches.lean`), against those of the algorithm on integers and its undoing (`Spec/InverseBranches.lean`) | each round can be undone when its branch is known (`Proof/InverseBranches.lean`) |
| C101 | the decoders of `Model/GroupCodec.lean`; numbers of strings as `Set.ncard` | the codec theorems C26 and C28, the orders of the curves C29 and a count of the triples of a point (`Proof/Counts.lean`) |
| C102 | the five functions with pointers into one memory, local arrays as separate objects, `memcpy` undefined for ranges that overlap (`Model/Buffers.lean`) | induction over the blocks for all placements, then the case of separate ranges (`Proof/Buffers.lean`); three concrete overlaps refute the unrestricted claim |
| C103 | byte memory in little-endian order; the loops of `scalar.hpp` with a read of the memory in every step, the members of the classes with temporaries (`Model/Overlay.lean`, `Model/OverlayPoint.lean`) | every function is a sequence of steps that read and store blocks of equal size; one lemma for all orders (`Proof/Overlay.lean`); in place the second half of the steps changes nothing; affine and compressed encoders read nothing after the first write |
| C104 | the elements of the spans belong to the state on which the callback acts and are read at the moment of the access (`Model/LiveArguments.lean`) | induction over the windows with the number of calls made so far; for the pairing the live run equals the run on the mixed list (`Proof/LiveArguments.lean`) |
| C105 | `operator new` that may refuse every request, blocks with number and size, destructors on every way out, capacity of the vector of pairs, nodes of the set (`Model/Vectors.lean`) | one invariant, own blocks above older ones, kept by every request and release (`Proof/Vectors.lean`, `Proof/VectorsVerify.lean`) |
| C106 | the calls of a user: `weightedSum`, `subtract`, `scale`, `add_pair`, `calculate` (`Props/Commitment.lean`); polynomials of Mathlib (`Spec/Commitment.lean`) | with the equation of `C90_opening`; the secrets that accept a false value are roots of a polynomial other than zero; points of order 3 |
| C107 | the calls of a verifier: `weightedSum`, `add`, `negate`, `add_pair`, `calculate` (`Props/Snark.lean`) | the product of pairings of C90 and the weighted sum of C25, then arithmetic in the integers modulo the group order; points of order 3 |
| C108 | the calls of a verifier: `scale`, `add`, `equal`, `verify` (`Props/Knowledge.lean`) | the group laws of C22 and C24, arithmetic in the integers modulo the group order, `verify` of C46; points of order 3 |
| C109 | the calls of a user: `weightedSum`, `scale`, `add`, `equal` (`Props/Vector.lean`) | the weighted sum of C25, then arithmetic in the integers modulo the group order |
| C110 | the calls of a user: `scale`, `add`, `subtract`, `weightedSum` (`Props/Encryption.lean`) | the group law of C22, the multiples of C24 and C25, then arithmetic in the integers modulo the group order; for the last statement the sum of points of the prime orders 3, 11, 10177, 859267, 52437899 |
| C111 | the calls of a user: `scale`, `add`, `subtract` of the second group, `add_pair`, `calculate`, `verify` (`Props/Escrow.lean`) | the product of pairings of C90 and the exact condition of `verify` of C46 as equations modulo the group order |
| C112 | the calls of a user: `scale`, `add` of the second group, `negate`, `add_pair`, `calculate` (`Props/WeakSignature.lean`) | the product of pairings of C90 as an equation modulo the group order |
| C113 | the calls of a user: `scale`, `add`, `subtract`, `negate`, `add_pair`, `calculate` (`Props/Accumulator.lean`) | the product of pairings of C90 as an equation modulo the group order; the product over the list by induction |

If some step turns out to be out of reach the theorem keeps the missing fact as a
named hypothesis, carries the suffix `_partial`, and the table of section 4 says so.

## 3. Trusted base

* Lean 4.33.0 kernel; axioms `propext`, `Classical.choice`, `Quot.sound` only.
* The reading of the C++/assembly text (no mechanical extraction from C++;
  the assembly instruction lists are generated from the text by a script).
* The semantics given to the used x86-64 instructions.

The reading of the text is tested (not proved): `validation/vectors.py` prints a Lean file that evaluates the model on the
vectors of `/repo/test` (104 signature vectors, the IETF signature, four key derivations of EIP-2333, ten map-to-curve
points, the pairing of the generators; one signature vector also on the modelled x86-64 instructions). All agree.
`validation/unittests.py` does the same for the other tests of `test/unittests.cpp` that have no random input: verification of
single, aggregate, same-message and augmented signatures, proofs of possession, unhardened keys, `modPrime`, `exp`, corner cases and
unreduced operands of the x86-64 routines, and rejected encodings; the maps to the curves are repeated on the modelled instructions.

## 4. Status

See `MANIFEST.json`.
