import Verif.Proof.KeysExact
import Verif.Proof.FpV

/-!
# C38-C43: keys

Key generation is stated against the drafts (`Spec/Keys.lean`) for `H` = SHA-256. `fuel` bounds the number of
iterations of the unbounded loop of `secret_key`; the result `some none` means that the loop has not ended. `junk` is
the content of arrays that C++ leaves uninitialised.
-/

namespace Bls.Props
open Bls Keys

/-! ## C38 -/

section
variable {H : List UInt8 → List UInt8} (hH : ∀ m, Fips.IsSha256 m (H m))

section
include hH

/-- C38: for a seed of at least 32 bytes there is no undefined behaviour, and `secret_key` returns a key iff it is the
first non-zero candidate of the salt chain; keys lie in `[1, q-1]`. -/
theorem C38_secretKey (junk : List UInt8) (hj : junk.length = 48) (seed : List UInt8) (hs : 32 ≤ seed.length) :
    (∀ fuel, secretKey junk fuel seed ≠ none) ∧
    (∀ fuel sk, secretKey junk fuel seed = some (some sk) → sk.length = 4 ∧ KeyGen.IsKey H seed (wordsVal sk) ∧
      1 ≤ wordsVal sk ∧ wordsVal sk ≤ q - 1) ∧
    (∀ k, KeyGen.IsKey H seed k → ∃ fuel sk, secretKey junk fuel seed = some (some sk) ∧ wordsVal sk = k) := by
  refine ⟨fun fuel => ?_, fun fuel sk h => ?_, fun k hk => ?_⟩
  · obtain ⟨r, h, _⟩ := secretKey_iff hH junk hj fuel seed hs
    rw [h]; exact Option.some_ne_none _
  · obtain ⟨r, h1, h2⟩ := secretKey_iff hH junk hj fuel seed hs
    rw [h1, Option.some.injEq, h2] at h
    obtain ⟨h3, n, _, h4, h5, h6⟩ := h
    have := candidate_lt (H := H) seed n
    exact ⟨h3, ⟨n, h4, h5, h6⟩, by omega, by omega⟩
  · obtain ⟨n, h1, h2, h3⟩ := hk
    obtain ⟨r, h4, h5⟩ := secretKey_iff hH junk hj (n + 1) seed hs
    have hlt := candidate_lt (H := H) seed n
    obtain ⟨sk, hl, hv⟩ : ∃ sk : List UInt64, sk.length = 4 ∧ wordsVal sk = k := exists_words (h2 ▸ hlt)
    refine ⟨n + 1, sk, ?_, hv⟩
    rw [h4, Option.some.injEq, h5]
    exact ⟨hl, n, Nat.lt_succ_self n, h1, by rw [h2, hv], by rw [hv]; exact h3⟩

/-- C38: `parent_sk_to_lamport_pk` is the function of EIP-2333, and `derive_child_sk` returns exactly the key of the
key generation applied to it, in `[1, q-1]`. -/
theorem C38_deriveChildSk (junk0 junk1 junk : List UInt8) (h0 : junk0.length = 8160) (h1 : junk1.length = 8160)
    (hj : junk.length = 48) (parent : List UInt64) (hp : parent.length = 4) (index : UInt32) :
    parentSkToLamportPk junk0 junk1 parent index = some (KeyGen.lamportPk H (wordsVal parent) index.toNat) ∧
    (∀ fuel, deriveChildSk junk0 junk1 junk fuel parent index ≠ none) ∧
    (∀ fuel sk, deriveChildSk junk0 junk1 junk fuel parent index = some (some sk) → sk.length = 4 ∧
      KeyGen.IsKey H (KeyGen.lamportPk H (wordsVal parent) index.toNat) (wordsVal sk) ∧
      1 ≤ wordsVal sk ∧ wordsVal sk ≤ q - 1) := by
  have e := lamport_eq hH junk0 junk1 h0 h1 parent hp index
  have hl : 32 ≤ (KeyGen.lamportPk H (wordsVal parent) index.toNat).length := (lamportPk_length hH _ _).ge
  obtain ⟨k1, k2, _⟩ := C38_secretKey hH junk hj _ hl
  refine ⟨e, fun fuel => ?_, fun fuel sk h => ?_⟩
  · unfold deriveChildSk
    simp only [e]
    exact k1 fuel
  · unfold deriveChildSk at h
    simp only [e] at h
    exact k2 fuel sk h

end

/-- C38: seeds of less than 32 bytes give the key `0`. -/
theorem C38_short_seed (junk : List UInt8) (fuel : ℕ) (seed : List UInt8) (hs : seed.length < 32) :
    secretKey junk fuel seed = some (some [0, 0, 0, 0]) := by
  rw [secretKey, if_pos hs]

/-- EIP-2333 (version of 2020, `test/unittests.cpp:1703`): the master key of the seed `c55257c3…`. -/
example : secretKey (List.replicate 48 7) 1
    [0xc5, 0x52, 0x57, 0xc3, 0x60, 0xc0, 0x7c, 0x72, 0x02, 0x9a, 0xeb, 0xc1, 0xb5, 0x3c, 0x05, 0xed,
     0x03, 0x62, 0xad, 0xa3, 0x8e, 0xad, 0x3e, 0x3e, 0x9e, 0xfa, 0x37, 0x08, 0xe5, 0x34, 0x95, 0x53,
     0x1f, 0x09, 0xa6, 0x98, 0x75, 0x99, 0xd1, 0x82, 0x64, 0xc1, 0xe1, 0xc9, 0x2f, 0x2c, 0xf1, 0x41,
     0x63, 0x0c, 0x7a, 0x3c, 0x4a, 0xb7, 0xc8, 0x1b, 0x2f, 0x00, 0x16, 0x98, 0xe7, 0x46, 0x3b, 0x04] =
    some (some [0x2df5b465a674ecfb, 0x621eb2837c71a136, 0x1cc8f190cdd51c05, 0xbefcabff4a66446]) := by decide +kernel

/-- The seed of 32 bytes 7, and the child 0 of the key 3. -/
example (hH : ∀ m, Fips.IsSha256 m (H m)) : (∀ fuel, secretKey (List.replicate 48 1) fuel (List.replicate 32 7) ≠ none) ∧
    parentSkToLamportPk (List.replicate 8160 0) (List.replicate 8160 1) [3, 0, 0, 0] 0 = some (KeyGen.lamportPk H 3 0) :=
  ⟨(C38_secretKey hH _ List.length_replicate _ List.length_replicate.ge).1,
    (C38_deriveChildSk hH _ _ (List.replicate 48 0) List.length_replicate List.length_replicate List.length_replicate [3, 0, 0, 0] rfl 0).1⟩

end

/-! ## C39 -/

/-- C39: the two modes of `sk_from_bytes`. -/
theorem C39_fromBytes (bs : List UInt8) (h : bs.length = 32) :
    (∃ sk, skFromBytes bs true = some sk ∧ sk.length = 4 ∧ wordsVal sk = beVal bs % q) ∧
    (∃ sk, skFromBytes bs false = some sk ∧ sk.length = 4 ∧ wordsVal sk = if beVal bs < q then beVal bs else 0) :=
  ⟨skFromBytes_mod bs h, skFromBytes_check bs h⟩

/-- `0xff` 32 times is larger than `q`: reduced in one mode, zero in the other. -/
example : (∃ sk, skFromBytes (List.replicate 32 0xff) true = some sk ∧ wordsVal sk = (2 ^ 256 - 1) % q) ∧
    ∃ sk, skFromBytes (List.replicate 32 0xff) false = some sk ∧ wordsVal sk = 0 := by
  obtain ⟨⟨a, h1, -, h2⟩, b, h3, -, h4⟩ := C39_fromBytes (List.replicate 32 0xff) (by decide)
  exact ⟨⟨a, h1, h2.trans (by decide +kernel)⟩, b, h3, h4.trans (by decide +kernel)⟩

/-- C39: `sk_to_bytes` is the 32-byte big-endian form, and `sk_from_bytes` inverts it for keys below `q`, in both
modes. -/
theorem C39_roundtrip (sk : List UInt64) (hl : sk.length = 4) :
    (skToBytes sk).length = 32 ∧ beVal (skToBytes sk) = wordsVal sk ∧
    (wordsVal sk < q → ∀ mode, skFromBytes (skToBytes sk) mode = some sk) := by
  have h1 : (skToBytes sk).length = 32 := by rw [skToBytes, Scalar.toBytesBE_length, hl]
  have h2 : beVal (skToBytes sk) = wordsVal sk := Scalar.toBytesBE_val sk
  refine ⟨h1, h2, fun hq mode => ?_⟩
  cases mode
  · obtain ⟨k, k1, k2, k3⟩ := skFromBytes_check _ h1
    rw [h2, if_pos hq] at k3
    rw [k1, wordsVal_inj (k2.trans hl.symm) k3]
  · obtain ⟨k, k1, k2, k3⟩ := skFromBytes_mod _ h1
    rw [h2, Nat.mod_eq_of_lt hq] at k3
    rw [k1, wordsVal_inj (k2.trans hl.symm) k3]

example : wordsVal [0xffffffff00000000, 0x53bda402fffe5bfe, 0x3339d80809a1d805, 0x73eda753299d7d48] = q - 1 := by
  decide +kernel

/-! ## C40 -/

/-- C40, the full statement: `aggregate_secret_keys` is the sum modulo `q`. -/
def C40_full : Prop := ∀ sks : List (List UInt64), (∀ sk ∈ sks, sk.length = 4 ∧ wordsVal sk < q) →
  ∃ r, aggregateSecretKeys sks = some r ∧ r.length = 4 ∧ wordsVal r = (sks.map wordsVal).sum % q

/-- C40 is false: the keys `1` and `2^128-1` aggregate to `0` instead of `2^128`, because `Add64` loses the carry when
a word of the second operand is `2^64-1`. -/
theorem C40_false : ¬ C40_full := fun h => by
  obtain ⟨r, h1, _, h3⟩ := h [[1, 0, 0, 0], [0xffffffffffffffff, 0xffffffffffffffff, 0, 0]] (by decide +kernel)
  rw [aggregate_false, Option.some.injEq] at h1
  rw [← h1] at h3
  revert h3; decide +kernel

/-- C40 is false: the result depends on the order of the keys. -/
theorem C40_order_false : ∃ a b : List UInt64, a.length = 4 ∧ b.length = 4 ∧ wordsVal a < q ∧ wordsVal b < q ∧
    aggregateSecretKeys [a, b] ≠ aggregateSecretKeys [b, a] :=
  ⟨[1, 0, 0, 0], [0xffffffffffffffff, 0xffffffffffffffff, 0, 0], by decide +kernel⟩

/-- C40, the part that holds: the sum modulo `q` for lists of any length in which no key after the first contains a
word `2^64-1`; the first key is arbitrary. Missing: the lists of `C40_false`. -/
theorem C40_aggregate_partial (sk : List UInt64) (sks : List (List UInt64)) (h0 : sk.length = 4)
    (h : ∀ k ∈ sks, k.length = 4 ∧ wordsVal k < q ∧ ∀ w ∈ k, w.toNat ≠ 2 ^ 64 - 1) :
    ∃ r, aggregateSecretKeys (sk :: sks) = some r ∧ r.length = 4 ∧
      wordsVal r = ((sk :: sks).map wordsVal).sum % q := by
  rw [List.map_cons, List.sum_cons]
  exact aggregate_spec sk sks h0 h

/-- C40, the exact condition, for up to `2^61` keys: the result is the sum modulo `q` exactly when in no addition of a key to
the sum of the keys before it a carry meets a word `2^64-1` of the key. -/
theorem C40_exact (sks : List (List UInt64)) (hn : sks.length ≤ 2 ^ 61) (h : ∀ sk ∈ sks, sk.length = 4 ∧ wordsVal sk < q) :
    ∃ r, aggregateSecretKeys sks = some r ∧ r.length = 4 ∧ wordsVal r < q ∧
      (wordsVal r = (sks.map wordsVal).sum % q ↔ ∀ i sk, sks[i]? = some sk →
        ∀ k, ¬ CarryLost (((sks.take i).map wordsVal).sum % q) (wordsVal sk) k) := aggregate_exact sks hn h

/-- The keys of `C40_false`: the second one meets a carry in word 1. -/
example : (∀ sk ∈ ([[1, 0, 0, 0], [0xffffffffffffffff, 0xffffffffffffffff, 0, 0]] : List (List UInt64)), sk.length = 4 ∧ wordsVal sk < q) ∧
    CarryLost (wordsVal [1, 0, 0, 0] % q) (wordsVal [0xffffffffffffffff, 0xffffffffffffffff, 0, 0]) 1 := by
  unfold CarryLost; decide +kernel

/-- C40: the empty list gives `0`. -/
theorem C40_empty : aggregateSecretKeys [] = some [0, 0, 0, 0] := rfl

/-- Two keys whose sum exceeds `q`. -/
example : (∀ k ∈ [[0xffffffff00000000, 0x53bda402fffe5bfe, 0x3339d80809a1d805, (0x73eda753299d7d48 : UInt64)]],
    k.length = 4 ∧ wordsVal k < q ∧ ∀ w ∈ k, w.toNat ≠ 2 ^ 64 - 1) ∧
    aggregateSecretKeys [[2, 0, 0, 0], [0xffffffff00000000, 0x53bda402fffe5bfe, 0x3339d80809a1d805, 0x73eda753299d7d48]] =
      some [1, 0, 0, 0] := by
  decide +kernel

example : ∃ r, aggregateSecretKeys [[2, 0, 0, 0], [3, 0, 0, 0], [0, 0, 0, 5]] = some r ∧ r.length = 4 ∧
    wordsVal r = ([[2, 0, 0, 0], [3, 0, 0, 0], [0, 0, 0, 5]].map wordsVal).sum % q :=
  C40_aggregate_partial [2, 0, 0, 0] [[3, 0, 0, 0], [0, 0, 0, 5]] rfl (by decide +kernel)

/-! ## C41 -/

variable (adx : Bool)

/-- C41: the sum of the represented points; `0` for the empty list. -/
theorem C41_aggregate :
    (∀ (ps : List (G1 (FpV adx))) (Ps : List (E1 (FpV adx))), List.Forall₂ Jac.Rep ps Ps → (aggregate ps).Rep Ps.sum) ∧
    (∀ (ps : List (G2 (FpV adx))) (Ps : List (E2 (FpV adx))), List.Forall₂ Jac.Rep ps Ps → (aggregate ps).Rep Ps.sum) :=
  ⟨fun _ _ h => aggregate_rep (goodCurve1 _) h, fun _ _ h => aggregate_rep (goodCurve2 _) h⟩

/-- C41: the templates add exactly the elements `xs[i]` with `pred (xs[i]) i`. -/
theorem C41_aggregateIf {T : Type} (xs : List T) (pred : T → ℕ → Bool) :
    (∀ (f : T → G1 (FpV adx)) (P : ℕ → E1 (FpV adx)), (∀ i (h : i < xs.length), (f xs[i]).Rep (P i)) →
      (aggregateIf xs f pred).Rep (∑ i : Fin xs.length, if pred xs[i] i then P i else 0)) ∧
    (∀ (f : T → G2 (FpV adx)) (P : ℕ → E2 (FpV adx)), (∀ i (h : i < xs.length), (f xs[i]).Rep (P i)) →
      (aggregateIf xs f pred).Rep (∑ i : Fin xs.length, if pred xs[i] i then P i else 0)) :=
  ⟨fun f P h => aggregateIf_rep (goodCurve1 _) f pred xs P h, fun f P h => aggregateIf_rep (goodCurve2 _) f pred xs P h⟩

/-- C41: any order gives the same point. -/
theorem C41_order :
    (∀ (ps ps' : List (G1 (FpV adx))) (Ps : List (E1 (FpV adx))), List.Forall₂ Jac.Rep ps Ps → ps.Perm ps' →
      (aggregate ps).equal (aggregate ps') = true) ∧
    (∀ (ps ps' : List (G2 (FpV adx))) (Ps : List (E2 (FpV adx))), List.Forall₂ Jac.Rep ps Ps → ps.Perm ps' →
      (aggregate ps).equal (aggregate ps') = true) := by
  constructor
  · intro ps ps' Ps h hp
    obtain ⟨Ps', h1, h2⟩ := perm_forall₂ h hp
    exact (Jac.equal_iff (aggregate_rep (goodCurve1 _) h) (aggregate_rep (goodCurve1 _) h1)).2 h2.sum_eq
  · intro ps ps' Ps h hp
    obtain ⟨Ps', h1, h2⟩ := perm_forall₂ h hp
    exact (Jac.equal_iff (aggregate_rep (goodCurve2 _) h) (aggregate_rep (goodCurve2 _) h1)).2 h2.sum_eq

/-- C41: any grouping gives the same point. -/
theorem C41_grouping :
    (∀ (pss : List (List (G1 (FpV adx)))) (Pss : List (List (E1 (FpV adx)))), List.Forall₂ (List.Forall₂ Jac.Rep) pss Pss →
      (aggregate (pss.map aggregate)).equal (aggregate pss.flatten) = true) ∧
    (∀ (pss : List (List (G2 (FpV adx)))) (Pss : List (List (E2 (FpV adx)))), List.Forall₂ (List.Forall₂ Jac.Rep) pss Pss →
      (aggregate (pss.map aggregate)).equal (aggregate pss.flatten) = true) :=
  ⟨fun _ _ h => aggregate_grouping (goodCurve1 _) h, fun _ _ h => aggregate_grouping (goodCurve2 _) h⟩

example : List.Forall₂ Jac.Rep [(G1.one : G1 (FpV adx)), G1.one.negate, Jac.zero] [gen1 (FpV adx), -gen1 (FpV adx), 0] :=
  .cons G1.one_rep (.cons (Jac.neg_rep G1.one_rep) (.cons Jac.zero_rep .nil))

/-! ## C42 -/

/-- C42: `public_key(sk)` is `sk·G`, for all four-word keys (below `q` or not); its coordinates are affine unless it
is infinity, which happens exactly for multiples of `q`. -/
theorem C42_publicKey (sk : List UInt64) :
    (publicKey sk : G1 (FpV adx)).Rep (wordsVal sk • gen1 (FpV adx)) ∧
    ((publicKey sk : G1 (FpV adx)).isZero = true ↔ q ∣ wordsVal sk) ∧
    (¬ q ∣ wordsVal sk → (publicKey sk : G1 (FpV adx)).z = 1) := by
  have h := publicKey_rep (K := FpV adx) sk
  refine ⟨h, by rw [h.isZero_iff, smul_gen1_eq_zero_iff], fun h0 => ?_⟩
  exact Jac.affine_z (Jac.scale_rep (goodCurve1 _) G1.one_rep sk) (by rwa [Ne, smul_gen1_eq_zero_iff])

/-- C42: the public key of `a + b mod q` is the sum of the public keys; the aggregate of the public keys of a list is
the public key of the sum of the keys modulo `q`. -/
theorem C42_homomorphism :
    (∀ a b c : List UInt64, wordsVal c = (wordsVal a + wordsVal b) % q →
      ((publicKey a : G1 (FpV adx)).add (publicKey b)).equal (publicKey c) = true) ∧
    (∀ (sks : List (List UInt64)) (c : List UInt64), wordsVal c = (sks.map wordsVal).sum % q →
      (aggregate (sks.map fun sk => (publicKey sk : G1 (FpV adx)))).equal (publicKey c) = true) := by
  constructor
  · intro a b c h
    have h1 := Jac.add_rep (goodCurve1 _) (publicKey_rep (K := FpV adx) a) (publicKey_rep b)
    rw [Jac.equal_iff h1 (publicKey_rep c), h, smul_gen1_mod, add_smul]
  · intro sks c h
    rw [Jac.equal_iff (aggregate_publicKeys sks) (publicKey_rep c), h, smul_gen1_mod]

/-- C42: equal keys modulo `q` and only those give equal public keys. -/
theorem C42_injective (a b : List UInt64) :
    (publicKey a : G1 (FpV adx)).equal (publicKey b) = true ↔ wordsVal a % q = wordsVal b % q := by
  rw [Jac.equal_iff (publicKey_rep a) (publicKey_rep b), smul_gen1_eq_iff]

example : ¬ q ∣ wordsVal [5, 0, 0, 0] ∧ wordsVal [1, 0, 0, 0] = (wordsVal [2, 0, 0, 0] +
    wordsVal [0xffffffff00000000, 0x53bda402fffe5bfe, 0x3339d80809a1d805, 0x73eda753299d7d48]) % q := by
  decide +kernel

/-! ## C43 -/

/-- C43, the full statement. -/
def C43_full : Prop := ∀ (sk : List UInt64) (i : UInt32), sk.length = 4 → wordsVal sk < q →
  ∃ c d, deriveChildSkUnhardened (FpV adx) sk i = some c ∧
    deriveChildG1Unhardened (publicKey sk : G1 (FpV adx)) i = some d ∧ d.equal (publicKey c) = true

/-- C43, the part that holds: derivation on the public side is that of the secret side whenever no 64-bit word of the
reduced digest is `2^64-1`. Missing: the digests with such a word, for which the addition of the secret side may lose a
carry (C40); no message with such a digest is known. -/
theorem C43_commutes_partial {H : List UInt8 → List UInt8} (hH : ∀ m, Fips.IsSha256 m (H m)) (sk : List UInt64)
    (i : UInt32) (hl : sk.length = 4)
    (hd : ∀ k < 4, beVal (H (G1.toCompressedBytesBE (publicKey sk : G1 (FpV adx)) ++ Fips.be 4 i.toNat)) % q
      / 2 ^ (64 * k) % 2 ^ 64 ≠ 2 ^ 64 - 1) :
    ∃ c d, deriveChildSkUnhardened (FpV adx) sk i = some c ∧
      deriveChildG1Unhardened (publicKey sk : G1 (FpV adx)) i = some d ∧ d.equal (publicKey c) = true ∧
      wordsVal c = (wordsVal sk + beVal (H (G1.toCompressedBytesBE (publicKey sk : G1 (FpV adx)) ++ Fips.be 4 i.toNat))) % q :=
  child_commutes hH sk i hl hd

/-- C43, the exact condition: both sides agree exactly when in the sum of the key and the reduced digest no carry meets a word
`2^64-1` of the digest. -/
theorem C43_exact {H : List UInt8 → List UInt8} (hH : ∀ m, Fips.IsSha256 m (H m)) (sk : List UInt64) (i : UInt32)
    (hl : sk.length = 4) (hq : wordsVal sk < q) :
    ∃ c d, deriveChildSkUnhardened (FpV adx) sk i = some c ∧ c.length = 4 ∧ wordsVal c < q ∧
      deriveChildG1Unhardened (publicKey sk : G1 (FpV adx)) i = some d ∧
      (d.equal (publicKey c) = true ↔ ∀ k, ¬ CarryLost (wordsVal sk)
        (beVal (H (G1.toCompressedBytesBE (publicKey sk : G1 (FpV adx)) ++ Fips.be 4 i.toNat)) % q) k) :=
  child_exact hH sk i hl hq

/-- C43: what the public side computes, without restriction, on both groups. -/
theorem C43_public_side {H : List UInt8 → List UInt8} (hH : ∀ m, Fips.IsSha256 m (H m)) (i : UInt32) :
    (∀ (pk : G1 (FpV adx)) (P : E1 (FpV adx)), pk.Rep P → ∃ d, deriveChildG1Unhardened pk i = some d ∧
      d.Rep (P + beVal (H (G1.toCompressedBytesBE pk ++ Fips.be 4 i.toNat)) • gen1 (FpV adx))) ∧
    (∀ (pk : G2 (FpV adx)) (P : E2 (FpV adx)), pk.Rep P → ∃ d, deriveChildG2Unhardened pk i = some d ∧
      d.Rep (P + beVal (H (G2.toCompressedBytesBE pk ++ Fips.be 4 i.toNat)) • gen2 (FpV adx))) :=
  ⟨fun pk P h => childG1_rep hH pk P h i, fun pk P h => childG2_rep hH pk P h i⟩

/-- The hypothesis of `C43_commutes_partial` for the key `1` and index `0`. -/
theorem child_case {H : List UInt8 → List UInt8} (hH : ∀ m, Fips.IsSha256 m (H m)) : ∀ k < 4,
    beVal (H (G1.toCompressedBytesBE (publicKey [1, 0, 0, 0] : G1 (FpV adx)) ++ Fips.be 4 (0 : UInt32).toNat)) % q
      / 2 ^ (64 * k) % 2 ^ 64 ≠ 2 ^ 64 - 1 := by
  rw [compressed_gen1 (K := FpV adx), ← Hash.hash_sha_one hH]
  decide +kernel

/-- So for this key both sides agree, and no carry is lost. -/
example {H : List UInt8 → List UInt8} (hH : ∀ m, Fips.IsSha256 m (H m)) :
    (∃ c d, deriveChildSkUnhardened (FpV adx) [1, 0, 0, 0] 0 = some c ∧
      deriveChildG1Unhardened (publicKey [1, 0, 0, 0] : G1 (FpV adx)) 0 = some d ∧ d.equal (publicKey c) = true) ∧
    ∀ k, ¬ CarryLost 1 (beVal (H (G1.toCompressedBytesBE (publicKey [1, 0, 0, 0] : G1 (FpV adx)) ++ Fips.be 4 0)) % q) k := by
  obtain ⟨c, d, h1, h2, h3, -⟩ := C43_commutes_partial adx hH [1, 0, 0, 0] 0 rfl (child_case adx hH)
  obtain ⟨c', d', k1, -, -, k2, k3⟩ := C43_exact adx hH [1, 0, 0, 0] 0 rfl (by decide +kernel)
  cases h1.symm.trans k1
  cases h2.symm.trans k2
  exact ⟨⟨c, d, h1, h2, h3⟩, k3.1 h3⟩

end Bls.Props
