import Verif.Proof.Signatures
import Mathlib.Data.Int.CardIntervalMod
import Mathlib.Data.Set.Card

/-! How many byte strings reduce to a given residue. -/

namespace Bls

attribute [local irreducible] p q

theorem strings_card (n m v : ℕ) (hm : 0 < m) (hv : v < m) : {bs : List UInt8 | bs.length = n ∧ beVal bs % m = v}.ncard =
    256 ^ n / m + if v < 256 ^ n % m then 1 else 0 := by
  have hi : Set.InjOn beVal {bs : List UInt8 | bs.length = n ∧ beVal bs % m = v} := fun a ha b hb h =>
    beVal_inj (ha.1.trans hb.1.symm) h
  rw [← Set.ncard_image_of_injOn hi]
  have e : beVal '' {bs : List UInt8 | bs.length = n ∧ beVal bs % m = v} =
      ((Finset.range (256 ^ n)).filter (· ≡ v [MOD m]) : Finset ℕ) := by
    ext k
    rw [Set.mem_image, Finset.mem_coe, Finset.mem_filter, Finset.mem_range]
    constructor
    · rintro ⟨bs, ⟨h1, h2⟩, rfl⟩
      exact ⟨h1 ▸ beVal_lt bs, by rw [Nat.ModEq, h2, Nat.mod_eq_of_lt hv]⟩
    · rintro ⟨h1, h2⟩
      refine ⟨Fips.be n k, ⟨Sha256.be_length _ _, ?_⟩, ?_⟩
      · rw [Keys.be_val, Nat.mod_eq_of_lt h1, h2, Nat.mod_eq_of_lt hv]
      · rw [Keys.be_val, Nat.mod_eq_of_lt h1]
  rw [e, Set.ncard_coe_finset, ← Nat.count_eq_card_filter_range, Nat.count_modEq_card _ hm, Nat.mod_eq_of_lt hv]

/-- The same number, up to less than `m`, for all residues. -/
theorem strings_balanced (n m v : ℕ) (hm : 0 < m) (hv : v < m) :
    {bs : List UInt8 | bs.length = n ∧ beVal bs % m = v}.ncard = 256 ^ n / m ∨
    {bs : List UInt8 | bs.length = n ∧ beVal bs % m = v}.ncard = 256 ^ n / m + 1 := by
  rw [strings_card n m v hm hv]
  split_ifs
  · exact Or.inr rfl
  · exact Or.inl rfl

section
variable {K : Type} [Field K] [FpOps K] [LawfulFp K] [DecidableEq K]

theorem fieldElement_string {bs : List UInt8} (h : bs.length = 64) : (Sig.fieldElement bs 0 : Option K) = some (beVal bs : K) := by
  rw [Sig.fieldElement, Sig.modPrime_eq _ (by rw [Scalar.fromBytesBE_length]; decide), span, List.drop_zero,
    List.take_of_length_le h.le, Scalar.fromBytesBE_val 8 bs h]

theorem fieldElement_set (v : ℕ) (hv : v < p) : {bs : List UInt8 | bs.length = 64 ∧ Sig.fieldElement bs 0 = some (v : K)} =
    {bs : List UInt8 | bs.length = 64 ∧ beVal bs % p = v} := by
  ext bs
  refine and_congr_right fun h => ?_
  rw [fieldElement_string h, Option.some.injEq, IsFp.natCast_eq_iff, Nat.mod_eq_of_lt hv]

end

/-- Reduction of a big-endian string modulo the group order. -/
theorem divQ_set (n : ℕ) (hn : 4 ≤ n) (sk : List UInt64) (hl : sk.length = 4) :
    {bs : List UInt8 | bs.length = 8 * n ∧ ∃ c, Division.divnSafe (Scalar.fromBytesBE n bs) FpC.Q = some (c, sk)} =
    {bs : List UInt8 | bs.length = 8 * n ∧ beVal bs % q = wordsVal sk} := by
  ext bs
  refine and_congr_right fun h => ?_
  obtain ⟨c, d, h1, h2, h3⟩ := Keys.divQ (Scalar.fromBytesBE n bs) (by rw [Scalar.fromBytesBE_length]; exact hn)
  rw [Scalar.fromBytesBE_val n bs h] at h3
  rw [h1, ← h3]
  constructor
  · rintro ⟨c', e⟩
    rw [(Prod.mk.inj (Option.some.inj e)).2]
  · intro e
    exact ⟨c, by rw [wordsVal_inj (h2.trans hl.symm) e]⟩

end Bls
