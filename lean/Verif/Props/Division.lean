import Verif.Proof.Division
import Verif.Proof.Codec

/-!
# C15: division and reduction

A result `some …` means in particular that no buffer was accessed out of bounds and that the loops ended.
-/

namespace Bls.Props
open Bls Division

/-- The words `ys ++ [top]` lie between `top` and `top + 1` times the weight of the last word. -/
private theorem top_bounds {b : List UInt64} {top : UInt64} (ht : b.getLast? = some top) :
    b ≠ [] ∧ 2 ^ (64 * (b.length - 1)) * top.toNat ≤ wordsVal b ∧
      wordsVal b < 2 ^ (64 * (b.length - 1)) * (top.toNat + 1) := by
  obtain ⟨ys, rfl⟩ := List.getLast?_eq_some_iff.1 ht
  have hv : wordsVal (ys ++ [top]) = wordsVal ys + 2 ^ (64 * ys.length) * top.toNat := by
    rw [wordsVal_append, wordsVal, wordsVal, mul_zero, add_zero]
  have hl : (ys ++ [top]).length - 1 = ys.length := by simp
  have hlt := wordsVal_lt ys
  rw [hl, hv, mul_add, mul_one]
  exact ⟨by simp, by omega, by omega⟩

/-- C15: quotient and remainder, for every dividend and every divisor at most as long whose top word is not zero. If the
highest bit of the divisor is set, the dividend must be longer or one of its upper 63 bits set. -/
theorem C15_divide (a b : List UInt64) (hab : b.length ≤ a.length) (top : UInt64) (ht : b.getLast? = some top)
    (h1 : 1 ≤ top.toNat)
    (h2 : top.toNat < 2 ^ 63 ∨ b.length < a.length ∨ 2 ^ (64 * a.length) ≤ 2 ^ 63 * wordsVal a) :
    ∃ q r, divnSafe a b = some (q, r) ∧ q.length = a.length ∧ r.length = b.length ∧
      wordsVal a = wordsVal q * wordsVal b + wordsVal r ∧ wordsVal r < wordsVal b := by
  obtain ⟨hb0, g1, g2⟩ := top_bounds ht
  have hpos : 0 < wordsVal b := lt_of_lt_of_le (by positivity) g1
  have hgo : ∃ q r, divnSafe a b = some (q, r) ∧ q.length = a.length ∧ r.length = b.length ∧
      wordsVal q = wordsVal a / wordsVal b ∧ wordsVal r = wordsVal a % wordsVal b := by
    rcases Nat.lt_or_ge top.toNat (2 ^ 63) with h | h
    · exact divnSafe_spec a b hab hb0 (le_trans (Nat.le_mul_of_pos_right _ h1) g1)
        (lt_of_lt_of_le g2 (Nat.mul_le_mul_left _ (by omega)))
    · exact divnSafe_wide a b hab hb0 (le_trans (Nat.mul_le_mul_left _ h) g1)
        (h2.resolve_left (by omega))
  obtain ⟨q, r, e1, e2, e3, e4, e5⟩ := hgo
  refine ⟨q, r, e1, e2, e3, ?_, by rw [e5]; exact Nat.mod_lt _ hpos⟩
  rw [e4, e5, mul_comm]; exact (Nat.div_add_mod _ _).symm

/-- C15: exactly when a division by a number with a nonzero top word is undefined: the highest bit of the divisor is
set, so that the normalisation extends it by a word, and the dividend is as short and not extended (`dv_lshd` is called
with a negative shift). -/
theorem C15_undefined_iff (a b : List UInt64) (hab : b.length ≤ a.length) (top : UInt64) (ht : b.getLast? = some top)
    (h1 : 1 ≤ top.toNat) :
    divnSafe a b = none ↔ 2 ^ 63 ≤ top.toNat ∧ b.length = a.length ∧ 2 ^ 63 * wordsVal a < 2 ^ (64 * a.length) := by
  constructor
  · intro h
    by_contra hc
    obtain ⟨q, r, e, -⟩ := C15_divide a b hab top ht h1 (by
      by_contra h2
      exact hc ⟨by omega, by omega, by omega⟩)
    rw [h] at e
    cases e
  · rintro ⟨h, hl, hs⟩
    obtain ⟨hb0, g1, -⟩ := top_bounds ht
    exact divnSafe_wide_none a b hb0 (le_trans (Nat.mul_le_mul_left _ h) g1) hl hs

/-- Both sides occur: `1 / 2^63` is undefined, `2 / 2^63` and `2^64 / 2^63` are not. -/
example : divnSafe [1] [0x8000000000000000] = none ∧ divnSafe [2] [0x8000000000000000] = some ([0], [2]) ∧
    divnSafe [0, 1] [0x8000000000000000] = some ([2, 0], [0]) := by decide +kernel

/-- The group order and the field prime satisfy the hypotheses. -/
example : (([0xffffffff00000001, 0x53bda402fffe5bfe, 0x3339d80809a1d805, 0x73eda753299d7d48] : List UInt64).getLast? =
      some 0x73eda753299d7d48 ∧ (0x73eda753299d7d48 : UInt64).toNat < 2 ^ 63) ∧
    (MODULUS.words.getLast? = some 0x1a0111ea397fe69a ∧ (0x1a0111ea397fe69a : UInt64).toNat < 2 ^ 63) ∧
    divnSafe [7, 0, 0, 0, 1] [0xffffffff00000001, 0x53bda402fffe5bfe, 0x3339d80809a1d805, 0x73eda753299d7d48] =
      some ([2, 0, 0, 0, 0], [0x00000001fffffffe + 7, 0x5884b7fa00034802, 0x998c4fefecbc4ff5, 0x1824b159acc5056f]) := by
  decide +kernel

/-- The largest number of six words divided by the group order. -/
example : ∃ q r, divnSafe (List.replicate 6 0xffffffffffffffff)
      [0xffffffff00000001, 0x53bda402fffe5bfe, 0x3339d80809a1d805, 0x73eda753299d7d48] = some (q, r) ∧ q.length = 6 ∧ r.length = 4 := by
  obtain ⟨q, r, h1, h2, h3, -⟩ := C15_divide (List.replicate 6 0xffffffffffffffff)
    [0xffffffff00000001, 0x53bda402fffe5bfe, 0x3339d80809a1d805, 0x73eda753299d7d48] (by decide) 0x73eda753299d7d48 rfl
    (by decide) (.inl (by decide))
  exact ⟨q, r, h1, h2, h3⟩

/-- C15: `fp::modPrime` represents the argument modulo `p` (arrays of at least six words, as its `static_assert`
requires). -/
theorem C15_modPrime (adx : Bool) (k : List UInt64) (hk : 6 ≤ k.length) :
    ∃ x, Fp.modPrime adx k = some x ∧ x.Rep (wordsVal k : ZMod p) := by
  have hl : MODULUS.words.length = 6 := rfl
  obtain ⟨q, r, e1, e2, e3, e4, e5⟩ := C15_divide k MODULUS.words (by rw [hl]; exact hk) 0x1a0111ea397fe69a rfl
    (by decide) (Or.inl (by decide))
  rw [Fp.words_val,  MODULUS_val] at e4 e5
  refine ⟨(Fp.ofWords r).toMont adx, by rw [Fp.modPrime, e1]; rfl, ?_⟩
  have h := Fp.toMont_rep adx (Fp.ofWords r)
  rw [Fp.ofWords_val (e3.trans hl)] at h
  rw [e4, Nat.cast_add, Nat.cast_mul, ZMod.natCast_self, mul_zero, zero_add]
  exact h

/-- Not every argument is already reduced. -/
example : (List.replicate 8 (0xFFFFFFFFFFFFFFFF : UInt64)).length = 8 ∧ wordsVal (List.replicate 8 0xFFFFFFFFFFFFFFFF) > p := by
  decide +kernel

end Bls.Props
