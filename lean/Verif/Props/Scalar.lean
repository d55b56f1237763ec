import Verif.Spec.Bytes
import Verif.Proof.Carry

/-!
# C12-C14: word arrays

`wordsVal` reads an array of 64-bit words as a number (least significant word first), `leVal`/`beVal` read byte
strings (`Spec/Rep.lean`, `Spec/Bytes.lean`).
-/

namespace Bls.Props
open Bls Scalar

/-! ## C12 -/

/-- C12: encoders write the value of the array, in `8 N` bytes; the big-endian form is the reversed little-endian
form. -/
theorem C12_encode (s : List UInt64) :
    leVal (toBytesLE s) = wordsVal s ∧ beVal (toBytesBE s) = wordsVal s ∧
    (toBytesLE s).length = 8 * s.length ∧ (toBytesBE s).length = 8 * s.length ∧
    toBytesBE s = (toBytesLE s).reverse :=
  ⟨toBytesLE_val s, toBytesBE_val s, toBytesLE_length s, toBytesBE_length s, toBytesBE_eq s⟩

/-- C12: decoders read the value of the byte string into `N` words. -/
theorem C12_decode (n : ℕ) (bs : List UInt8) (h : bs.length = 8 * n) :
    wordsVal (fromBytesLE n bs) = leVal bs ∧ wordsVal (fromBytesBE n bs) = beVal bs ∧
    (fromBytesLE n bs).length = n ∧ (fromBytesBE n bs).length = n :=
  ⟨fromBytesLE_val n bs h, fromBytesBE_val n bs h, fromBytesLE_length n bs, fromBytesBE_length n bs⟩

example : wordsVal (fromBytesLE 2 [1, 2, 3, 4, 5, 6, 7, 8, 9, 10, 11, 12, 13, 14, 15, 16]) =
    leVal [1, 2, 3, 4, 5, 6, 7, 8, 9, 10, 11, 12, 13, 14, 15, 16] := (C12_decode 2 _ rfl).1

/-- C12: decoding inverts encoding. -/
theorem C12_from_to (s : List UInt64) :
    fromBytesLE s.length (toBytesLE s) = s ∧ fromBytesBE s.length (toBytesBE s) = s := by
  constructor
  · exact wordsVal_inj (fromBytesLE_length _ _)
      ((fromBytesLE_val _ _ (toBytesLE_length s)).trans (toBytesLE_val s))
  · exact wordsVal_inj (fromBytesBE_length _ _)
      ((fromBytesBE_val _ _ (toBytesBE_length s)).trans (toBytesBE_val s))

/-- C12: encoding inverts decoding. -/
theorem C12_to_from (n : ℕ) (bs : List UInt8) (h : bs.length = 8 * n) :
    toBytesLE (fromBytesLE n bs) = bs ∧ toBytesBE (fromBytesBE n bs) = bs := by
  constructor
  · exact leVal_inj (by rw [toBytesLE_length, fromBytesLE_length, h])
      ((toBytesLE_val _).trans (fromBytesLE_val n bs h))
  · exact beVal_inj (by rw [toBytesBE_length, fromBytesBE_length, h])
      ((toBytesBE_val _).trans (fromBytesBE_val n bs h))

example : ([1, 2, 3, 4, 5, 6, 7, 8, 9, 10, 11, 12, 13, 14, 15, 16] : List UInt8).length = 8 * 2 ∧
    fromBytesBE 2 [1, 2, 3, 4, 5, 6, 7, 8, 9, 10, 11, 12, 13, 14, 15, 16] = [0x090a0b0c0d0e0f10, 0x0102030405060708] := by
  decide +kernel

/-! ## C13

The full claim is false of the code: `Add64` drops a carry meeting a word `2^64-1` (C04), and a carry out of the top
word is stored one word too high or reported as an error although it fits. -/

/-- The full claim for `scalar::add`. -/
def C13_add_full : Prop := ∀ (nc : ℕ) (a b : List UInt64), wordsVal a + wordsVal b < 2 ^ (64 * nc) →
  max a.length b.length ≤ nc → ∃ c, add nc a b = some c ∧ wordsVal c = wordsVal a + wordsVal b

/-- The full claim for `scalar::multiply`. -/
def C13_multiply_full : Prop := ∀ (nc : ℕ) (a b : List UInt64), wordsVal a * wordsVal b < 2 ^ (64 * nc) →
  a.length + b.length ≤ nc → ∃ c, multiply nc a b = some c ∧ wordsVal c = wordsVal a * wordsVal b

/-- C13 is false, first reason: `1 + (2^128-1)` in four words gives `0`. -/
theorem C13_add_false : ¬ C13_add_full := fun h => by
  obtain ⟨c, h1, h2⟩ := h 4 [1, 0, 0, 0] [0xFFFFFFFFFFFFFFFF, 0xFFFFFFFFFFFFFFFF, 0, 0] (by decide +kernel) (by decide)
  have e : add 4 [1, 0, 0, 0] [0xFFFFFFFFFFFFFFFF, 0xFFFFFFFFFFFFFFFF, 0, 0] = some [0, 0, 0, 0] := by decide +kernel
  rw [e] at h1
  rw [← Option.some.inj h1] at h2
  exact absurd h2 (by decide +kernel)

/-- C13 is false, second reason: whenever the sum needs one more word than the longer operand, `add` throws or
returns a wrong number, however large the result type (here excluding the first reason). -/
theorem C13_add_carry_false (nc : ℕ) (a b : List UInt64) (hb : ∀ w ∈ b, w.toNat ≠ 2 ^ 64 - 1)
    (hs : 2 ^ (64 * max a.length b.length) ≤ wordsVal a + wordsVal b) :
    ¬ ∃ c, add nc a b = some c ∧ wordsVal c = wordsVal a + wordsVal b :=
  fun ⟨c, h, hv⟩ => add_carry nc a b hb hs c h hv

example : (∀ w ∈ ([1] : List UInt64), w.toNat ≠ 2 ^ 64 - 1) ∧
    2 ^ (64 * max ([0xFFFFFFFFFFFFFFFF] : List UInt64).length ([1] : List UInt64).length) ≤
      wordsVal [0xFFFFFFFFFFFFFFFF] + wordsVal [1] ∧
    add 2 [0xFFFFFFFFFFFFFFFF] [1] = none ∧ add 3 [0xFFFFFFFFFFFFFFFF] [1] = some [0, 0, 1] := by decide +kernel

/-- C13, the part that holds: if no word of the second operand is `2^64-1` and the sum fits in the length of the
longer operand, the result is exact, for all lengths. Missing: the inputs of `C13_add_false`,
`C13_add_carry_false`. -/
theorem C13_add_partial (nc : ℕ) (a b : List UInt64) (hn : max a.length b.length ≤ nc)
    (hb : ∀ w ∈ b, w.toNat ≠ 2 ^ 64 - 1) (hs : wordsVal a + wordsVal b < 2 ^ (64 * max a.length b.length)) :
    ∃ c, add nc a b = some c ∧ c.length = nc ∧ wordsVal c = wordsVal a + wordsVal b :=
  add_spec nc a b hn hb hs

example : max ([0xFFFFFFFFFFFFFFFF, 5] : List UInt64).length ([1, 7, 9] : List UInt64).length ≤ 4 ∧
    (∀ w ∈ ([1, 7, 9] : List UInt64), w.toNat ≠ 2 ^ 64 - 1) ∧
    wordsVal [0xFFFFFFFFFFFFFFFF, 5] + wordsVal [1, 7, 9] < 2 ^ (64 * 3) := by decide +kernel

/-- C13, the exact condition: `add` returns the sum exactly when no carry meets a word `2^64-1` of the second operand and the
sum fits in the length of the longer operand. -/
theorem C13_add_exact (nc : ℕ) (a b : List UInt64) (hn : max a.length b.length ≤ nc) :
    (∃ c, add nc a b = some c ∧ wordsVal c = wordsVal a + wordsVal b) ↔
      (∀ k, ¬ CarryLost (wordsVal a) (wordsVal b) k) ∧ wordsVal a + wordsVal b < 2 ^ (64 * max a.length b.length) :=
  add_exact nc a b hn

/-- A word `2^64-1` that no carry meets, and one that a carry meets. -/
example : add 2 [0, 1] [0xFFFFFFFFFFFFFFFF, 5] = some [0xFFFFFFFFFFFFFFFF, 6] ∧
    CarryLost (wordsVal [1, 0]) (wordsVal [0xFFFFFFFFFFFFFFFF, 0xFFFFFFFFFFFFFFFF]) 1 := by
  constructor
  · decide +kernel
  · unfold CarryLost; decide +kernel

/-- C13: operands longer than the result are rejected. -/
theorem C13_add_throws (nc : ℕ) (a b : List UInt64) (hn : nc < max a.length b.length) : add nc a b = none := by
  rw [add]; simp only [add_n]; rw [if_pos (by omega)]

example : 1 < max ([1, 2] : List UInt64).length ([3] : List UInt64).length := by decide

/-- C13 is false for products. -/
theorem C13_multiply_false : ¬ C13_multiply_full := fun h => by
  obtain ⟨c, h1, h2⟩ := h 4 [0xFFFFFFFFFFFFFFFF, 0xFFFFFFFFFFFFFFFF] [2, 1] (by decide +kernel) (by decide)
  have e : (multiply 4 [0xFFFFFFFFFFFFFFFF, 0xFFFFFFFFFFFFFFFF] [2, 1]).map wordsVal ≠
    some (wordsVal [0xFFFFFFFFFFFFFFFF, 0xFFFFFFFFFFFFFFFF] * wordsVal [2, 1]) := by decide +kernel
  rw [h1] at e
  exact e (congrArg some h2)

/-- C13, the part that holds for products: exact if no row product `a * bᵢ` contains a word `2^64-1`. Missing: the
other inputs, on which the carry of `Add64` may be lost (`C13_multiply_false`). -/
theorem C13_multiply_partial (nc : ℕ) (a b : List UInt64) (hn : a.length + b.length ≤ nc)
    (hok : ∀ w ∈ b, ∀ k : ℕ, wordsVal a * w.toNat / 2 ^ (64 * k) % 2 ^ 64 ≠ 2 ^ 64 - 1) :
    ∃ c, multiply nc a b = some c ∧ c.length = nc ∧ wordsVal c = wordsVal a * wordsVal b :=
  multiply_spec nc a b hn hok

example : ([3, 5] : List UInt64).length + ([7] : List UInt64).length ≤ 3 ∧
    ∀ w ∈ ([7] : List UInt64), ∀ k : ℕ, wordsVal [3, 5] * w.toNat / 2 ^ (64 * k) % 2 ^ 64 ≠ 2 ^ 64 - 1 := by
  refine ⟨by decide, fun w hw k => ?_⟩
  obtain rfl := List.mem_singleton.1 hw
  rw [show wordsVal [3, 5] * (7 : UInt64).toNat = 21 + 2 ^ 64 * 35 by decide +kernel]
  match k with
  | 0 => decide +kernel
  | 1 => decide +kernel
  | k + 2 =>
    rw [Nat.div_eq_of_lt (lt_of_lt_of_le (by norm_num : 21 + 2 ^ 64 * 35 < 2 ^ 128)
      (Nat.pow_le_pow_right (by norm_num) (by omega)))]
    decide

/-- C13, the exact condition for products: `multiply` returns a number that is never too large, and it is the product exactly
when none of the additions `(a * (b mod 2^(64 j))) + 2^(64 j) * (a * bⱼ)` meets the condition of `C13_add_exact`. -/
theorem C13_multiply_exact (nc : ℕ) (a b : List UInt64) (hn : a.length + b.length ≤ nc) :
    ∃ c, multiply nc a b = some c ∧ c.length = nc ∧ wordsVal c ≤ wordsVal a * wordsVal b ∧
      (wordsVal c = wordsVal a * wordsVal b ↔ ∀ j w, b[j]? = some w → ∀ k,
        ¬ CarryLost (wordsVal a * (wordsVal b % 2 ^ (64 * j))) (2 ^ (64 * j) * (wordsVal a * w.toNat)) k) :=
  multiply_le nc a b hn

/-- The operands of `C13_multiply_false`. -/
example : ∃ c, multiply 4 [0xFFFFFFFFFFFFFFFF, 0xFFFFFFFFFFFFFFFF] [2, 1] = some c ∧
    wordsVal c ≤ (2 ^ 128 - 1) * (2 ^ 64 + 2) := by
  obtain ⟨c, e, -, h, -⟩ := C13_multiply_exact 4 [0xFFFFFFFFFFFFFFFF, 0xFFFFFFFFFFFFFFFF] [2, 1] (by decide)
  rw [show wordsVal [0xFFFFFFFFFFFFFFFF, 0xFFFFFFFFFFFFFFFF] * wordsVal [2, 1] = (2 ^ 128 - 1) * (2 ^ 64 + 2) by decide +kernel] at h
  exact ⟨c, e, h⟩

/-- C13: with a result array shorter than `NA + NB` words `multiply` writes out of bounds, otherwise never. -/
theorem C13_multiply_bounds (nc : ℕ) (a b : List UInt64) (ha : a ≠ []) (hb : b ≠ []) :
    multiply nc a b = none ↔ nc < a.length + b.length := by
  constructor
  · intro h
    by_contra hn
    obtain ⟨c, e, -⟩ := multiply_le nc a b (by omega)
    rw [e] at h
    exact absurd h (by simp)
  · exact fun h => mulLoop_none nc a ha b 0 _ hb (by omega)

example : multiply 3 [1, 2] [3, 4] = none ∧ multiply 4 [1, 2] [3, 4] = some [3, 10, 8, 0] := by decide +kernel

/-! ## C14 -/

/-- C14: comparison by value, equality, number of binary digits. -/
theorem C14_compare (a b : List UInt64) (h : a.length = b.length) :
    Scalar.cmp a b = compare (wordsVal a) (wordsVal b) ∧ (equal a b = true ↔ wordsVal a = wordsVal b) :=
  ⟨cmp_spec a b h, (equal_spec a b h).trans ⟨fun e => e ▸ rfl, wordsVal_inj h⟩⟩

example : ([5, 7] : List UInt64).length = ([9, 6] : List UInt64).length ∧ Scalar.cmp [5, 7] [9, 6] = .gt := by decide +kernel

/-- C14: `bitLength` is the number of binary digits, and the bit test reads the digits. -/
theorem C14_bits (s : List UInt64) :
    2 ^ bitLength s ≤ 2 * wordsVal s + 1 ∧ wordsVal s < 2 ^ bitLength s ∧ (∀ i, bit s i = (wordsVal s).testBit i) := by
  rw [bitLength_spec]
  refine ⟨?_, Nat.lt_size_self _, bit_spec s⟩
  rcases Nat.eq_zero_or_pos (wordsVal s) with h | h
  · rw [h]; simp
  · have : 0 < (wordsVal s).size := Nat.size_pos.2 h
    obtain ⟨k, hk⟩ : ∃ k, (wordsVal s).size = k + 1 := ⟨_, (Nat.succ_pred_eq_of_pos this).symm⟩
    have := Nat.lt_size.1 (by omega : k < (wordsVal s).size)
    rw [hk, pow_succ]; omega

example : bitLength [5, 1, 0] = 65 ∧ bitLength [0, 0] = 0 := by decide +kernel

/-- C14: `rsh` by any amount, also more than the length of the array. -/
theorem C14_rsh (s : List UInt64) (k : ℕ) : wordsVal (rsh s k) = wordsVal s / 2 ^ k ∧ (rsh s k).length = s.length :=
  ⟨rsh_spec s k, rsh_length s k⟩

example : rsh [0x10, 0x3] 4 = [0x3000000000000001, 0] ∧ rsh [5, 6] 300 = [0, 0] := by decide +kernel

end Bls.Props
