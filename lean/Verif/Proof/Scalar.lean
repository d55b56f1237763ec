import Verif.Model.Scalar
import Verif.Spec.Words
import Verif.Proof.Word
import Mathlib.Data.Nat.Size
import Mathlib.Tactic.Ring

/-! Word-array scalars: bit length, bit test, comparison, shift. -/

namespace Bls

theorem wordsVal_lt : ∀ s : List UInt64, wordsVal s < 2 ^ (64 * s.length)
  | [] => by simp [wordsVal]
  | w :: ws => by
    have h := wordsVal_lt ws
    have hw := u64_lt w
    rw [wordsVal, List.length_cons, Nat.mul_add, Nat.mul_one, Nat.add_comm (64 * _), Nat.pow_add]
    calc w.toNat + 2 ^ 64 * wordsVal ws < 2 ^ 64 * 1 + 2 ^ 64 * wordsVal ws := by omega
      _ = 2 ^ 64 * (wordsVal ws + 1) := by ring
      _ ≤ _ := Nat.mul_le_mul_left _ h

theorem wordsVal_append : ∀ a b : List UInt64,
    wordsVal (a ++ b) = wordsVal a + 2 ^ (64 * a.length) * wordsVal b
  | [], b => by simp [wordsVal]
  | w :: ws, b => by
    have e : 64 * (w :: ws).length = 64 + 64 * ws.length := by rw [List.length_cons]; ring
    rw [List.cons_append, wordsVal, wordsVal, wordsVal_append ws b, e, Nat.pow_add]
    ring

theorem wordsVal_replicate (n : Nat) : wordsVal (List.replicate n 0) = 0 := by
  induction n with
  | zero => rfl
  | succ n ih => rw [List.replicate_succ, wordsVal, ih]; rfl

theorem wordsVal_inj : ∀ {a b : List UInt64}, a.length = b.length → wordsVal a = wordsVal b → a = b
  | [], [], _, _ => rfl
  | x :: xs, y :: ys, hl, h => by
    have hx := u64_lt x
    have hy := u64_lt y
    rw [wordsVal, wordsVal] at h
    have h1 : x.toNat = y.toNat := by omega
    have h2 : wordsVal xs = wordsVal ys := by omega
    rw [UInt64.toNat_inj.1 h1, wordsVal_inj (by simpa using hl) h2]

namespace Scalar

theorem countlZero_spec (w : UInt64) : countlZero w = 64 - w.toNat.size := by
  unfold countlZero
  split_ifs with h
  · subst h; simp
  · have h0 : w.toNat ≠ 0 := fun h' => h (UInt64.toNat_inj.1 h')
    have h1 := Nat.lt_log2_self (n := w.toNat)
    have h2 : 2 ^ w.toNat.log2 ≤ w.toNat := Nat.log2_self_le h0
    have h3 : w.toNat.size ≤ w.toNat.log2 + 1 := Nat.size_le.2 h1
    have h4 : w.toNat.log2 < w.toNat.size := Nat.lt_size.2 h2
    omega

theorem size_word_le (w : UInt64) : w.toNat.size ≤ 64 := Nat.size_le.2 (u64_lt w)

theorem size_cons (w : UInt64) (ws : List UInt64) : (wordsVal (w :: ws)).size =
    if wordsVal ws = 0 then w.toNat.size else 64 + (wordsVal ws).size := by
  rw [wordsVal]
  split_ifs with h
  · simp [h]
  · have hw := u64_lt w
    apply le_antisymm
    · rw [Nat.size_le, Nat.pow_add]
      have h1 := Nat.lt_size_self (wordsVal ws)
      calc w.toNat + 2 ^ 64 * wordsVal ws < 2 ^ 64 * (wordsVal ws + 1) := by omega
        _ ≤ _ := Nat.mul_le_mul_left _ h1
    · have hpos : 0 < (wordsVal ws).size := Nat.size_pos.2 (Nat.pos_of_ne_zero h)
      have h1 : 2 ^ ((wordsVal ws).size - 1) ≤ wordsVal ws := Nat.lt_size.1 (by omega)
      have h2 : 64 + (wordsVal ws).size - 1 < (w.toNat + 2 ^ 64 * wordsVal ws).size := by
        apply Nat.lt_size.2
        rw [Nat.add_sub_assoc hpos, Nat.pow_add]
        calc 2 ^ 64 * 2 ^ ((wordsVal ws).size - 1) ≤ 2 ^ 64 * wordsVal ws := Nat.mul_le_mul_left _ h1
          _ ≤ _ := by omega
      omega

theorem bitLengthFrom_spec : ∀ (s : List UInt64) (i : Nat),
    bitLengthFrom i s = if wordsVal s = 0 then 0 else 64 * i + (wordsVal s).size
  | [], i => by simp [bitLengthFrom, wordsVal]
  | w :: ws, i => by
    rw [bitLengthFrom, bitLengthFrom_spec ws (i + 1), size_cons]
    have hw := u64_lt w
    have hsz := size_word_le w
    have hc := countlZero_spec w
    by_cases h : wordsVal ws = 0
    · simp only [h, if_true, wordsVal, Nat.mul_zero, Nat.add_zero]
      by_cases h2 : w = 0
      · subst h2; simp
      · have h0 : w.toNat ≠ 0 := fun h' => h2 (UInt64.toNat_inj.1 h')
        simp only [h2, h0, ne_eq, not_true, not_false_iff, if_true, if_false]
        omega
    · have hpos : 0 < (wordsVal ws).size := Nat.size_pos.2 (Nat.pos_of_ne_zero h)
      have h3 : wordsVal (w :: ws) ≠ 0 := by rw [wordsVal]; omega
      simp only [h, h3, if_false]
      rw [if_pos (by omega)]
      ring

theorem bitLength_spec (s : List UInt64) : bitLength s = (wordsVal s).size := by
  rw [bitLength, bitLengthFrom_spec]
  split_ifs with h
  · simp [h]
  · simp

theorem wordsVal_testBit : ∀ (s : List UInt64) (i : Nat),
    (wordsVal s).testBit i = (s.getD (i / 64) 0).toNat.testBit (i % 64)
  | [], i => by simp [wordsVal]
  | w :: ws, i => by
    rw [wordsVal, Nat.add_comm, Nat.testBit_two_pow_mul_add _ (u64_lt w)]
    split_ifs with h
    · rw [Nat.div_eq_of_lt h, Nat.mod_eq_of_lt h]; simp
    · rw [wordsVal_testBit ws (i - 64)]
      obtain ⟨j, rfl⟩ : ∃ j, i = j + 64 := ⟨i - 64, by omega⟩
      rw [Nat.add_sub_cancel, Nat.add_div_right _ (by norm_num), Nat.add_mod_right]
      simp

theorem bit_spec (s : List UInt64) (i : Nat) : bit s i = (wordsVal s).testBit i := by
  rw [wordsVal_testBit, bit]
  generalize s.getD (i / 64) 0 = w
  have hi : i % 64 < 64 := Nat.mod_lt _ (by norm_num)
  generalize i % 64 = k at hi
  have e : (w >>> UInt64.ofNat k &&& 1).toNat = w.toNat / 2 ^ k % 2 := by
    rw [UInt64.toNat_and, UInt64.toNat_shiftRight, UInt64.toNat_ofNat', UInt64.toNat_one, Nat.and_one_is_mod,
      Nat.shiftRight_eq_div_pow, Nat.mod_eq_of_lt (a := k) (by omega), Nat.mod_eq_of_lt hi]
  rw [Nat.testBit_eq_decide_div_mod_eq, ← e]
  rw [Bool.eq_iff_iff, beq_iff_eq, decide_eq_true_iff, ← UInt64.toNat_inj, UInt64.toNat_one]

/-- The bit loops never index past the array. -/
theorem bit_index_lt (s : List UInt64) {i : Nat} (h : i < bitLength s) : i / 64 < s.length := by
  rw [bitLength_spec] at h
  have := Nat.size_le.2 (wordsVal_lt s)
  omega

end Scalar

/-- Loop invariant step: the low `n+1` bits. -/
theorem mod_two_pow_succ_bit (v n : Nat) :
    v % 2 ^ (n + 1) = (if v.testBit n then 2 ^ n else 0) + v % 2 ^ n := by
  rw [Nat.mod_pow_succ, Nat.testBit_eq_decide_div_mod_eq]
  have : v / 2 ^ n % 2 < 2 := Nat.mod_lt _ (by norm_num)
  rcases Nat.lt_succ_iff_lt_or_eq.1 this with h | h
  · have h0 : v / 2 ^ n % 2 = 0 := by omega
    simp [h0]
  · simp [h, Nat.add_comm]

end Bls
