import Verif.Model.Division
import Verif.Proof.Bytes
import Verif.Proof.Word
import Mathlib.Tactic.LinearCombination
import Mathlib.Tactic.Zify

/-! Word helpers of the division. -/

namespace Bls.Division

theorem mask_toNat {bits : ℕ} (h : bits < 64) : (mask bits).toNat = 2 ^ bits - 1 := by
  rw [mask, Nat.mod_eq_of_lt h]
  have hs : (UInt64.ofNat bits).toNat = bits := by
    rw [UInt64.toNat_ofNat', Nat.mod_eq_of_lt (by omega)]
  have hp : (1 : ℕ) <<< bits < 2 ^ 64 := by
    rw [Nat.shiftLeft_eq, one_mul]; exact Nat.pow_lt_pow_right (by norm_num) h
  have h1 : ((1 : UInt64) <<< UInt64.ofNat bits).toNat = 2 ^ bits := by
    rw [UInt64.toNat_shiftLeft, hs, Nat.mod_eq_of_lt h, UInt64.toNat_one, Nat.mod_eq_of_lt hp, Nat.shiftLeft_eq, one_mul]
  have hpos : 1 ≤ 2 ^ bits := Nat.one_le_two_pow
  rw [UInt64.toNat_sub_of_le, h1, UInt64.toNat_one]
  rw [UInt64.le_iff_toNat_le, h1, UInt64.toNat_one]; exact hpos

theorem and_mask (a : UInt64) {bits : ℕ} (h : bits < 64) : (a &&& mask bits).toNat = a.toNat % 2 ^ bits := by
  rw [UInt64.toNat_and, mask_toNat h, Nat.and_two_pow_sub_one_eq_mod]

theorem shr_toNat (a : UInt64) {k : ℕ} (h : k < 64) : (a >>> UInt64.ofNat k).toNat = a.toNat / 2 ^ k := by
  have hs : (UInt64.ofNat k).toNat = k := by
    rw [UInt64.toNat_ofNat', Nat.mod_eq_of_lt (by omega)]
  rw [UInt64.toNat_shiftRight, hs, Nat.mod_eq_of_lt h, Nat.shiftRight_eq_div_pow]

theorem shl_toNat (a : UInt64) {k : ℕ} (h : k < 64) : (a <<< UInt64.ofNat k).toNat = 2 ^ k * (a.toNat % 2 ^ (64 - k)) := by
  have hs : (UInt64.ofNat k).toNat = k := by
    rw [UInt64.toNat_ofNat', Nat.mod_eq_of_lt (by omega)]
  rw [UInt64.toNat_shiftLeft, hs, Nat.mod_eq_of_lt h, Nat.shiftLeft_eq]
  conv_lhs => rw [show (2 : ℕ) ^ 64 = 2 ^ (64 - k) * 2 ^ k by rw [← pow_add]; congr 1; omega]
  rw [Nat.mul_mod_mul_right, mul_comm]

theorem or_toNat (x c : UInt64) {k m : ℕ} (hx : x.toNat = 2 ^ k * m) (hc : c.toNat < 2 ^ k) :
    (x ||| c).toNat = 2 ^ k * m + c.toNat := by
  rw [UInt64.toNat_or, hx, Nat.two_pow_add_eq_or_of_lt hc]

theorem lshb_spec {bits : ℕ} (h0 : 0 < bits) (h : bits < 64) : ∀ (x : List UInt64) (c : UInt64), c.toNat < 2 ^ bits →
    (lshb bits x c).1.length = x.length ∧ (lshb bits x c).2.toNat < 2 ^ bits ∧
    wordsVal (lshb bits x c).1 + 2 ^ (64 * x.length) * (lshb bits x c).2.toNat = 2 ^ bits * wordsVal x + c.toNat
  | [], c, hc => by simp [lshb, wordsVal, hc]
  | a :: as, c, hc => by
    have hr : ((a >>> UInt64.ofNat (64 - bits)) &&& mask bits).toNat = a.toNat / 2 ^ (64 - bits) := by
      rw [and_mask _ h, shr_toNat a (by omega), Nat.mod_eq_of_lt]
      rw [Nat.div_lt_iff_lt_mul (by positivity), ← pow_add, show bits + (64 - bits) = 64 by omega]
      exact u64_lt a
    have hlt : ((a >>> UInt64.ofNat (64 - bits)) &&& mask bits).toNat < 2 ^ bits := by
      rw [and_mask _ h]; exact Nat.mod_lt _ (by positivity)
    obtain ⟨i1, i2, i3⟩ := lshb_spec h0 h as _ hlt
    have ho := or_toNat (a <<< UInt64.ofNat bits) c (shl_toNat a h) hc
    refine ⟨by simp only [lshb, List.length_cons, i1], by simp only [lshb]; exact i2, ?_⟩
    simp only [lshb, wordsVal, List.length_cons, ho]
    rw [hr] at i3
    have hdm := Nat.div_add_mod a.toNat (2 ^ (64 - bits))
    have hpp : (2 : ℕ) ^ 64 = 2 ^ bits * 2 ^ (64 - bits) := by rw [← pow_add]; congr 1; omega
    rw [show 64 * (as.length + 1) = 64 + 64 * as.length by ring, pow_add]
    generalize (2 : ℕ) ^ (64 * as.length) = P at *
    generalize (lshb bits as (a >>> UInt64.ofNat (64 - bits) &&& mask bits)) = L at *
    linear_combination 2 ^ 64 * i3 + (a.toNat / 2 ^ (64 - bits)) * hpp + 2 ^ bits * hdm

theorem rshb_spec {bits : ℕ} (h : bits < 64) : ∀ x : List UInt64, (rshb bits x).1.length = x.length ∧
    (rshb bits x).2.toNat = wordsVal x % 2 ^ bits ∧ wordsVal (rshb bits x).1 = wordsVal x / 2 ^ bits
  | [] => by simp [rshb, wordsVal]
  | a :: as => by
    obtain ⟨i1, i2, i3⟩ := rshb_spec h as
    have hpp : (2 : ℕ) ^ 64 = 2 ^ bits * 2 ^ (64 - bits) := by rw [← pow_add]; congr 1; omega
    refine ⟨by simp only [rshb, List.length_cons, i1], ?_, ?_⟩
    · simp only [rshb, wordsVal]
      rw [and_mask a h, hpp, mul_assoc, Nat.add_mul_mod_self_left]
    · have hc : ((rshb bits as).2 <<< UInt64.ofNat ((64 - bits) % 64)).toNat =
          2 ^ (64 - bits) * (wordsVal as % 2 ^ bits) := by
        by_cases hb : bits = 0
        · subst hb
          simp only [pow_zero, Nat.mod_one] at i2 ⊢
          rw [UInt64.toNat_inj.1 (i2.trans UInt64.toNat_zero.symm)]
          decide
        · rw [Nat.mod_eq_of_lt (by omega), shl_toNat _ (by omega), i2, show 64 - (64 - bits) = bits by omega, Nat.mod_mod]
      have hlt : (a >>> UInt64.ofNat bits).toNat < 2 ^ (64 - bits) := by
        rw [shr_toNat a h, Nat.div_lt_iff_lt_mul (by positivity), mul_comm, ← hpp]; exact u64_lt a
      have ho := or_toNat _ (a >>> UInt64.ofNat bits) hc hlt
      simp only [rshb, wordsVal]
      have hd : (a.toNat + 2 ^ 64 * wordsVal as) / 2 ^ bits = a.toNat / 2 ^ bits + 2 ^ (64 - bits) * wordsVal as := by
        rw [hpp, mul_assoc, Nat.add_mul_div_left _ _ (by positivity)]
      rw [UInt64.or_comm, ho, shr_toNat a h, i3, hd, hpp]
      have := Nat.div_add_mod (wordsVal as) (2 ^ bits)
      generalize hW : wordsVal as / 2 ^ bits = W at *
      generalize wordsVal as % 2 ^ bits = R at *
      linear_combination 2 ^ (64 - bits) * this

theorem dvCmp_eq : ∀ a b : List UInt64, dvCmp a b = Scalar.cmp a b
  | [], _ => by simp [dvCmp, Scalar.cmp]
  | _ :: _, [] => by simp [dvCmp, Scalar.cmp]
  | a :: as, b :: bs => by
    rw [dvCmp, Scalar.cmp, dvCmp_eq as bs]
    rcases hc : Scalar.cmp as bs with _ | _ | _
    · rfl
    · dsimp only
      have h1 := @UInt64.lt_iff_toNat_lt a b
      have h2 := @UInt64.lt_iff_toNat_lt b a
      have h3 := @UInt64.toNat_inj a b
      by_cases h : a = b
      · subst h; simp
      · rw [if_pos h]
        have : a.toNat ≠ b.toNat := fun e => h (h3.1 e)
        by_cases hl : a < b
        · rw [if_pos hl, if_neg (by rw [gt_iff_lt, h2]; rw [h1] at hl; omega)]
        · rw [if_neg hl]
          have : b < a := by rw [h2]; rw [h1] at hl; omega
          rw [if_pos this, if_pos this]
    · rfl

theorem dvCmp_spec (a b : List UInt64) (h : a.length = b.length) : dvCmp a b = compare (wordsVal a) (wordsVal b) := by
  rw [dvCmp_eq, Scalar.cmp_spec a b h]

theorem subn_spec : ∀ (x y : List UInt64) (c : UInt64), x.length = y.length → c.toNat ≤ 1 →
    (subn x y c).1.length = x.length ∧ (subn x y c).2.toNat ≤ 1 ∧
    wordsVal (subn x y c).1 + wordsVal y + c.toNat = wordsVal x + 2 ^ (64 * x.length) * (subn x y c).2.toNat
  | [], [], c, _, hc => by simp [subn, wordsVal, hc]
  | a :: as, b :: bs, c, hl, hc => by
    have hc' : (if a < b ∨ (c ≠ 0 ∧ a - b = 0) then (1 : UInt64) else 0).toNat ≤ 1 := by split <;> decide
    obtain ⟨i1, i2, i3⟩ := subn_spec as bs _ (Nat.succ.inj hl) hc'
    refine ⟨by simp only [subn, List.length_cons, i1], by simp only [subn]; exact i2, ?_⟩
    have key : (a - b - c).toNat + b.toNat + c.toNat =
        a.toNat + 2 ^ 64 * (if a < b ∨ (c ≠ 0 ∧ a - b = 0) then (1 : UInt64) else 0).toNat := by
      have ha := u64_lt a; have hb := u64_lt b
      have h3 : a - b = 0 ↔ a.toNat = b.toNat := by
        rw [UInt64.sub_eq_iff_eq_add, UInt64.zero_add]
        exact ⟨fun h => h ▸ rfl, UInt64.toNat_inj.1⟩
      have h4 : c ≠ 0 ↔ c.toNat = 1 := by
        constructor
        · intro h
          have : c.toNat ≠ 0 := fun e => h (UInt64.toNat_inj.1 e)
          omega
        · rintro h rfl; simp at h
      rw [UInt64.toNat_sub, UInt64.toNat_sub]
      split
      · rename_i h; rw [UInt64.lt_iff_toNat_lt, h3, h4] at h; rw [UInt64.toNat_one]; omega
      · rename_i h; rw [UInt64.lt_iff_toNat_lt, h3, h4] at h; rw [UInt64.toNat_zero]; omega
    simp only [subn, wordsVal, List.length_cons]
    rw [show 64 * (as.length + 1) = 64 + 64 * as.length by ring, pow_add]
    generalize (if a < b ∨ (c ≠ 0 ∧ a - b = 0) then (1 : UInt64) else 0) = c' at *
    linear_combination key + 2 ^ 64 * i3

theorem mul1_spec (q : UInt64) : ∀ (x : List UInt64) (c : UInt64),
    (mul1 q x c).1.length = x.length ∧
    wordsVal (mul1 q x c).1 + 2 ^ (64 * x.length) * (mul1 q x c).2.toNat = wordsVal x * q.toNat + c.toNat
  | [], c => by simp [mul1, wordsVal]
  | a :: as, c => by
    obtain ⟨i1, i3⟩ := mul1_spec q as ((mul64 a q).1 + (if a * q + c < c then 1 else 0))
    refine ⟨by simp only [mul1, List.length_cons, i1], ?_⟩
    have hm := mul64_spec a q
    have hlo : (a * q).toNat = (mul64 a q).2.toNat := by
      have := u64_lt (mul64 a q).2
      rw [UInt64.toNat_mul, ← hm]; omega
    have key : (a * q + c).toNat + 2 ^ 64 * ((mul64 a q).1 + (if a * q + c < c then 1 else 0)).toNat =
        a.toNat * q.toNat + c.toNat := by
      have hhi : (mul64 a q).1.toNat ≤ 2 ^ 64 - 2 := by
        have ha := u64_lt a
        have hw := u64_lt q
        have h1 : a.toNat * q.toNat ≤ (2 ^ 64 - 1) * (2 ^ 64 - 1) := Nat.mul_le_mul (by omega) (by omega)
        have : (2 ^ 64 - 1) * (2 ^ 64 - 1) = 2 ^ 64 * (2 ^ 64 - 2) + 1 := by norm_num
        generalize a.toNat * q.toNat = z at *
        omega
      rw [← hm, UInt64.toNat_add, hlo]
      have h1 := u64_lt (mul64 a q).2
      have h2 := u64_lt c
      have h3 : UInt64.toNat 1 = 1 := rfl
      have h4 : UInt64.toNat 0 = 0 := rfl
      split
      · rename_i h; rw [UInt64.lt_iff_toNat_lt, UInt64.toNat_add, hlo] at h; rw [UInt64.toNat_add, h3]; omega
      · rename_i h; rw [UInt64.lt_iff_toNat_lt, UInt64.toNat_add, hlo] at h; rw [UInt64.toNat_add, h4]; omega
    simp only [mul1, wordsVal, List.length_cons]
    rw [show 64 * (as.length + 1) = 64 + 64 * as.length by ring, pow_add]
    generalize ((mul64 a q).1 + (if a * q + c < c then 1 else 0)) = c' at *
    linear_combination key + 2 ^ 64 * i3

theorem sub1_spec : ∀ (x : List UInt64) (c : UInt64), c.toNat ≤ 1 →
    (sub1 x c).1.length = x.length ∧ (sub1 x c).2.toNat ≤ 1 ∧
    wordsVal (sub1 x c).1 + c.toNat = wordsVal x + 2 ^ (64 * x.length) * (sub1 x c).2.toNat
  | [], c, hc => by simp [sub1, wordsVal, hc]
  | a :: as, c, hc => by
    rw [sub1]
    split_ifs with h0
    · subst h0; simp
    · have h1 : c.toNat = 1 := by
        have : c.toNat ≠ 0 := fun e => h0 (UInt64.toNat_inj.1 e)
        omega
      have hc' : (if a - c > a then (1 : UInt64) else 0).toNat ≤ 1 := by split <;> decide
      obtain ⟨i1, i2, i3⟩ := sub1_spec as _ hc'
      refine ⟨by simp only [List.length_cons, i1], i2, ?_⟩
      have key : (a - c).toNat + c.toNat = a.toNat + 2 ^ 64 * (if a - c > a then (1 : UInt64) else 0).toNat := by
        have ha := u64_lt a
        rw [UInt64.toNat_sub]
        split
        · rename_i h; rw [gt_iff_lt, UInt64.lt_iff_toNat_lt, UInt64.toNat_sub] at h; rw [UInt64.toNat_one]; omega
        · rename_i h; rw [gt_iff_lt, UInt64.lt_iff_toNat_lt, UInt64.toNat_sub] at h; rw [UInt64.toNat_zero]; omega
      simp only [wordsVal, List.length_cons]
      rw [show 64 * (as.length + 1) = 64 + 64 * as.length by ring, pow_add]
      generalize (if a - c > a then (1 : UInt64) else 0) = c' at *
      linear_combination key + 2 ^ 64 * i3

theorem addn_spec : ∀ (x y : List UInt64) (c : UInt64), x.length = y.length → c.toNat ≤ 1 →
    (addn x y c).1.length = x.length ∧ (addn x y c).2.toNat ≤ 1 ∧
    wordsVal (addn x y c).1 + 2 ^ (64 * x.length) * (addn x y c).2.toNat = wordsVal x + wordsVal y + c.toNat
  | [], [], c, _, hc => by simp [addn, wordsVal, hc]
  | a :: as, b :: bs, c, hl, hc => by
    have key : (a + b + c).toNat + 2 ^ 64 * ((if a + b < a then (1 : UInt64) else 0) ||| (if a + b + c < a + b then 1 else 0)).toNat =
        a.toNat + b.toNat + c.toNat ∧
        ((if a + b < a then (1 : UInt64) else 0) ||| (if a + b + c < a + b then 1 else 0)).toNat ≤ 1 := by
      have ha := u64_lt a; have hb := u64_lt b
      have e11 : ((1 : UInt64) ||| 1).toNat = 1 := rfl
      have e10 : ((1 : UInt64) ||| 0).toNat = 1 := rfl
      have e01 : ((0 : UInt64) ||| 1).toNat = 1 := rfl
      have e00 : ((0 : UInt64) ||| 0).toNat = 0 := rfl
      simp only [UInt64.lt_iff_toNat_lt, UInt64.toNat_add]
      split <;> split <;> simp only [e11, e10, e01, e00] <;> omega
    obtain ⟨i1, i2, i3⟩ := addn_spec as bs _ (Nat.succ.inj hl) key.2
    refine ⟨by simp only [addn, List.length_cons, i1], by simp only [addn]; exact i2, ?_⟩
    simp only [addn, wordsVal, List.length_cons]
    rw [show 64 * (as.length + 1) = 64 + 64 * as.length by ring, pow_add]
    have key := key.1
    generalize ((if a + b < a then (1 : UInt64) else 0) ||| (if a + b + c < a + b then 1 else 0)) = c' at *
    linear_combination key + 2 ^ 64 * i3

theorem add1_spec : ∀ (x : List UInt64) (c : UInt64), c.toNat ≤ 1 →
    (add1 x c).1.length = x.length ∧
    wordsVal (add1 x c).1 + 2 ^ (64 * x.length) * (add1 x c).2.toNat = wordsVal x + c.toNat
  | [], c, hc => by simp [add1, wordsVal]
  | a :: as, c, hc => by
    rw [add1]
    split_ifs with h0
    · subst h0; simp
    · have h1 : c.toNat = 1 := by
        have : c.toNat ≠ 0 := fun e => h0 (UInt64.toNat_inj.1 e)
        omega
      have hc' : (if a + c < c then (1 : UInt64) else 0).toNat ≤ 1 := by split <;> decide
      obtain ⟨i1, i3⟩ := add1_spec as _ hc'
      refine ⟨by simp only [List.length_cons, i1], ?_⟩
      have key : (a + c).toNat + 2 ^ 64 * (if a + c < c then (1 : UInt64) else 0).toNat = a.toNat + c.toNat := by
        have ha := u64_lt a
        rw [UInt64.toNat_add]
        split
        · rename_i h; rw [UInt64.lt_iff_toNat_lt, UInt64.toNat_add] at h; rw [UInt64.toNat_one]; omega
        · rename_i h; rw [UInt64.lt_iff_toNat_lt, UInt64.toNat_add] at h; rw [UInt64.toNat_zero]; omega
      simp only [wordsVal, List.length_cons]
      rw [show 64 * (as.length + 1) = 64 + 64 * as.length by ring, pow_add]
      generalize (if a + c < c then (1 : UInt64) else 0) = c' at *
      linear_combination key + 2 ^ 64 * i3

end Bls.Division
