import Verif.Model.BranchRun
import Verif.Spec.BranchRun
import Verif.Proof.CarryFp

/-! # The tests of the portable field routines -/

namespace Bls.Portable
open Bls

set_option exponentiation.threshold 1000

/-- The tests when the top `k` words agree with those of `p`, and the number is below `p` or not. -/
def testsOf : ℕ → Bool → List Bool
  | 0, true => [true]
  | 0, false => [false, false]
  | 1, true => [false, true, true]
  | 1, false => [false, true, false, false]
  | 2, true => [false, true, false, true, true]
  | 2, false => [false, true, false, true, false, false]
  | 3, true => [false, true, false, true, false, true, true]
  | 3, false => [false, true, false, true, false, true, false, false]
  | 4, true => [false, true, false, true, false, true, false, true, true]
  | 4, false => [false, true, false, true, false, true, false, true, false, false]
  | _, true => [false, true, false, true, false, true, false, true, false, true, true]
  | _, false => [false, true, false, true, false, true, false, true, false, true, false]

theorem testsOf_inj : ∀ k < 6, ∀ k' < 6, ∀ s s', testsOf k s = testsOf k' s' → k = k' ∧ s = s' := by decide

theorem tests_case (z : Fp) : ∃ k < 6, ∃ s, compareRun (comparedWords z) = (s, testsOf k s) ∧ (s = true ↔ z.val < p) ∧
    ∀ j, 1 ≤ j → (z.val / 2 ^ (64 * j) = p / 2 ^ (64 * j) ↔ 6 - k ≤ j) := by
  have h0 := u64_lt z.d0; have h1 := u64_lt z.d1; have h2 := u64_lt z.d2
  have h3 := u64_lt z.d3; have h4 := u64_lt z.d4; have h5 := u64_lt z.d5
  have hv : z.val = z.d0.toNat + 2 ^ 64 * (z.d1.toNat + 2 ^ 64 * (z.d2.toNat + 2 ^ 64 *
      (z.d3.toNat + 2 ^ 64 * (z.d4.toNat + 2 ^ 64 * z.d5.toNat)))) := rfl
  have hp : p = 0xb9feffffffffaaab + 2 ^ 64 * (0x1eabfffeb153ffff + 2 ^ 64 * (0x6730d2a0f6b0f624 + 2 ^ 64 *
      (0x64774b84f38512bf + 2 ^ 64 * (0x4b1ba7b6434bacd7 + 2 ^ 64 * 0x1a0111ea397fe69a)))) := by decide +kernel
  have big : ∀ j, 6 ≤ j → z.val / 2 ^ (64 * j) = p / 2 ^ (64 * j) := by
    intro j hj
    have : (2 : ℕ) ^ 384 ≤ 2 ^ (64 * j) := Nat.pow_le_pow_right (by norm_num) (by omega)
    have := Fp.val_lt z
    have hp' : p < 2 ^ 384 := by decide +kernel
    rw [Nat.div_eq_of_lt (by omega), Nat.div_eq_of_lt (by omega)]
  have split5 : ∀ k < 6, (∀ j, 1 ≤ j → j ≤ 5 → (z.val / 2 ^ (64 * j) = p / 2 ^ (64 * j) ↔ 6 - k ≤ j)) →
      ∀ j, 1 ≤ j → (z.val / 2 ^ (64 * j) = p / 2 ^ (64 * j) ↔ 6 - k ≤ j) := by
    intro k hk H j hj
    by_cases h : j ≤ 5
    · exact H j hj h
    · exact iff_of_true (big j (by omega)) (by omega)
  simp only [comparedWords, compareRun, MODULUS, UInt64.lt_iff_toNat_lt, beq_iff_eq, ← UInt64.toNat_inj]
  simp only [UInt64.reduceToNat]
  generalize z.d0.toNat = a0 at *
  generalize z.d1.toNat = a1 at *
  generalize z.d2.toNat = a2 at *
  generalize z.d3.toNat = a3 at *
  generalize z.d4.toNat = a4 at *
  generalize z.d5.toNat = a5 at *
  generalize z.val = v at *
  generalize p = q at *
  have fin : ∀ k < 6, (v / 2 ^ 64 = q / 2 ^ 64 ↔ 6 - k ≤ 1) → (v / 2 ^ 128 = q / 2 ^ 128 ↔ 6 - k ≤ 2) →
      (v / 2 ^ 192 = q / 2 ^ 192 ↔ 6 - k ≤ 3) → (v / 2 ^ 256 = q / 2 ^ 256 ↔ 6 - k ≤ 4) → (v / 2 ^ 320 = q / 2 ^ 320 ↔ 6 - k ≤ 5) →
      ∀ j, 1 ≤ j → (v / 2 ^ (64 * j) = q / 2 ^ (64 * j) ↔ 6 - k ≤ j) := by
    intro k hk g1 g2 g3 g4 g5
    refine split5 k hk fun j hj hj' => ?_
    interval_cases j
    · exact g1
    · exact g2
    · exact g3
    · exact g4
    · exact g5
  clear split5 big
  rcases lt_trichotomy a5 0x1a0111ea397fe69a with g | g | g
  · exact ⟨0, by decide, true, by rw [if_pos g]; rfl, by simp; omega, fin 0 (by decide) (by omega) (by omega) (by omega) (by omega) (by omega)⟩
  rotate_left
  · exact ⟨0, by decide, false, by rw [if_neg (by omega), if_neg (by omega)]; rfl, by simp; omega, fin 0 (by decide) (by omega) (by omega) (by omega) (by omega) (by omega)⟩
  rw [if_neg (by omega : ¬ a5 < _), if_pos g]
  rcases lt_trichotomy a4 0x4b1ba7b6434bacd7 with g' | g' | g'
  · exact ⟨1, by decide, true, by rw [if_pos g']; rfl, by simp; omega, fin 1 (by decide) (by omega) (by omega) (by omega) (by omega) (by omega)⟩
  rotate_left
  · exact ⟨1, by decide, false, by rw [if_neg (by omega), if_neg (by omega)]; rfl, by simp; omega, fin 1 (by decide) (by omega) (by omega) (by omega) (by omega) (by omega)⟩
  rw [if_neg (by omega : ¬ a4 < _), if_pos g']
  rcases lt_trichotomy a3 0x64774b84f38512bf with g2 | g2 | g2
  · exact ⟨2, by decide, true, by rw [if_pos g2]; rfl, by simp; omega, fin 2 (by decide) (by omega) (by omega) (by omega) (by omega) (by omega)⟩
  rotate_left
  · exact ⟨2, by decide, false, by rw [if_neg (by omega), if_neg (by omega)]; rfl, by simp; omega, fin 2 (by decide) (by omega) (by omega) (by omega) (by omega) (by omega)⟩
  rw [if_neg (by omega : ¬ a3 < _), if_pos g2]
  rcases lt_trichotomy a2 0x6730d2a0f6b0f624 with g3 | g3 | g3
  · exact ⟨3, by decide, true, by rw [if_pos g3]; rfl, by simp; omega, fin 3 (by decide) (by omega) (by omega) (by omega) (by omega) (by omega)⟩
  rotate_left
  · exact ⟨3, by decide, false, by rw [if_neg (by omega), if_neg (by omega)]; rfl, by simp; omega, fin 3 (by decide) (by omega) (by omega) (by omega) (by omega) (by omega)⟩
  rw [if_neg (by omega : ¬ a2 < _), if_pos g3]
  rcases lt_trichotomy a1 0x1eabfffeb153ffff with g4 | g4 | g4
  · exact ⟨4, by decide, true, by rw [if_pos g4]; rfl, by simp; omega, fin 4 (by decide) (by omega) (by omega) (by omega) (by omega) (by omega)⟩
  rotate_left
  · exact ⟨4, by decide, false, by rw [if_neg (by omega), if_neg (by omega)]; rfl, by simp; omega, fin 4 (by decide) (by omega) (by omega) (by omega) (by omega) (by omega)⟩
  rw [if_neg (by omega : ¬ a1 < _), if_pos g4]
  by_cases g5 : a0 < 0xb9feffffffffaaab
  · exact ⟨5, by decide, true, by rw [decide_eq_true g5]; rfl, by simp; omega, fin 5 (by decide) (by omega) (by omega) (by omega) (by omega) (by omega)⟩
  · exact ⟨5, by decide, false, by rw [decide_eq_false g5]; rfl, by simp; omega, fin 5 (by decide) (by omega) (by omega) (by omega) (by omega) (by omega)⟩

theorem testsOf_run : ∀ k < 6, ∀ s, (testsOf k s).length = 2 * k + (if s = true ∨ k = 5 then 1 else 2) ∧
    (testsOf k s).getLast? = some s ∧ ∀ i < 11, i + 1 < (testsOf k s).length → (testsOf k s)[i]? = some (decide (i % 2 = 1)) := by
  decide

theorem condSubRun_tests (z : Fp) : IsTestRun (condSubRun z).2 z.val := by
  obtain ⟨k, hk, s, h, hs, hj⟩ := tests_case z
  change IsTestRun (compareRun (comparedWords z)).2 z.val
  rw [h]
  have ha : agreeing z.val = k := by
    have e : (fun j : ℕ => decide (z.val / 2 ^ (64 * (j + 1)) = p / 2 ^ (64 * (j + 1)))) = fun j => decide (6 - k ≤ j + 1) := by
      funext j
      exact decide_eq_decide.2 (hj (j + 1) (by omega))
    unfold agreeing
    rw [e]
    clear * - hk
    revert k
    decide
  obtain ⟨t1, t2, t3⟩ := testsOf_run k hk s
  have hl : (testsOf k s).length ≤ 12 := by rw [t1]; split <;> omega
  have hd : decide (z.val < p) = s := by
    rw [Bool.eq_iff_iff, hs, decide_eq_true_iff]
  refine ⟨?_, ?_, fun i hi => t3 i ?_ hi⟩
  · rw [ha]
    simp only [← hs]
    exact t1
  · rw [hd]; exact t2
  · change i + 1 < (testsOf k s).length at hi
    omega

theorem compareRun_fst (z : Fp) : (compareRun (comparedWords z)).1 = ltModulus z := by
  obtain ⟨k, -, s, h, hs, -⟩ := tests_case z
  rw [h, Bool.eq_iff_iff, hs, ltModulus_iff]

theorem condSubRun_fst (z : Fp) : (condSubRun z).1 = condSub z := by
  unfold condSubRun condSub
  simp only [compareRun_fst]

theorem condSubRun_snd (z z' : Fp) : (condSubRun z).2 = (condSubRun z').2 ↔ LooksLike z.val z'.val := by
  obtain ⟨k, hk, s, h, hs, hj⟩ := tests_case z
  obtain ⟨k', hk', s', h', hs', hj'⟩ := tests_case z'
  change (compareRun (comparedWords z)).2 = (compareRun (comparedWords z')).2 ↔ _
  rw [h, h']
  constructor
  · intro e
    obtain ⟨rfl, rfl⟩ := testsOf_inj k hk k' hk' s s' e
    exact ⟨by rw [← hs, ← hs'], fun j h1 => by rw [hj j h1, hj' j h1]⟩
  · rintro ⟨e1, e2⟩
    have e3 : s = s' := by rw [Bool.eq_iff_iff, hs, hs', e1]
    have e4 : ∀ j, 1 ≤ j → (6 - k ≤ j ↔ 6 - k' ≤ j) := fun j h1 => by rw [← hj j h1, ← hj' j h1, e2 j h1]
    have e5 : k = k' := by
      have a := e4 (6 - k) (by omega)
      have b := e4 (6 - k') (by omega)
      omega
    rw [e3, e5]

theorem addChain_val {x y : Fp} (hx : x.val < p) (hy : y.val < p) (h : ∀ k, ¬ CarryLost x.val y.val k) :
    (addChain x y).val = x.val + y.val := by
  obtain ⟨c, d, h1, h2, h3⟩ := addChain_loss x y hy
  have := Fp.val_lt (addChain x y)
  have hd := h3.2 h
  have hc : c = 0 := by unfold p at *; omega
  subst hc
  omega

theorem subChain_borrow {x y : Fp} (hy : y.val < p) (h : ∀ k, ¬ BorrowLost x.val y.val k) :
    (subChain x y).2 ≠ 0 ↔ x.val < y.val := by
  obtain ⟨d, h1, h2, h3, h4⟩ := subChain_loss x y hy
  have hl := Fp.val_lt (subChain x y).1
  have hx := Fp.val_lt x
  have hd := h4.2 h
  rw [ne_eq, ← UInt64.toNat_inj, UInt64.toNat_zero]
  omega

theorem multiplyRun_raw (x y : Fp) (hy : y.val + p < 2 ^ 384) : ∃ t : Fp, multiplyRun x y = condSubRun t ∧
    IsReduction (x.val * y.val) t.val := by
  obtain ⟨m0, hm0, e0, b0⟩ := mulRound0_exact x.d0 y hy
  obtain ⟨m1, hm1, e1, b1⟩ := mulRound_exact x.d1 y _ hy b0
  obtain ⟨m2, hm2, e2, b2⟩ := mulRound_exact x.d2 y _ hy b1
  obtain ⟨m3, hm3, e3, b3⟩ := mulRound_exact x.d3 y _ hy b2
  obtain ⟨m4, hm4, e4, b4⟩ := mulRound_exact x.d4 y _ hy b3
  obtain ⟨m5, hm5, e5, b5⟩ := mulRound_exact x.d5 y _ hy b4
  simp only [multiplyRun]
  generalize mulRound x.d5 y _ = t at *
  have key : 2 ^ 384 * t.val = x.val * y.val +
      (m0 + 2 ^ 64 * m1 + 2 ^ 128 * m2 + 2 ^ 192 * m3 + 2 ^ 256 * m4 + 2 ^ 320 * m5) * p := by
    have hx : x.val = x.d0.toNat + 2 ^ 64 * (x.d1.toNat + 2 ^ 64 * (x.d2.toNat + 2 ^ 64 *
      (x.d3.toNat + 2 ^ 64 * (x.d4.toNat + 2 ^ 64 * x.d5.toNat)))) := rfl
    rw [hx]
    linear_combination e0 + 2 ^ 64 * e1 + 2 ^ 128 * e2 + 2 ^ 192 * e3 + 2 ^ 256 * e4 + 2 ^ 320 * e5
  have hM : m0 + 2 ^ 64 * m1 + 2 ^ 128 * m2 + 2 ^ 192 * m3 + 2 ^ 256 * m4 + 2 ^ 320 * m5
      < 2 ^ 384 := by omega
  exact ⟨t, rfl, _, hM, key⟩

theorem squareRun_raw (x : Fp) (hx : x.val < Bls.p) (hh : x.Roomy) : ∃ t : Fp, squareRun x = condSubRun t ∧
    IsReduction (x.val * x.val) t.val := by
  have hval : x.val = x.d0.toNat + 2 ^ 64 * (x.d1.toNat + 2 ^ 64 * (x.d2.toNat + 2 ^ 64 *
    (x.d3.toNat + 2 ^ 64 * (x.d4.toNat + 2 ^ 64 * x.d5.toNat)))) := rfl
  obtain ⟨m0, hm0, e0, b0⟩ := sq_exact (T := (sqRound0 x).val) (t := 0)
    (S := x.d0.toNat * 2 ^ 0 + 2 * x.d1.toNat * 2 ^ 64 + 2 * x.d2.toNat * 2 ^ 128 + 2 * x.d3.toNat * 2 ^ 192 + 2 * x.d4.toNat * 2 ^ 256 + 2 * x.d5.toNat * 2 ^ 320)
    (v := x.d0.toNat) hx (u64_lt _) (by omega) (Nat.zero_le _) (by
      obtain ⟨m, k, hm, h⟩ := sqRound0_spec x hh
      exact ⟨m, k, hm, by rw [h]; ring⟩)
  generalize ht0 : sqRound0 x = t0 at *
  obtain ⟨m1, hm1, e1, b1⟩ := sq_exact (T := (sqRound1 x t0).val) (t := (t0).val)
    (S := x.d1.toNat * 2 ^ 64 + 2 * x.d2.toNat * 2 ^ 128 + 2 * x.d3.toNat * 2 ^ 192 + 2 * x.d4.toNat * 2 ^ 256 + 2 * x.d5.toNat * 2 ^ 320)
    (v := x.d1.toNat) hx (u64_lt _) (by omega) b0 (by
      obtain ⟨m, k, hm, h⟩ := sqRound1_spec x t0 hh
      exact ⟨m, k, hm, by rw [h]; ring⟩)
  generalize ht1 : sqRound1 x t0 = t1 at *
  obtain ⟨m2, hm2, e2, b2⟩ := sq_exact (T := (sqRound2 x t1).val) (t := (t1).val)
    (S := x.d2.toNat * 2 ^ 128 + 2 * x.d3.toNat * 2 ^ 192 + 2 * x.d4.toNat * 2 ^ 256 + 2 * x.d5.toNat * 2 ^ 320)
    (v := x.d2.toNat) hx (u64_lt _) (by omega) b1 (by
      obtain ⟨m, k, hm, h⟩ := sqRound2_spec x t1 hh
      exact ⟨m, k, hm, by rw [h]; ring⟩)
  generalize ht2 : sqRound2 x t1 = t2 at *
  obtain ⟨m3, hm3, e3, b3⟩ := sq_exact (T := (sqRound3 x t2).val) (t := (t2).val)
    (S := x.d3.toNat * 2 ^ 192 + 2 * x.d4.toNat * 2 ^ 256 + 2 * x.d5.toNat * 2 ^ 320)
    (v := x.d3.toNat) hx (u64_lt _) (by omega) b2 (by
      obtain ⟨m, k, hm, h⟩ := sqRound3_spec x t2 hh
      exact ⟨m, k, hm, by rw [h]; ring⟩)
  generalize ht3 : sqRound3 x t2 = t3 at *
  obtain ⟨m4, hm4, e4, b4⟩ := sq_exact (T := (sqRound4 x t3).val) (t := (t3).val)
    (S := x.d4.toNat * 2 ^ 256 + 2 * x.d5.toNat * 2 ^ 320)
    (v := x.d4.toNat) hx (u64_lt _) (by omega) b3 (by
      obtain ⟨m, k, hm, h⟩ := sqRound4_spec x t3 hh
      exact ⟨m, k, hm, by rw [h]; ring⟩)
  generalize ht4 : sqRound4 x t3 = t4 at *
  obtain ⟨m5, hm5, e5, b5⟩ := sq_exact (T := (sqRound5 x t4).val) (t := (t4).val)
    (S := x.d5.toNat * 2 ^ 320)
    (v := x.d5.toNat) hx (u64_lt _) (by omega) b4 (by
      obtain ⟨m, k, hm, h⟩ := sqRound5_spec x t4 hh
      exact ⟨m, k, hm, by rw [h]; ring⟩)
  generalize ht5 : sqRound5 x t4 = t5 at *
  simp only [squareRun, ht0, ht1, ht2, ht3, ht4, ht5]
  have key : 2 ^ 384 * t5.val = x.val * x.val +
      (m0 + 2 ^ 64 * m1 + 2 ^ 128 * m2 + 2 ^ 192 * m3 + 2 ^ 256 * m4 + 2 ^ 320 * m5) * Bls.p := by
    rw [hval]
    linear_combination e0 + 2 ^ 64 * e1 + 2 ^ 128 * e2 + 2 ^ 192 * e3 + 2 ^ 256 * e4 + 2 ^ 320 * e5
  have hM : m0 + 2 ^ 64 * m1 + 2 ^ 128 * m2 + 2 ^ 192 * m3 + 2 ^ 256 * m4 + 2 ^ 320 * m5
      < 2 ^ 384 := by omega
  exact ⟨t5, rfl, _, hM, key⟩

theorem isReduction_unique {n t t' : ℕ} (h : IsReduction n t) (h' : IsReduction n t') : t = t' := by
  obtain ⟨m, hm, e⟩ := h
  obtain ⟨m', hm', e'⟩ := h'
  have c : Nat.Coprime (2 ^ 384) p := by decide +kernel
  have key : ∀ a b : ℕ, a < 2 ^ 384 → b ≤ a → 2 ^ 384 ∣ a * p - b * p → a = b := by
    intro a b ha hb hd
    rw [← Nat.sub_mul] at hd
    have := c.dvd_of_dvd_mul_right hd
    have := Nat.eq_zero_of_dvd_of_lt this (by omega)
    omega
  have hmm : m = m' := by
    rcases Nat.le_total m' m with h | h
    · refine key m m' hm h ⟨t - t', ?_⟩
      rw [Nat.mul_sub]; omega
    · refine (key m' m hm' h ⟨t' - t, ?_⟩).symm
      rw [Nat.mul_sub]; omega
  subst hmm
  omega

theorem doublings_value (n : ℕ) : ∀ x x' : Fp, x.val < p → x'.val < p →
    (∀ i < n, ∀ k, ¬ CarryLost (2 ^ i * x.val % p) (2 ^ i * x.val % p) k) →
    (∀ i < n, ∀ k, ¬ CarryLost (2 ^ i * x'.val % p) (2 ^ i * x'.val % p) k) →
    doublingsRun n x = doublingsRun n x' →
    2 ^ n * x.val < 2 ^ n * x'.val + p ∧ 2 ^ n * x'.val < 2 ^ n * x.val + p := by
  induction n with
  | zero => intro x x' hx hx' _ _ _; omega
  | succ n ih =>
    intro x x' hx hx' h h' e
    have a : ∀ k, ¬ CarryLost x.val x.val k := by
      have := h 0 (by omega)
      rwa [pow_zero, one_mul, Nat.mod_eq_of_lt hx] at this
    have a' : ∀ k, ¬ CarryLost x'.val x'.val k := by
      have := h' 0 (by omega)
      rwa [pow_zero, one_mul, Nat.mod_eq_of_lt hx'] at this
    rw [doublingsRun, doublingsRun, List.cons.injEq] at e
    obtain ⟨e1, e2⟩ := e
    rw [doubleRun, doubleRun, condSubRun_snd] at e1
    rw [addChain_val hx hx a, addChain_val hx' hx' a'] at e1
    have b : ∀ y : Fp, y.val < p → (∀ k, ¬ CarryLost y.val y.val k) →
        (doubleRun y).1.val = if y.val + y.val < p then y.val + y.val else y.val + y.val - p := by
      intro y hy g
      rw [doubleRun, condSubRun_fst, condSub_val, addChain_val hy hy g]
    have c : ∀ y : Fp, y.val < p → (∀ k, ¬ CarryLost y.val y.val k) → (doubleRun y).1.val < p ∧
        ∀ i, 2 ^ i * (doubleRun y).1.val % p = 2 ^ (i + 1) * y.val % p := by
      intro y hy g
      have g1 := b y hy g
      have g2 : (doubleRun y).1.val = 2 * y.val % p := by
        rw [g1, two_mul]
        split
        · rw [Nat.mod_eq_of_lt (by assumption)]
        · rw [Nat.mod_eq_sub_mod (by omega), Nat.mod_eq_of_lt (by omega)]
      refine ⟨by rw [g2]; exact Nat.mod_lt _ (by decide +kernel), fun i => ?_⟩
      rw [g2, Nat.mul_mod_mod, pow_succ, mul_assoc]
    obtain ⟨c1, c2⟩ := c x hx a
    obtain ⟨c1', c2'⟩ := c x' hx' a'
    have := ih (doubleRun x).1 (doubleRun x').1 c1 c1' (fun i hi => by rw [c2]; exact h (i + 1) (by omega))
      (fun i hi => by rw [c2']; exact h' (i + 1) (by omega)) e2
    rw [b x hx a, b x' hx' a'] at this
    have e3 := e1.1
    by_cases g : x.val + x.val < p
    · rw [if_pos g, if_pos (e3.1 g)] at this
      rw [pow_succ, mul_assoc, mul_assoc, two_mul, two_mul]
      exact this
    · rw [if_neg g, if_neg (fun g' => g (e3.2 g')), Nat.mul_sub, Nat.mul_sub] at this
      rw [pow_succ, mul_assoc, mul_assoc, two_mul, two_mul]
      have l : 2 ^ n * p ≤ 2 ^ n * (x.val + x.val) := Nat.mul_le_mul_left _ (by omega)
      have l' : 2 ^ n * p ≤ 2 ^ n * (x'.val + x'.val) := Nat.mul_le_mul_left _ (by have := e3.not.1 g; omega)
      omega

end Bls.Portable
