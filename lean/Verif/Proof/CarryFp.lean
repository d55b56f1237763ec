import Verif.Proof.KeysExact
import Verif.Proof.PortableSq

/-! Exactly when the chains of `Add64` and `Sub64` of the portable field operations are exact. -/

namespace Bls.Scalar

/-- `BorrowLost` with a borrow from the lowest word. -/
def LostOut (x y c k : ℕ) : Prop := y / 2 ^ (64 * k) % 2 ^ 64 = 2 ^ 64 - 1 ∧ x % 2 ^ (64 * k) < y % 2 ^ (64 * k) + c

theorem lostOut_zero (x y k : ℕ) : LostOut x y 0 k ↔ BorrowLost x y k := by rw [LostOut, BorrowLost, add_zero]

theorem sub64_ge (x y c : UInt64) (hc : c.toNat ≤ 1) :
    x.toNat + 2 ^ 64 * (sub64 x y c).2.toNat ≤ (sub64 x y c).1.toNat + y.toNat + c.toNat ∧
    (x.toNat + 2 ^ 64 * (sub64 x y c).2.toNat = (sub64 x y c).1.toNat + y.toNat + c.toNat ↔
      ¬ (y.toNat = 2 ^ 64 - 1 ∧ 1 ≤ c.toNat)) ∧
    (sub64 x y c).1.toNat + y.toNat + c.toNat ≤ x.toNat + 2 ^ 64 * (sub64 x y c).2.toNat +
      2 ^ 64 * (if y.toNat = 2 ^ 64 - 1 then 1 else 0) := by
  rw [sub64_toNat _ _ _ hc, sub64_borrow_toNat _ _ _ hc]
  have := u64_lt x; have := u64_lt y
  rw [two64] at *
  refine ⟨?_, ?_, ?_⟩
  · split <;> omega
  · split <;> omega
  · split <;> split <;> omega

theorem lostOut_head (x0 x y0 y c : ℕ) (hy : y0 < 2 ^ 64) : LostOut (x0 + 2 ^ 64 * x) (y0 + 2 ^ 64 * y) c 0 ↔ y0 = 2 ^ 64 - 1 ∧ 1 ≤ c := by
  rw [LostOut, mul_zero, pow_zero, Nat.div_one, Nat.mod_one, Nat.mod_one, Nat.add_mul_mod_self_left, Nat.mod_eq_of_lt hy]
  omega

theorem lostOut_tail (x0 x y0 y c s c1 k : ℕ) (hx : x0 < 2 ^ 64) (hy : y0 < 2 ^ 64) (hs : s < 2 ^ 64)
    (he : x0 + 2 ^ 64 * c1 = s + y0 + c) :
    LostOut (x0 + 2 ^ 64 * x) (y0 + 2 ^ 64 * y) c (k + 1) ↔ LostOut x y c1 k := by
  rw [LostOut, LostOut, mod_succ _ _ _ hx, mod_succ _ _ _ hy]
  have e : (y0 + 2 ^ 64 * y) / 2 ^ (64 * (k + 1)) = y / 2 ^ (64 * k) := by
    rw [show 64 * (k + 1) = 64 + 64 * k by ring, pow_add, ← Nat.div_div_eq_div_mul, Nat.add_mul_div_left _ _ (by norm_num),
      Nat.div_eq_of_lt hy, zero_add]
  rw [e]
  refine and_congr_right fun _ => ?_
  generalize x % 2 ^ (64 * k) = u
  generalize y % 2 ^ (64 * k) = v
  omega

/-- A chain of `Sub64` calls. -/
def subLoop : List UInt64 → List UInt64 → UInt64 → List UInt64 × UInt64
  | x :: a, y :: b, c =>
    let r := sub64 x y c
    let s := subLoop a b r.2
    (r.1 :: s.1, s.2)
  | _, _, c => ([], c)

theorem subLoop_ge : ∀ (n : ℕ) (a b : List UInt64) (c : UInt64), a.length = n → b.length = n → c.toNat ≤ 1 →
    (subLoop a b c).2.toNat ≤ 1 ∧
    wordsVal a + 2 ^ (64 * n) * (subLoop a b c).2.toNat ≤ wordsVal (subLoop a b c).1 + wordsVal b + c.toNat ∧
    (wordsVal a + 2 ^ (64 * n) * (subLoop a b c).2.toNat = wordsVal (subLoop a b c).1 + wordsVal b + c.toNat ↔
      ∀ k, ¬ LostOut (wordsVal a) (wordsVal b) c.toNat k) ∧
    wordsVal (subLoop a b c).1 + wordsVal b + c.toNat ≤ wordsVal a + 2 ^ (64 * n) * (subLoop a b c).2.toNat + lossBound b
  | 0, a, b, c, ha, hb, hc => by
    rw [List.length_eq_zero_iff.1 ha, List.length_eq_zero_iff.1 hb]
    refine ⟨hc, ?_, ?_, ?_⟩
    · simp [subLoop, wordsVal]
    · simp only [subLoop, wordsVal, mul_zero, pow_zero, one_mul, zero_add, true_iff]
      rintro k ⟨h, -⟩
      simp at h
    · simp [subLoop, wordsVal]
  | n + 1, [], _, c, ha, _, _ => by simp at ha
  | n + 1, _ :: _, [], c, _, hb, _ => by simp at hb
  | n + 1, x :: a, y :: b, c, ha, hb, hc => by
    obtain ⟨h1, h2, h3⟩ := sub64_ge x y c hc
    have hc1 := sub64_borrow_le x y c
    obtain ⟨i1, i2, i3, i4⟩ := subLoop_ge n a b (sub64 x y c).2 (by simpa using ha) (by simpa using hb) hc1
    have e1 : (subLoop (x :: a) (y :: b) c).1 = (sub64 x y c).1 :: (subLoop a b (sub64 x y c).2).1 := rfl
    have e2 : (subLoop (x :: a) (y :: b) c).2 = (subLoop a b (sub64 x y c).2).2 := rfl
    rw [e1, e2, wordsVal, wordsVal, wordsVal, lossBound, show 64 * (n + 1) = 64 + 64 * n by ring, pow_add, mul_assoc]
    have hx := u64_lt x
    have hy := u64_lt y
    have hs := u64_lt (sub64 x y c).1
    refine ⟨i1, ?_, ?_, ?_⟩
    · generalize 2 ^ (64 * n) * _ = z at *
      omega
    · have key : (∀ k, ¬ LostOut (x.toNat + 2 ^ 64 * wordsVal a) (y.toNat + 2 ^ 64 * wordsVal b) c.toNat k) ↔
          (¬ (y.toNat = 2 ^ 64 - 1 ∧ 1 ≤ c.toNat)) ∧
          ∀ k, ¬ LostOut (x.toNat + 2 ^ 64 * wordsVal a) (y.toNat + 2 ^ 64 * wordsVal b) c.toNat (k + 1) := by
        constructor
        · intro h
          exact ⟨fun h' => h 0 ((lostOut_head _ _ _ _ _ hy).2 h'), fun k => h (k + 1)⟩
        · rintro ⟨h, h'⟩ k
          cases k with
          | zero => exact fun hh => h ((lostOut_head _ _ _ _ _ hy).1 hh)
          | succ k => exact h' k
      rw [key, ← h2]
      generalize hz : 2 ^ (64 * n) * (subLoop a b (sub64 x y c).2).2.toNat = z at *
      constructor
      · intro h
        have hh : x.toNat + 2 ^ 64 * (sub64 x y c).2.toNat = (sub64 x y c).1.toNat + y.toNat + c.toNat := by omega
        refine ⟨hh, fun k => ?_⟩
        rw [lostOut_tail _ _ _ _ _ _ _ k hx hy hs hh]
        exact i3.1 (by omega) k
      · rintro ⟨hh, h⟩
        have := i3.2 fun k hk => h k ((lostOut_tail _ _ _ _ _ _ _ k hx hy hs hh).2 hk)
        omega
    · generalize 2 ^ (64 * n) * _ = z at *
      generalize (if y.toNat = 2 ^ 64 - 1 then 1 else 0) = t at *
      omega

end Bls.Scalar

namespace Bls.Portable
open Bls.Scalar

set_option exponentiation.threshold 1000

def limbs (x : Fp) : List UInt64 := [x.d0, x.d1, x.d2, x.d3, x.d4, x.d5]

theorem wordsVal_limbs (x : Fp) : wordsVal (limbs x) = x.val := by
  simp only [limbs, wordsVal, Fp.val]
  ring

theorem lossBound_limbs {y : Fp} (hy : y.val < p) : lossBound (limbs y) < 2 ^ 322 := by
  have h5 : y.d5.toNat ≠ 2 ^ 64 - 1 := by
    intro h
    simp only [Fp.val] at hy
    rw [h] at hy
    unfold p at hy
    omega
  simp only [limbs, lossBound, if_neg h5]
  split <;> split <;> split <;> split <;> split <;> norm_num

/-- A chain of additions falls short of the sum by some `d`, which is zero when no carry is lost. -/
theorem addChain_loss (x y : Fp) (hy : y.val < p) : ∃ c d, (addChain x y).val + 2 ^ 384 * c + d = x.val + y.val ∧ d < 2 ^ 322 ∧
    (d = 0 ↔ ∀ k, ¬ CarryLost x.val y.val k) := by
  obtain ⟨-, h1, h2, h3⟩ := addLoop_le 6 (limbs x) (limbs y) 0 (by simp [limbs]) (by simp [limbs]) (by simp)
  have h4 := addLoop_lower 6 (limbs x) (limbs y) 0 (by simp [limbs]) (by simp [limbs]) (by simp)
  have h5 := lossBound_limbs hy
  have e : (addLoop 6 (limbs x) (limbs y) 0).1 = limbs (addChain x y) := rfl
  rw [e, wordsVal_limbs, wordsVal_limbs, wordsVal_limbs] at h2 h3 h4
  simp only [UInt64.toNat_zero, add_zero, lostIn_zero] at h2 h3 h4
  generalize (addLoop 6 (limbs x) (limbs y) 0).2.toNat = c at *
  refine ⟨c, x.val + y.val - ((addChain x y).val + 2 ^ (64 * 6) * c), by omega, by omega, ?_⟩
  rw [← h3]; omega

/-- A chain of subtractions exceeds the difference by some `d`, which is zero when no borrow is lost. -/
theorem subChain_loss (x y : Fp) (hy : y.val < p) : ∃ d, x.val + 2 ^ 384 * (subChain x y).2.toNat + d = (subChain x y).1.val + y.val ∧
    (subChain x y).2.toNat ≤ 1 ∧ d < 2 ^ 322 ∧ (d = 0 ↔ ∀ k, ¬ BorrowLost x.val y.val k) := by
  obtain ⟨h1, h2, h3, h4⟩ := subLoop_ge 6 (limbs x) (limbs y) 0 (by simp [limbs]) (by simp [limbs]) (by simp)
  have h5 := lossBound_limbs hy
  have e : (subLoop (limbs x) (limbs y) 0).1 = limbs (subChain x y).1 := rfl
  have e' : (subLoop (limbs x) (limbs y) 0).2 = (subChain x y).2 := rfl
  rw [e'] at h1 h2 h3 h4
  rw [e, wordsVal_limbs, wordsVal_limbs, wordsVal_limbs] at h2 h3 h4
  simp only [UInt64.toNat_zero, add_zero, lostOut_zero] at h2 h3 h4
  refine ⟨(subChain x y).1.val + y.val - (x.val + 2 ^ (64 * 6) * (subChain x y).2.toNat), by omega, h1, by omega, ?_⟩
  rw [← h3]; omega

theorem add_exact (x y : Fp) (hx : x.val < p) (hy : y.val < p) :
    (add x y).val = (x.val + y.val) % p ↔ ∀ k, ¬ CarryLost x.val y.val k := by
  obtain ⟨c, d, h1, h2, h3⟩ := addChain_loss x y hy
  have := Fp.val_lt (addChain x y)
  rw [← h3, add, condSub_val]
  have hc : c = 0 := by unfold p at *; omega
  subst hc
  unfold p at *
  split <;> omega

theorem subtract_exact (x y : Fp) (hx : x.val < p) (hy : y.val < p) :
    (subtract x y).val = (x.val + p - y.val) % p ↔ ∀ k, ¬ BorrowLost x.val y.val k := by
  obtain ⟨d, h1, h2, h3, h4⟩ := subChain_loss x y hy
  have hl := Fp.val_lt (subChain x y).1
  rw [← h4, subtract]
  simp only [bne_iff_ne, ne_eq, ← UInt64.toNat_inj, UInt64.toNat_zero]
  split
  · obtain ⟨k, hk, _⟩ := addChain_spec (subChain x y).1 MODULUS MODULUS_noFull
    rw [ MODULUS_val] at hk
    have hl2 := Fp.val_lt (addChain (subChain x y).1 MODULUS)
    unfold p at *
    omega
  · unfold p at *
    omega

theorem negate_exact (x : Fp) (hx : x.val < p) :
    (negate x).val = (p - x.val) % p ↔ ∀ k, ¬ BorrowLost p x.val k := by
  by_cases hz : x.isZero = true
  · rw [negate, if_pos hz]
    rw [Fp.isZero_iff] at hz
    rw [hz]
    refine iff_of_true (by decide +kernel) ?_
    rintro k ⟨h, -⟩
    rw [Nat.zero_div] at h
    revert h
    decide +kernel
  · rw [negate, if_neg hz]
    rw [Fp.isZero_iff] at hz
    obtain ⟨d, h1, h2, h3, h4⟩ := subChain_loss MODULUS x hx
    have hl := Fp.val_lt (subChain MODULUS x).1
    rw [ MODULUS_val] at h1 h4
    rw [← h4]
    unfold p at *
    omega

theorem limb_val (x : Fp) : x.val / 2 ^ (64 * 0) % 2 ^ 64 = x.d0.toNat ∧ x.val / 2 ^ (64 * 1) % 2 ^ 64 = x.d1.toNat ∧
    x.val / 2 ^ (64 * 2) % 2 ^ 64 = x.d2.toNat ∧ x.val / 2 ^ (64 * 3) % 2 ^ 64 = x.d3.toNat ∧
    x.val / 2 ^ (64 * 4) % 2 ^ 64 = x.d4.toNat := by
  have := u64_lt x.d0; have := u64_lt x.d1; have := u64_lt x.d2; have := u64_lt x.d3; have := u64_lt x.d4; have := u64_lt x.d5
  simp only [Fp.val]
  omega

theorem roomy_of (x : Fp) (hx : x.val < p) (h : ∀ i j, i < j → j < 5 → ¬ NoRoom x.val i j) : x.Roomy := by
  obtain ⟨e0, e1, e2, e3, e4⟩ := limb_val x
  have h5 : x.d5.toNat < 2 ^ 61 := by
    simp only [Fp.val] at hx
    unfold p at hx
    omega
  simp only [NoRoom, not_le] at h
  refine ⟨?_, ?_, ?_, ?_, ?_, ?_, ?_, ?_, ?_, ?_, h5⟩ <;> unfold Room
  · rw [← e0, ← e1]; exact h 0 1 (by decide) (by decide)
  · rw [← e0, ← e2]; exact h 0 2 (by decide) (by decide)
  · rw [← e0, ← e3]; exact h 0 3 (by decide) (by decide)
  · rw [← e0, ← e4]; exact h 0 4 (by decide) (by decide)
  · rw [← e1, ← e2]; exact h 1 2 (by decide) (by decide)
  · rw [← e1, ← e3]; exact h 1 3 (by decide) (by decide)
  · rw [← e1, ← e4]; exact h 1 4 (by decide) (by decide)
  · rw [← e2, ← e3]; exact h 2 3 (by decide) (by decide)
  · rw [← e2, ← e4]; exact h 2 4 (by decide) (by decide)
  · rw [← e3, ← e4]; exact h 3 4 (by decide) (by decide)

end Bls.Portable
