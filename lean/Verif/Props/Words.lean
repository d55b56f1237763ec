import Verif.Proof.Word
import Mathlib.Tactic.LinearCombination

/-!
# C04: carry primitives

The claim as stated is false of `Add64` and `Sub64`; the negations, the exact correctness conditions
and the true parts are proved here.
-/

namespace Bls.Props
open Bls

/-- What the comment on `Add64` (`include/bls12-381/arithmetic.hpp:38-42`) promises. -/
def AddExact (x y c : UInt64) : Prop :=
  (add64 x y c).1.toNat + 2 ^ 64 * (add64 x y c).2.toNat = x.toNat + y.toNat + c.toNat

/-- What the comment on `Sub64` (`include/bls12-381/arithmetic.hpp:49-53`) promises. -/
def SubExact (x y b : UInt64) : Prop :=
  ((sub64 x y b).1.toNat : Int) - 2 ^ 64 * (sub64 x y b).2.toNat = x.toNat - y.toNat - b.toNat

/-- C04 is false: `Add64(0, 2^64-1, 1)` returns carry 0. -/
theorem C04_add64_false : ¬ ∀ x y c : UInt64, c.toNat ≤ 1 → AddExact x y c := by
  intro h
  have := h 0 0xffffffffffffffff 1 (by decide)
  revert this
  unfold AddExact
  decide +kernel

/-- C04 is false: `Sub64(0, 2^64-1, 1)` returns borrow 0. -/
theorem C04_sub64_false : ¬ ∀ x y b : UInt64, b.toNat ≤ 1 → SubExact x y b := by
  intro h
  have := h 0 0xffffffffffffffff 1 (by decide)
  revert this
  unfold SubExact
  decide +kernel

/-- The exact domain on which `Add64` keeps its promise. Missing from C04: the excluded pair
`y = 2^64-1`, carry-in 1. -/
theorem C04_add64_partial (x y c : UInt64) (hc : c.toNat ≤ 1) :
    AddExact x y c ↔ ¬ (y.toNat = 2 ^ 64 - 1 ∧ c.toNat = 1) := by
  constructor
  · rintro h ⟨hy, hc1⟩
    unfold AddExact at h
    rw [add64_toNat, add64_carry_toNat] at h
    have := u64_lt x
    rw [two64] at *
    split at h <;> omega
  · intro h
    exact (add64_spec x y c hc (by omega)).1

example : AddExact 5 0xffffffffffffffff 0 ∧ AddExact 5 0xfffffffffffffffe 1 ∧ ¬ AddExact 5 0xffffffffffffffff 1 := by
  rw [C04_add64_partial _ _ _ (by decide), C04_add64_partial _ _ _ (by decide), C04_add64_partial _ _ _ (by decide)]
  decide +kernel

/-- The exact domain on which `Sub64` keeps its promise. Missing from C04: the excluded pair
`y = 2^64-1`, borrow-in 1. -/
theorem C04_sub64_partial (x y b : UInt64) (hb : b.toNat ≤ 1) :
    SubExact x y b ↔ ¬ (y.toNat = 2 ^ 64 - 1 ∧ b.toNat = 1) := by
  constructor
  · rintro h ⟨hy, hc1⟩
    unfold SubExact at h
    rw [sub64_toNat _ _ _ hb, sub64_borrow_toNat _ _ _ hb] at h
    have := u64_lt x
    rw [two64] at *
    split at h <;> omega
  · intro h
    have := (sub64_spec x y b hb (by omega)).1
    unfold SubExact
    omega

example : SubExact 5 0xffffffffffffffff 0 ∧ SubExact 5 0xfffffffffffffffe 1 ∧ ¬ SubExact 5 0xffffffffffffffff 1 := by
  rw [C04_sub64_partial _ _ _ (by decide), C04_sub64_partial _ _ _ (by decide), C04_sub64_partial _ _ _ (by decide)]
  decide +kernel

/-- The carry and borrow outputs are always 0 or 1. -/
theorem C04_carry_bit (x y c : UInt64) : (add64 x y c).2.toNat ≤ 1 ∧ (sub64 x y c).2.toNat ≤ 1 :=
  ⟨add64_carry_le x y c, sub64_borrow_le x y c⟩

/-- `Mul64` returns the full product. -/
theorem C04_mul64 (x y : UInt64) :
    (mul64 x y).2.toNat + 2 ^ 64 * (mul64 x y).1.toNat = x.toNat * y.toNat := mul64_spec x y

/-- `madd0`, `madd1`, `madd2` return the promised sums (which always fit). -/
theorem C04_madd (a b c d : UInt64) :
    (madd0 a b c).toNat = (a.toNat * b.toNat + c.toNat) / 2 ^ 64 ∧
    (madd1 a b c).2.toNat + 2 ^ 64 * (madd1 a b c).1.toNat = a.toNat * b.toNat + c.toNat ∧
    (madd2 a b c d).2.toNat + 2 ^ 64 * (madd2 a b c d).1.toNat =
      a.toNat * b.toNat + c.toNat + d.toNat := by
  refine ⟨?_, madd1_spec a b c, madd2_spec a b c d⟩
  obtain ⟨lo, h1, h2⟩ := madd0_spec a b c
  rw [← h2, Nat.add_mul_div_left _ _ (by norm_num), Nat.div_eq_of_lt h1, Nat.zero_add]

/-- `madd3` returns `a*b + c + d + 2^64*e` whenever that fits in 128 bits. -/
theorem C04_madd3 (a b c d e : UInt64)
    (h : a.toNat * b.toNat + c.toNat + d.toNat + 2 ^ 64 * e.toNat < 2 ^ 128) :
    (madd3 a b c d e).2.toNat + 2 ^ 64 * (madd3 a b c d e).1.toNat =
      a.toNat * b.toNat + c.toNat + d.toNat + 2 ^ 64 * e.toNat := by
  obtain ⟨k, hk⟩ := madd3_spec a b c d e
  have : k = 0 := by
    generalize a.toNat * b.toNat = ab at *
    omega
  subst this
  simpa using hk

example : (madd3 0xffffffffffffffff 0xffffffffffffffff 7 9 1).2.toNat + 2 ^ 64 * (madd3 0xffffffffffffffff 0xffffffffffffffff 7 9 1).1.toNat =
    (2 ^ 64 - 1) ^ 2 + 16 + 2 ^ 64 :=
  (C04_madd3 0xffffffffffffffff 0xffffffffffffffff 7 9 1 (by decide +kernel)).trans (by decide +kernel)

theorem words4 {r1 r2 e s3 c3 s4 c4 : ℕ} (h3 : s3 + 2 ^ 64 * c3 = r1 + e) (h4 : s4 + 2 ^ 64 * c4 = r2 + c3) :
    s3 + 2 ^ 64 * s4 + 2 ^ 128 * c4 = r1 + 2 ^ 64 * r2 + 0 + e + 2 ^ 64 * 0 := by
  linear_combination h3 + 2 ^ 64 * h4

theorem words5 {r1 r2 e s3 c3 s4 c4 d : ℕ} (h3 : s3 + 2 ^ 64 * c3 = r1 + e) (h4 : s4 + 2 ^ 64 * c4 = r2 + c3) :
    s3 + 2 ^ 64 * ((s4 + d) % 2 ^ 64) + 2 ^ 128 * (c4 + (s4 + d) / 2 ^ 64) = r1 + 2 ^ 64 * r2 + 0 + e + 2 ^ 64 * d := by
  have h5 := Nat.mod_add_div (s4 + d) (2 ^ 64)
  linear_combination h3 + 2 ^ 64 * h4 + 2 ^ 64 * h5

theorem words6 {r1 r2 c e r3 c3 r4 c4 r5 c5 r6 c6 : ℕ} (h3 : r3 + 2 ^ 64 * c3 = c + e) (h4 : r4 + 2 ^ 64 * c4 = r2 + c3)
    (h5 : r5 + 2 ^ 64 * c5 = r1 + r3) (h6 : r6 + 2 ^ 64 * c6 = r4 + c5) :
    r5 + 2 ^ 64 * r6 + 2 ^ 128 * (c4 + c6) = r1 + 2 ^ 64 * r2 + c + e + 2 ^ 64 * 0 := by
  linear_combination h3 + 2 ^ 64 * h4 + h5 + 2 ^ 64 * h6

theorem words7 {r1 r2 c d e r3 c3 r4 c4 r5 c5 r6 c6 : ℕ} (h3 : r3 + 2 ^ 64 * c3 = c + e)
    (h4 : r4 + 2 ^ 64 * c4 = r2 + c3) (h5 : r5 + 2 ^ 64 * c5 = r1 + r3) (h6 : r6 + 2 ^ 64 * c6 = r4 + c5) :
    r5 + 2 ^ 64 * ((r6 + d) % 2 ^ 64) + 2 ^ 128 * (c4 + c6 + (r6 + d) / 2 ^ 64) =
      r1 + 2 ^ 64 * r2 + c + e + 2 ^ 64 * d := by
  have h7 := Nat.mod_add_div (r6 + d) (2 ^ 64)
  linear_combination h3 + 2 ^ 64 * h4 + h5 + 2 ^ 64 * h6 + 2 ^ 64 * h7

/-- What all helpers of `_square` do with the double product and a two-word addend. -/
theorem double_add {ab c d e v r1 c1 r2 c2 k m1 m2 : ℕ} (hm : m2 + 2 ^ 64 * m1 = ab)
    (h1 : r1 + 2 ^ 64 * c1 = m2 + m2) (h2 : r2 + 2 ^ 64 * c2 = m1 + m1 + c1) (hr1 : r1 < 2 ^ 64) (hr2 : r2 < 2 ^ 64)
    (hv : v < 2 ^ 128) (h : v + 2 ^ 128 * k = r1 + 2 ^ 64 * r2 + c + e + 2 ^ 64 * d) :
    v = (2 * ab + c + e + 2 ^ 64 * d) % 2 ^ 128 ∧ c2 = 2 * ab / 2 ^ 128 := by
  have key : 2 * ab = r1 + 2 ^ 64 * r2 + 2 ^ 128 * c2 := by linear_combination 2 * hm.symm + h1.symm + 2 ^ 64 * h2.symm
  constructor
  · have e1 : 2 * ab + c + e + 2 ^ 64 * d = v + 2 ^ 128 * (k + c2) := by linear_combination key + h.symm
    rw [e1, Nat.add_mul_mod_self_left, Nat.mod_eq_of_lt hv]
  · have hl : r1 + 2 ^ 64 * r2 < 2 ^ 128 := by
      clear * - hr1 hr2
      norm_num at *
      omega
    rw [key, Nat.add_mul_div_left _ _ (by norm_num), Nat.div_eq_of_lt hl, Nat.zero_add]

/-- The helpers of `_square` return `2*a*b + c + e + 2^64*d` with a defect: the top word is that of `2*a*b` alone, the
carry of the additions out of the second word is dropped. This is exact for all words, including the term `d`, which the
comment in `include/bls12-381/arithmetic.hpp:100` gives the weight 1 and the code the weight `2^64`. -/
theorem C04_square_helpers (a b c d e : UInt64) :
    ((madd2s a b c d e).2.2.toNat + 2 ^ 64 * (madd2s a b c d e).2.1.toNat =
        (2 * (a.toNat * b.toNat) + c.toNat + e.toNat + 2 ^ 64 * d.toNat) % 2 ^ 128 ∧
      (madd2s a b c d e).1.toNat = 2 * (a.toNat * b.toNat) / 2 ^ 128) ∧
    ((madd1s a b d e).2.2.toNat + 2 ^ 64 * (madd1s a b d e).2.1.toNat =
        (2 * (a.toNat * b.toNat) + e.toNat + 2 ^ 64 * d.toNat) % 2 ^ 128 ∧
      (madd1s a b d e).1.toNat = 2 * (a.toNat * b.toNat) / 2 ^ 128) ∧
    ((madd2sb a b c e).2.2.toNat + 2 ^ 64 * (madd2sb a b c e).2.1.toNat =
        (2 * (a.toNat * b.toNat) + c.toNat + e.toNat) % 2 ^ 128 ∧
      (madd2sb a b c e).1.toNat = 2 * (a.toNat * b.toNat) / 2 ^ 128) ∧
    ((madd1sb a b e).2.2.toNat + 2 ^ 64 * (madd1sb a b e).2.1.toNat =
        (2 * (a.toNat * b.toNat) + e.toNat) % 2 ^ 128 ∧
      (madd1sb a b e).1.toNat = 2 * (a.toNat * b.toNat) / 2 ^ 128) := by
  have e128 : (2:ℕ) ^ 128 = 340282366920938463463374607431768211456 := by norm_num
  have hm := mul64_spec a b
  have hp := u64_mul_le a b
  have hhi := mul64_hi a b
  have hc := u64_lt c
  have he := u64_lt e
  have hd := u64_lt d
  simp only [madd2s, madd1s, madd2sb, madd1sb]
  generalize mul64 a b = m at *
  generalize a.toNat * b.toNat = ab at *
  have e1 := add64_spec m.2 m.2 0 (by simp) (Or.inr (by simp))
  generalize add64 m.2 m.2 0 = r1 at *
  have e2 := add64_spec m.1 m.1 r1.2 e1.2 (Or.inl (by rw [two64] at *; omega))
  generalize add64 m.1 m.1 r1.2 = r2 at *
  have r1l := u64_lt r1.1
  have r2l := u64_lt r2.1
  simp only [UInt64.toNat_zero, add_zero] at e1
  have e3 := add64_spec0 c e
  have e3c := add64_carry_le c e 0
  generalize add64 c e 0 = r3 at *
  have e4 := add64_spec_zero r2.1 r3.2 e3c
  generalize add64 r2.1 0 r3.2 = r4 at *
  have e5 := add64_spec0 r1.1 r3.1
  have e5c := add64_carry_le r1.1 r3.1 0
  generalize add64 r1.1 r3.1 0 = r5 at *
  have e6 := add64_spec_zero r4.1 r5.2 e5c
  generalize add64 r4.1 0 r5.2 = r6 at *
  have e7 := add64_toNat r6.1 0 d
  generalize add64 r6.1 0 d = r7 at *
  have f3 := add64_spec0 r1.1 e
  have f3c := add64_carry_le r1.1 e 0
  generalize add64 r1.1 e 0 = s3 at *
  have f4 := add64_spec_zero r2.1 s3.2 f3c
  generalize add64 r2.1 0 s3.2 = s4 at *
  have f5 := add64_toNat s4.1 0 d
  generalize add64 s4.1 0 d = s5 at *
  have := u64_lt r3.1; have := u64_lt r4.1; have := u64_lt r5.1; have := u64_lt r6.1; have := u64_lt r7.1
  have := u64_lt s3.1; have := u64_lt s4.1; have := u64_lt s5.1
  simp only [UInt64.toNat_zero, add_zero] at e7 f5
  have l2 : ∀ x y : ℕ, x < 2 ^ 64 → y < 2 ^ 64 → x + 2 ^ 64 * y < 2 ^ 128 := by
    intro x y hx hy
    clear * - hx hy e128
    rw [e128, two64] at *
    omega
  refine ⟨?_, ?_, ?_, ?_⟩
  · refine double_add (k := r4.2.toNat + r6.2.toNat + (r6.1.toNat + d.toNat) / 2 ^ 64) hm e1.1 e2.1 r1l r2l
      (l2 _ _ (by assumption) (by assumption)) ?_
    rw [e7]
    exact words7 e3 e4 e5 e6
  · refine double_add (c := 0) (k := s4.2.toNat + (s4.1.toNat + d.toNat) / 2 ^ 64) hm e1.1 e2.1 r1l r2l
      (l2 _ _ (by assumption) (by assumption)) ?_
    rw [f5]
    exact words5 f3 f4
  · refine double_add (d := 0) (k := r4.2.toNat + r6.2.toNat) hm e1.1 e2.1 r1l r2l
      (l2 _ _ (by assumption) (by assumption)) ?_
    exact words6 e3 e4 e5 e6
  · refine double_add (d := 0) (c := 0) (k := s4.2.toNat) hm e1.1 e2.1 r1l r2l
      (l2 _ _ (by assumption) (by assumption)) ?_
    exact words4 f3 f4

/-- So three words of `madd2s` are the whole sum iff the additions stay inside the two low words of `2*a*b`. -/
theorem C04_madd2s_exact (a b c d e : UInt64) :
    (madd2s a b c d e).2.2.toNat + 2 ^ 64 * (madd2s a b c d e).2.1.toNat + 2 ^ 128 * (madd2s a b c d e).1.toNat =
      2 * (a.toNat * b.toNat) + c.toNat + e.toNat + 2 ^ 64 * d.toNat ↔
    2 * (a.toNat * b.toNat) % 2 ^ 128 + c.toNat + e.toNat + 2 ^ 64 * d.toNat < 2 ^ 128 := by
  obtain ⟨h1, h2⟩ := (C04_square_helpers a b c d e).1
  rw [h1, h2]
  generalize a.toNat * b.toNat = ab
  have e128 : (2:ℕ) ^ 128 = 340282366920938463463374607431768211456 := by norm_num
  rw [e128, two64]
  omega

/-- `madd(a, b, t, u, v)`, which nothing calls: the two low words are those of `a*b + v + 2^64*u`, and the carry reaches
`t` unless `u` is `2^64-1` and the low addition carries. -/
theorem C04_madd5 (a b t u v : UInt64) :
    (madd a b t u v).2.2.toNat + 2 ^ 64 * (madd a b t u v).2.1.toNat =
      (a.toNat * b.toNat + v.toNat + 2 ^ 64 * u.toNat) % 2 ^ 128 ∧
    (madd a b t u v).1.toNat = (t.toNat + if u.toNat = 2 ^ 64 - 1 ∧ 2 ^ 64 ≤ a.toNat * b.toNat % 2 ^ 64 + v.toNat then 0
      else (a.toNat * b.toNat + v.toNat + 2 ^ 64 * u.toNat) / 2 ^ 128) % 2 ^ 64 := by
  have e128 : (2:ℕ) ^ 128 = 340282366920938463463374607431768211456 := by norm_num
  have hm := mul64_spec a b
  have hp := u64_mul_le a b
  have hhi := mul64_hi a b
  have hv := u64_lt v
  have hu := u64_lt u
  simp only [madd]
  generalize mul64 a b = m at *
  have m2 := u64_lt m.2
  generalize a.toNat * b.toNat = ab at *
  have e1 := add64_spec0 m.2 v
  have e1c := add64_carry_le m.2 v 0
  generalize add64 m.2 v 0 = r1 at *
  have e2 := add64_toNat m.1 u r1.2
  have e2c := add64_carry_toNat m.1 u r1.2
  generalize add64 m.1 u r1.2 = r2 at *
  have e3 := add64_toNat t 0 r2.2
  generalize add64 t 0 r2.2 = r3 at *
  have := u64_lt r1.1; have := u64_lt r2.1; have := u64_lt r3.1; have := u64_lt t
  simp only [UInt64.toNat_zero, add_zero] at e3
  have e4 : r2.1.toNat + 2 ^ 64 * ((m.1.toNat + u.toNat + r1.2.toNat) / 2 ^ 64) = m.1.toNat + u.toNat + r1.2.toNat := by
    rw [e2]; exact Nat.mod_add_div _ _
  have hl : r1.1.toNat + 2 ^ 64 * r2.1.toNat < 2 ^ 128 := by
    have h1 := u64_lt r1.1; have h2 := u64_lt r2.1
    clear * - h1 h2 e128
    rw [e128, two64] at *
    omega
  have key : ab + v.toNat + 2 ^ 64 * u.toNat = r1.1.toNat + 2 ^ 64 * r2.1.toNat +
      2 ^ 128 * ((m.1.toNat + u.toNat + r1.2.toNat) / 2 ^ 64) := by
    clear * - hm e1 e4
    generalize (m.1.toNat + u.toNat + r1.2.toNat) / 2 ^ 64 = k at *
    linear_combination hm.symm + e1.symm + 2 ^ 64 * e4.symm
  have hq : (ab + v.toNat + 2 ^ 64 * u.toNat) / 2 ^ 128 = (m.1.toNat + u.toNat + r1.2.toNat) / 2 ^ 64 := by
    rw [key, Nat.add_mul_div_left _ _ (by norm_num), Nat.div_eq_of_lt hl, Nat.zero_add]
  refine ⟨by rw [key, Nat.add_mul_mod_self_left, Nat.mod_eq_of_lt hl], ?_⟩
  rw [hq, e3, e2c]
  have hlow : ab % 2 ^ 64 = m.2.toNat := by rw [← hm, Nat.add_mul_mod_self_left, Nat.mod_eq_of_lt m2]
  rw [hlow]
  have h5 := u64_lt m.1
  have h6 := u64_lt r1.1
  clear * - e1 e1c hu h5 h6 hhi
  generalize m.1.toNat = M at *
  generalize m.2.toNat = L at *
  generalize u.toNat = U at *
  generalize v.toNat = V at *
  generalize r1.2.toNat = C at *
  generalize r1.1.toNat = D at *
  congr 2
  rw [two64] at *
  split <;> split <;> omega

example : (madd 0 0 5 0xffffffffffffffff 0).1 = 5 ∧ (madd 1 1 5 0xffffffffffffffff 0xffffffffffffffff).1 = 5 ∧
    (madd 1 0xffffffffffffffff 5 0xffffffffffffffff 0xffffffffffffffff).1 = 5 ∧
    (madd 0xffffffffffffffff 0xffffffffffffffff 5 0xfffffffffffffffe 0xffffffffffffffff).1 = 6 := by decide +kernel

/-- The dropped carry of `madd2s` occurs. -/
example : ¬ 2 * ((0xffffffffffffffff : UInt64).toNat * (0x8000000000000000 : UInt64).toNat) % 2 ^ 128 +
    (0 : UInt64).toNat + (0 : UInt64).toNat + 2 ^ 64 * (2 : UInt64).toNat < 2 ^ 128 := by decide +kernel

example : (1 : UInt64).toNat ≤ 1 ∧
    ¬ ((0xfffffffffffffffe : UInt64).toNat = 2 ^ 64 - 1 ∧ (1 : UInt64).toNat = 1) := by decide +kernel
example : (0xffffffffffffffff : UInt64).toNat * (0xffffffffffffffff : UInt64).toNat +
    (7 : UInt64).toNat + (9 : UInt64).toNat + 2 ^ 64 * (1 : UInt64).toNat < 2 ^ 128 := by
  decide +kernel

end Bls.Props
