import Verif.Proof.DivisionRun
import Verif.Proof.Codec
import Verif.Model.Tower

/-!
# C84: how many rounds the loops of `bn_divn_low` take

In `Model/Division.lean` a loop may take up to `2^64` rounds. Here it is shown that none takes more than five.
-/

namespace Bls.Props
open Bls Division

/-- The normalised divisor: its top word is at least `2^62`, and what follows from it. -/
private theorem normalized (a b : List UInt64) (hab : b.length ≤ a.length) (top : UInt64) (ht : b.getLast? = some top)
    (h1 : 1 ≤ top.toNat) {r : List UInt64 × List UInt64} {n : ℕ} {ds : List Digit} (h : divnSafeRun a b = some (r, n, ds)) :
    ∃ (x y : List UInt64) (norm t : ℕ) (bt v0 : UInt64), y.length = t + 1 ∧ b.length ≤ y.length ∧ y.length ≤ x.length ∧
      x.length ≤ a.length + 1 ∧ norm < 64 ∧ wordsVal x = 2 ^ norm * wordsVal a ∧ wordsVal y = 2 ^ norm * wordsVal b ∧
      (top.toNat < 2 ^ 63 → y.length = b.length) ∧
      2 ^ 62 ≤ bt.toNat ∧ bt.toNat = wordsVal y / 2 ^ (64 * t) ∧
      (t ≠ 0 → v0.toNat = wordsVal y / 2 ^ (64 * (t - 1)) % 2 ^ 64) ∧
      n = wordsVal x / (2 ^ (64 * (x.length - y.length)) * wordsVal y) ∧ ds.length = x.length - y.length ∧
      ∀ D : ℕ, 2 ^ 64 * v0.toNat ≤ D * (v0.toNat + 2 ^ 64 * bt.toNat) → ∀ d ∈ ds, 1 ≤ d.rounds ∧ d.rounds ≤ D + 1 := by
  obtain ⟨ys, rfl⟩ := List.getLast?_eq_some_iff.1 ht
  have hv : wordsVal (ys ++ [top]) = wordsVal ys + 2 ^ (64 * ys.length) * top.toNat := by
    rw [wordsVal_append, wordsVal, wordsVal, mul_zero, add_zero]
  have hlen : (ys ++ [top]).length = ys.length + 1 := by simp
  have hlt := wordsVal_lt ys
  have hb0 : ys ++ [top] ≠ [] := by simp
  have hl1 : (ys ++ [top]).length - 1 = ys.length := by simp
  have key : ∃ (x ra y : List UInt64) (norm t : ℕ), normalize (a ++ [0, 0]) a.length
      ((ys ++ [top]) ++ List.replicate (a.length + 2 - (ys ++ [top]).length) 0) (ys ++ [top]).length =
        some (x ++ ra, x.length, y ++ List.replicate (a.length + 2 - y.length) 0, y.length, norm) ∧
      y.length = t + 1 ∧ (ys ++ [top]).length ≤ y.length ∧ y.length ≤ x.length ∧ x.length ≤ a.length + 1 ∧ norm < 64 ∧
      wordsVal x = 2 ^ norm * wordsVal a ∧ wordsVal y = 2 ^ norm * wordsVal (ys ++ [top]) ∧
      (top.toNat < 2 ^ 63 → y.length = (ys ++ [top]).length) ∧ 2 ^ (64 * t) * 2 ^ 62 ≤ wordsVal y := by
    rcases Nat.lt_or_ge top.toNat (2 ^ 63) with hs | hs
    · obtain ⟨x, ra, y, norm, h1', h2, h3, h4, h5, h6, h7, h8, h9⟩ := normalize_spec (aw := a) (bw := ys ++ [top])
        (n := a.length) (ra := [0, 0]) (rb := List.replicate (a.length + 2 - (ys ++ [top]).length) 0) rfl (by simp) hb0
        (by rw [hl1, hv]; exact le_trans (Nat.le_mul_of_pos_right _ h1) (Nat.le_add_left _ _))
        (by
          rw [hl1, hv]
          have := Nat.mul_le_mul_left (2 ^ (64 * ys.length)) (Nat.succ_le_of_lt hs)
          rw [Nat.succ_eq_add_one, mul_add, mul_one] at this
          omega)
      exact ⟨x, ra, y, norm, ys.length, by rw [h1', h2], by omega, by omega, by omega, h4, h6, h7, h8, fun _ => h2,
        by rw [hl1] at h9; exact h9⟩
    · have htop : 2 ^ (64 * ((ys ++ [top]).length - 1)) * 2 ^ 63 ≤ wordsVal (ys ++ [top]) := by
        rw [hl1, hv]
        exact le_trans (Nat.mul_le_mul_left _ hs) (Nat.le_add_left _ _)
      obtain ⟨x, ra, y, h1', h2, h3, h5, h7, h8⟩ := normalize_wide (aw := a) (bw := ys ++ [top]) (n := a.length)
        (k := a.length + 1 - (ys ++ [top]).length) rfl hb0 htop
      rw [show a.length + 1 - (ys ++ [top]).length + 1 = a.length + 2 - (ys ++ [top]).length by omega,
        show a.length + 1 - (ys ++ [top]).length = a.length + 2 - y.length by omega] at h1'
      have hxl : x.length ≤ a.length + 1 := by rw [h3]; split_ifs <;> omega
      have hyx : y.length ≤ x.length := by
        by_contra hc
        rw [divnSafeRun] at h
        simp only [Option.bind_eq_bind] at h
        obtain ⟨s, hlow, -⟩ := Option.bind_eq_some_iff.1 h
        rw [divnLowRun] at hlow
        simp only [Option.bind_eq_bind] at hlow
        rw [h1', Option.bind_some] at hlow
        dsimp only at hlow
        rw [if_pos (by omega)] at hlow
        exact absurd hlow (by simp)
      refine ⟨x, ra, y, 63, (ys ++ [top]).length, h1', h2, by omega, hyx, hxl, by norm_num, h7, h8, fun h => by omega, ?_⟩
      rw [h8]
      calc 2 ^ (64 * (ys ++ [top]).length) * 2 ^ 62 = 2 ^ 63 * (2 ^ (64 * ((ys ++ [top]).length - 1)) * 2 ^ 63) := by
            rw [← pow_add, ← pow_add, ← pow_add]; congr 1; omega
        _ ≤ 2 ^ 63 * wordsVal (ys ++ [top]) := Nat.mul_le_mul_left _ htop
  obtain ⟨x, ra, y, norm, t, g1, g2, g3, g4, g5, g6, g7, g8, g9, g10⟩ := key
  obtain ⟨bt, hbt, vbt⟩ := get_append y [] (i := t) (by omega)
  rw [List.append_nil] at hbt
  have hbt' : bt.toNat = wordsVal y / 2 ^ (64 * t) := by
    rw [vbt, Nat.mod_eq_of_lt]
    rw [Nat.div_lt_iff_lt_mul (by positivity), mul_comm]
    have := wordsVal_lt y; rw [g2, pow64_succ] at this; exact this
  have h62 : 2 ^ 62 ≤ bt.toNat := by rw [hbt', Nat.le_div_iff_mul_le (by positivity), mul_comm]; exact g10
  obtain ⟨v0, hv0, vv0⟩ : ∃ v0 : UInt64, (if t = 0 then some 0 else y[t - 1]?) = some v0 ∧
      (t ≠ 0 → v0.toNat = wordsVal y / 2 ^ (64 * (t - 1)) % 2 ^ 64) := by
    by_cases h0 : t = 0
    · exact ⟨0, by rw [if_pos h0], fun h => absurd h0 h⟩
    · obtain ⟨w, hw, vw⟩ := get_append y [] (i := t - 1) (by omega)
      rw [List.append_nil] at hw
      exact ⟨w, by rw [if_neg h0]; exact hw, fun _ => vw⟩
  have hypos : 0 < wordsVal y := lt_of_lt_of_le (by positivity) g10
  have hc := fun D hD => divnSafeRun_core a (ys ++ [top]) rfl (D := D) g1 g2 g4 g5 hypos hbt (lt_of_lt_of_le (by norm_num) h62) hv0 hD h
  refine ⟨x, y, norm, t, bt, v0, g2, g3, g4, g5, g6, g7, g8, g9, h62, hbt', vv0, ?_, ?_, fun D hD => (hc D hD).2.2⟩
  all_goals
    have hu := u64_lt v0
    have h4 := hc 4 (by omega)
  · exact h4.1
  · exact h4.2.1

/-- C84: the run that counts returns what `bn_divn_safe` returns. -/
theorem C84_same (a b : List UInt64) : (divnSafeRun a b).map Prod.fst = divnSafe a b := divnSafeRun_fst a b

/-- C84: for every divisor with a nonzero top word the leading digit of the quotient takes at most three subtractions, and
each of the at most `N + 1 - M` other digits at most five rounds. -/
theorem C84_rounds (a b : List UInt64) (hab : b.length ≤ a.length) (top : UInt64) (ht : b.getLast? = some top)
    (h1 : 1 ≤ top.toNat) (r : List UInt64 × List UInt64) (n : ℕ) (ds : List Digit) (h : divnSafeRun a b = some (r, n, ds)) :
    n ≤ 3 ∧ ds.length ≤ a.length + 1 - b.length ∧ ∀ d ∈ ds, 1 ≤ d.rounds ∧ d.rounds ≤ 5 := by
  obtain ⟨x, y, norm, t, bt, v0, g1, g2, g3, g4, g5, g6, g7, g8, g9, g10, g11, g12, g13, g14⟩ := normalized a b hab top ht h1 h
  refine ⟨?_, by omega, g14 4 ?_⟩
  · have hy : 2 ^ (64 * t) * 2 ^ 62 ≤ wordsVal y := by
      rw [g10, Nat.le_div_iff_mul_le (by positivity), mul_comm] at g9; exact g9
    have hdiv4 : wordsVal x / (2 ^ (64 * (x.length - y.length)) * wordsVal y) < 4 := by
      rw [Nat.div_lt_iff_lt_mul (Nat.mul_pos (by positivity) (lt_of_lt_of_le (by positivity) hy))]
      calc wordsVal x < 2 ^ (64 * x.length) := wordsVal_lt x
        _ = 4 * (2 ^ (64 * (x.length - y.length)) * (2 ^ (64 * t) * 2 ^ 62)) := by
            rw [show (4 : ℕ) = 2 ^ 2 by norm_num, ← pow_add, ← pow_add, ← pow_add]; congr 1; omega
        _ ≤ 4 * (2 ^ (64 * (x.length - y.length)) * wordsVal y) := Nat.mul_le_mul_left _ (Nat.mul_le_mul_left _ hy)
    omega
  · have hu := u64_lt v0
    omega

/-- C84: these numbers are reached, and the divisor is added back now and then. -/
theorem C84_sharp :
    (∃ r ds, divnSafeRun [0, 0xffffffffffffffff] [0, 0x4000000000000000] = some (r, 3, ds)) ∧
    (∃ r n, divnSafeRun [0, 0xC000000000000000, 0x3fffffffffffffff] [0xffffffffffffffff, 0x4000000000000000] =
      some (r, n, [⟨5, false⟩])) ∧
    (∃ r n, divnSafeRun [3, 0, 0x8000000000000000] [1, 0, 0x2000000000000000] = some (r, n, [⟨1, true⟩])) :=
  ⟨⟨([3, 0], [0, 4611686018427387903]), [], by decide +kernel⟩,
    ⟨([18446744073709551611, 0, 0], [18446744073709551611, 5]), 0, by decide +kernel⟩,
    ⟨([3, 0, 0], [0, 0, 2305843009213693952]), 0, by decide +kernel⟩⟩

/-- C84: for the two divisors the library uses, the group order and the field prime, at most two subtractions and at most two
rounds for each digit. -/
theorem C84_library (a b : List UInt64) (hb : b = FpC.Q ∨ b = MODULUS.words) (hab : b.length ≤ a.length)
    (r : List UInt64 × List UInt64) (n : ℕ) (ds : List Digit) (h : divnSafeRun a b = some (r, n, ds)) :
    n ≤ 2 ∧ ds.length ≤ a.length + 1 - b.length ∧ ∀ d ∈ ds, 1 ≤ d.rounds ∧ d.rounds ≤ 2 := by
  have key : ∃ (top : UInt64) (V t : ℕ), b.getLast? = some top ∧ 1 ≤ top.toNat ∧ top.toNat < 2 ^ 63 ∧ wordsVal b = V ∧
      b.length = t + 1 ∧ t ≠ 0 ∧ ∀ norm < 64, V * 2 ^ norm < 2 ^ (64 * t) * 2 ^ 64 → 2 ^ 62 * 2 ^ (64 * t) ≤ V * 2 ^ norm →
        2 ^ 64 * (V * 2 ^ norm / 2 ^ (64 * (t - 1)) % 2 ^ 64) ≤
          V * 2 ^ norm / 2 ^ (64 * (t - 1)) % 2 ^ 64 + 2 ^ 64 * (V * 2 ^ norm / 2 ^ (64 * t)) ∧
        2 ^ (64 * t) * 2 ^ 64 ≤ 3 * (V * 2 ^ norm) := by
    rcases hb with rfl | rfl
    · exact ⟨0x73eda753299d7d48, 0x73eda753299d7d483339d80809a1d80553bda402fffe5bfeffffffff00000001, 3, by decide +kernel⟩
    · exact ⟨0x1a0111ea397fe69a, 0x1a0111ea397fe69a4b1ba7b6434bacd764774b84f38512bf6730d2a0f6b0f6241eabfffeb153ffffb9feffffffffaaab,
        5, by decide +kernel⟩
  obtain ⟨top, V, t', k1, k2, k3, k4, k5, k6, k7⟩ := key
  obtain ⟨x, y, norm, t, bt, v0, g1, g2, g3, g4, g5, g6, g7, g8, g9, g10, g11, g12, g13, g14⟩ := normalized a b hab top k1 k2 h
  obtain rfl : t = t' := by have := g8 k3; omega
  rw [k4, mul_comm] at g7
  have hlt := wordsVal_lt y
  rw [g1, pow64_succ, g7] at hlt
  have hy := g9
  rw [g10, Nat.le_div_iff_mul_le (by positivity), g7] at hy
  obtain ⟨m1, m2⟩ := k7 norm g5 hlt hy
  rw [← g7] at m1 m2
  refine ⟨?_, by omega, g14 1 ?_⟩
  · have hdiv3 : wordsVal x / (2 ^ (64 * (x.length - y.length)) * wordsVal y) < 3 := by
      rw [Nat.div_lt_iff_lt_mul (Nat.mul_pos (by positivity) (by
        rw [g7]; exact lt_of_lt_of_le (by positivity) hy))]
      calc wordsVal x < 2 ^ (64 * x.length) := wordsVal_lt x
        _ = 2 ^ (64 * (x.length - y.length)) * (2 ^ (64 * t) * 2 ^ 64) := by
            rw [← pow_add, ← pow_add]; congr 1; omega
        _ ≤ 2 ^ (64 * (x.length - y.length)) * (3 * wordsVal y) := Nat.mul_le_mul_left _ m2
        _ = 3 * (2 ^ (64 * (x.length - y.length)) * wordsVal y) := by ring
    omega
  · rw [one_mul, g10, g11 k6]
    exact m1

/-- C84: what the loops do depends on the number to be reduced: two numbers of the size that `secret_key` reduces (48 bytes),
with different numbers of subtractions and of rounds. -/
theorem C84_differs : ∃ a a' : List UInt64, a.length = 6 ∧ a'.length = 6 ∧ ∃ r r',
    divnSafeRun a FpC.Q = some (r, 0, [⟨1, false⟩, ⟨1, false⟩]) ∧
    divnSafeRun a' FpC.Q = some (r', 1, [⟨1, false⟩, ⟨2, false⟩]) :=
  ⟨[1, 2, 3, 4, 5, 6], [0, 0, 0, 0, 0xffffffffffffffff, 0x73eda753299d7d48], rfl, rfl,
    ([4603661318597463284, 13, 0, 0, 0, 0], [13353682381467988749, 8996515990323403388, 14579108830966240110, 3094594811169274273]),
    ([14137304196846158468, 1, 1, 0, 0, 0], [16894611064020827516, 17484590328760098245, 3901979722530486947, 5576211775973892624]),
    by decide +kernel⟩

/-- The hypotheses of `C84_rounds` and `C84_library`: the largest number of eight words, divided by the field prime. -/
example : (∃ r, divnSafeRun (List.replicate 8 0xffffffffffffffff) MODULUS.words = some (r, 0, [⟨1, false⟩, ⟨1, false⟩, ⟨1, false⟩])) ∧
    MODULUS.words.getLast? = some 0x1a0111ea397fe69a :=
  ⟨⟨([2886837102847638057, 15579590430509909454, 9, 0, 0, 0, 0, 0], [10843886736844221596, 4986109583520628558, 9383303180058691654,
    1580741160401819599, 18066133864166594236, 201357114324440772]), by decide +kernel⟩, rfl⟩

example (r : List UInt64 × List UInt64) (n : ℕ) (ds : List Digit)
    (h : divnSafeRun (List.replicate 8 0xffffffffffffffff) MODULUS.words = some (r, n, ds)) :
    (n ≤ 3 ∧ ∀ d ∈ ds, d.rounds ≤ 5) ∧ n ≤ 2 ∧ ∀ d ∈ ds, d.rounds ≤ 2 := by
  have h1 := C84_rounds _ MODULUS.words (by decide) 0x1a0111ea397fe69a rfl (by decide) r n ds h
  have h2 := C84_library _ MODULUS.words (.inr rfl) (by decide) r n ds h
  exact ⟨⟨h1.1, fun d hd => (h1.2.2 d hd).2⟩, h2.1, fun d hd => (h2.2.2 d hd).2⟩

/-- A divisor with the highest bit set, extended by a word. -/
example : ∃ r ds, divnSafeRun [5, 6, 7] [1, 0x8000000000000000] = some (r, 0, ds) ∧ ds.length = 1 :=
  ⟨([14, 0, 0], [18446744073709551607, 5]), [⟨1, false⟩], by decide +kernel⟩

end Bls.Props
