import Verif.Proof.CarryFp
import Verif.Props.Words
import Verif.Spec.Square

/-! What the portable `_square` computes on every operand: the square less the carries that the doubled products lose. The
lemmas about the rounds are generated from the let chains of the model by a script; every step is checked by Lean. -/

namespace Bls

set_option exponentiation.threshold 1000

namespace Sq

theorem row_succ (x P i j : ℕ) : row x P i (j + 1) = row x P i j + 2 ^ (64 * j) * (word P j + part x i j) :=
  Finset.sum_range_succ _ _

theorem row_low (x P i : ℕ) : ∀ j, j ≤ i → row x P i j = P % 2 ^ (64 * j)
  | 0, _ => by simp [row, Nat.mod_one]
  | j + 1, h => by
    rw [row_succ, row_low x P i j (by omega), part, if_pos (by omega), add_zero, word, mul_add, mul_one, pow_add,
      Nat.mod_mul]

/-- The words below `j` have the carry `D`. -/
def Has (x P i j D : ℕ) : Prop := ∃ low, low < 2 ^ (64 * j) ∧ row x P i j = low + 2 ^ (64 * j) * D

theorem Has.div {x P i j D : ℕ} (h : Has x P i j D) : row x P i j / 2 ^ (64 * j) = D := by
  obtain ⟨low, h1, h2⟩ := h
  rw [h2, Nat.add_mul_div_left _ _ (by positivity), Nat.div_eq_of_lt h1, Nat.zero_add]

theorem Has.start {x P i u v : ℕ} (hv : v < 2 ^ 64) (h : v + 2 ^ 64 * u = word x i * word x i + word P i) :
    Has x P i (i + 1) u := by
  refine ⟨P % 2 ^ (64 * i) + 2 ^ (64 * i) * v, ?_, ?_⟩
  · have h1 : P % 2 ^ (64 * i) < 2 ^ (64 * i) := Nat.mod_lt _ (by positivity)
    have h2 : 2 ^ (64 * i) * v + 2 ^ (64 * i) ≤ 2 ^ (64 * i) * 2 ^ 64 := by
      rw [← Nat.mul_succ]; exact Nat.mul_le_mul_left _ hv
    rw [mul_add, mul_one, pow_add]
    omega
  · rw [row_succ, row_low x P i i le_rfl, part, if_neg (by omega), if_pos rfl, show 64 * (i + 1) = 64 * i + 64 from rfl, pow_add]
    linear_combination 2 ^ (64 * i) * h.symm

theorem Has.step {x P i j D D' v : ℕ} (g : Has x P i j D) (hi : i < j) (hv : v < 2 ^ 64)
    (h : v + 2 ^ 64 * D' = 2 * (word x i * word x j) + word P j + D) : Has x P i (j + 1) D' := by
  obtain ⟨low, h1, h2⟩ := g
  refine ⟨low + 2 ^ (64 * j) * v, ?_, ?_⟩
  · have h3 : 2 ^ (64 * j) * v + 2 ^ (64 * j) ≤ 2 ^ (64 * j) * 2 ^ 64 := by
      rw [← Nat.mul_succ]; exact Nat.mul_le_mul_left _ hv
    rw [mul_add, mul_one, pow_add]
    omega
  · rw [row_succ, h2, part, if_neg (by omega), if_neg (by omega), show 64 * (j + 1) = 64 * j + 64 from rfl, pow_add]
    linear_combination 2 ^ (64 * j) * h.symm

theorem losesIn_iff {x P i j D : ℕ} (g : Has x P i j D) (hi : i < j) :
    ¬ LosesIn x P i j ↔ 2 * (word x i * word x j) % 2 ^ 128 + word P j + D < 2 ^ 128 := by
  rw [LosesIn, g.div, part, if_neg (by omega), if_neg (by omega), not_le]

end Sq

namespace Portable
open Sq

theorem words_val (x : Fp) : word x.val 0 = x.d0.toNat ∧ word x.val 1 = x.d1.toNat ∧ word x.val 2 = x.d2.toNat ∧
    word x.val 3 = x.d3.toNat ∧ word x.val 4 = x.d4.toNat ∧ word x.val 5 = x.d5.toNat := by
  have := u64_lt x.d0; have := u64_lt x.d1; have := u64_lt x.d2; have := u64_lt x.d3; have := u64_lt x.d4; have := u64_lt x.d5
  obtain ⟨e0, e1, e2, e3, e4⟩ := limb_val x
  refine ⟨e0, e1, e2, e3, e4, ?_⟩
  simp only [Fp.val, word]
  omega

/-- What the helpers do, with the lost carry `l`. -/
theorem helper {ab c d e v t s : ℕ} (hab : ab ≤ (2 ^ 64 - 1) * (2 ^ 64 - 1)) (hs : s = c + (e + 2 ^ 64 * d))
    (hc : c < 2 ^ 64) (he : e < 2 ^ 64) (hd : d ≤ 1)
    (h1 : v = (2 * ab + s) % 2 ^ 128) (h2 : t = 2 * ab / 2 ^ 128) :
    ∃ l, l ≤ 1 ∧ v + 2 ^ 128 * t + 2 ^ 128 * l = 2 * ab + c + (e + 2 ^ 64 * d) ∧ t ≤ 1 ∧
      (l = 0 ↔ 2 * ab % 2 ^ 128 + c + (e + 2 ^ 64 * d) < 2 ^ 128) ∧ (ab < 2 ^ 125 → t = 0 ∧ l = 0) := by
  refine ⟨(2 * ab + s) / 2 ^ 128 - 2 * ab / 2 ^ 128, ?_⟩
  subst h1 h2 hs
  norm_num at *
  omega

theorem madd2s_loss (a b c d e : UInt64) (hd : d.toNat ≤ 1) : ∃ l, l ≤ 1 ∧
    (madd2s a b c d e).2.2.toNat + 2 ^ 64 * (madd2s a b c d e).2.1.toNat + 2 ^ 128 * (madd2s a b c d e).1.toNat + 2 ^ 128 * l =
      2 * (a.toNat * b.toNat) + c.toNat + (e.toNat + 2 ^ 64 * d.toNat) ∧ (madd2s a b c d e).1.toNat ≤ 1 ∧
    (l = 0 ↔ 2 * (a.toNat * b.toNat) % 2 ^ 128 + c.toNat + (e.toNat + 2 ^ 64 * d.toNat) < 2 ^ 128) ∧
    (a.toNat * b.toNat < 2 ^ 125 → (madd2s a b c d e).1.toNat = 0 ∧ l = 0) := by
  obtain ⟨h1, h2⟩ := (Props.C04_square_helpers a b c d e).1
  exact helper (u64_mul_le a b) rfl (u64_lt c) (u64_lt e) hd (by rw [h1]; ring_nf) h2

theorem madd1s_loss (a b d e : UInt64) (hd : d.toNat ≤ 1) : ∃ l, l ≤ 1 ∧
    (madd1s a b d e).2.2.toNat + 2 ^ 64 * (madd1s a b d e).2.1.toNat + 2 ^ 128 * (madd1s a b d e).1.toNat + 2 ^ 128 * l =
      2 * (a.toNat * b.toNat) + 0 + (e.toNat + 2 ^ 64 * d.toNat) ∧ (madd1s a b d e).1.toNat ≤ 1 ∧
    (l = 0 ↔ 2 * (a.toNat * b.toNat) % 2 ^ 128 + 0 + (e.toNat + 2 ^ 64 * d.toNat) < 2 ^ 128) ∧
    (a.toNat * b.toNat < 2 ^ 125 → (madd1s a b d e).1.toNat = 0 ∧ l = 0) := by
  obtain ⟨h1, h2⟩ := (Props.C04_square_helpers a b 0 d e).2.1
  exact helper (u64_mul_le a b) rfl (by norm_num) (u64_lt e) hd (by rw [h1]; ring_nf) h2

theorem madd2sb_loss (a b c e : UInt64) : ∃ l, l ≤ 1 ∧
    (madd2sb a b c e).2.2.toNat + 2 ^ 64 * (madd2sb a b c e).2.1.toNat + 2 ^ 128 * (madd2sb a b c e).1.toNat + 2 ^ 128 * l =
      2 * (a.toNat * b.toNat) + c.toNat + (e.toNat + 2 ^ 64 * 0) ∧ (madd2sb a b c e).1.toNat ≤ 1 ∧
    (l = 0 ↔ 2 * (a.toNat * b.toNat) % 2 ^ 128 + c.toNat + (e.toNat + 2 ^ 64 * 0) < 2 ^ 128) ∧
    (a.toNat * b.toNat < 2 ^ 125 → (madd2sb a b c e).1.toNat = 0 ∧ l = 0) := by
  obtain ⟨h1, h2⟩ := (Props.C04_square_helpers a b c 0 e).2.2.1
  exact helper (u64_mul_le a b) rfl (u64_lt c) (u64_lt e) (by norm_num) (by rw [h1]; ring_nf) h2

theorem madd1sb_loss (a b e : UInt64) : ∃ l, l ≤ 1 ∧
    (madd1sb a b e).2.2.toNat + 2 ^ 64 * (madd1sb a b e).2.1.toNat + 2 ^ 128 * (madd1sb a b e).1.toNat + 2 ^ 128 * l =
      2 * (a.toNat * b.toNat) + 0 + (e.toNat + 2 ^ 64 * 0) ∧ (madd1sb a b e).1.toNat ≤ 1 ∧
    (l = 0 ↔ 2 * (a.toNat * b.toNat) % 2 ^ 128 + 0 + (e.toNat + 2 ^ 64 * 0) < 2 ^ 128) ∧
    (a.toNat * b.toNat < 2 ^ 125 → (madd1sb a b e).1.toNat = 0 ∧ l = 0) := by
  obtain ⟨h1, h2⟩ := (Props.C04_square_helpers a b 0 0 e).2.2.2
  exact helper (u64_mul_le a b) rfl (by norm_num) (u64_lt e) (by norm_num) (by rw [h1]; ring_nf) h2

theorem sqRound0_loss (x : Fp) (h5 : x.d5.toNat < 2 ^ 61) :
  ∃ m k l1 l2 l3 l4, m < 2 ^ 64 ∧ l1 ≤ 1 ∧ l2 ≤ 1 ∧ l3 ≤ 1 ∧ l4 ≤ 1 ∧ 
      2 ^ 64 * ((sqRound0 x).val + 2 ^ 384 * k) + (2 ^ 192 * l1 + 2 ^ 256 * l2 + 2 ^ 320 * l3 + 2 ^ 384 * l4) =
        0 + (x.d0.toNat * x.d0.toNat * 2 ^ 0 + 2 * (x.d0.toNat * x.d1.toNat) * 2 ^ 64 + 2 * (x.d0.toNat * x.d2.toNat) * 2 ^ 128 + 2 * (x.d0.toNat * x.d3.toNat) * 2 ^ 192 + 2 * (x.d0.toNat * x.d4.toNat) * 2 ^ 256 + 2 * (x.d0.toNat * x.d5.toNat) * 2 ^ 320) + m * Bls.p
      ∧ ((l1 = 0 ∧ l2 = 0 ∧ l3 = 0 ∧ l4 = 0) ↔ ∀ j, 0 < j → j < 5 → ¬ LosesIn x.val 0 0 j) := by
  have hb := fun a : UInt64 => (room_of_lt (a := a) h5).2
  simp only [sqRound0]
  have H1 := mul64_spec x.d0 x.d0
  generalize mul64 x.d0 x.d0 = r1 at *
  have hm := inp_low r1.2
  have hm' := u64_lt (r1.2 * INP)
  generalize r1.2 * INP = m at *
  obtain ⟨lo, hlo, C⟩ := madd0_spec m MODULUS.d0 r1.2
  generalize madd0 m MODULUS.d0 r1.2 = c at *
  obtain ⟨l1, L1, H2, T2, I1, -⟩ := madd1sb_loss x.d0 x.d1 r1.1
  generalize madd1sb x.d0 x.d1 r1.1 = r2 at *
  have H3 := madd2_spec m MODULUS.d1 r2.2.2 c
  generalize madd2 m MODULUS.d1 r2.2.2 c = r3 at *
  obtain ⟨l2, L2, H4, T4, I2, -⟩ := madd1s_loss x.d0 x.d2 r2.1 r2.2.1 T2
  generalize madd1s x.d0 x.d2 r2.1 r2.2.1 = r4 at *
  have H5 := madd2_spec m MODULUS.d2 r4.2.2 r3.1
  generalize madd2 m MODULUS.d2 r4.2.2 r3.1 = r5 at *
  obtain ⟨l3, L3, H6, T6, I3, -⟩ := madd1s_loss x.d0 x.d3 r4.1 r4.2.1 T4
  generalize madd1s x.d0 x.d3 r4.1 r4.2.1 = r6 at *
  have H7 := madd2_spec m MODULUS.d3 r6.2.2 r5.1
  generalize madd2 m MODULUS.d3 r6.2.2 r5.1 = r7 at *
  obtain ⟨l4, L4, H8, T8, I4, -⟩ := madd1s_loss x.d0 x.d4 r6.1 r6.2.1 T6
  generalize madd1s x.d0 x.d4 r6.1 r6.2.1 = r8 at *
  have H9 := madd2_spec m MODULUS.d4 r8.2.2 r7.1
  generalize madd2 m MODULUS.d4 r8.2.2 r7.1 = r9 at *
  obtain ⟨l, -, H10, -, -, Z⟩ := madd1s_loss x.d0 x.d5 r8.1 r8.2.1 T8
  obtain ⟨Z1, rfl⟩ := Z (hb _)
  rw [Z1, mul_zero, add_zero, add_zero] at H10
  generalize madd1s x.d0 x.d5 r8.1 r8.2.1 = r10 at *
  obtain ⟨k, H11⟩ := madd3_spec m MODULUS.d5 r10.2.2 r9.1 r10.2.1
  generalize madd3 m MODULUS.d5 r10.2.2 r9.1 r10.2.1 = r11 at *
  have hl : lo = 0 := by
    generalize m.toNat * MODULUS.d0.toNat = mm at *
    clear H1 H2 I1 L1 T2 H3 H4 I2 L2 T4 H5 H6 I3 L3 T6 H7 H8 I4 L4 T8 H9 H10 H11
    omega
  subst hl
  refine ⟨m.toNat, k, l1, l2, l3, l4, hm', L1, L2, L3, L4, ?_, ?_⟩
  · rw [← MODULUS_val]
    simp only [Fp.val]
    linear_combination H1 + C + 2 ^ 64 * H2 + 2 ^ 64 * H3 + 2 ^ 128 * H4 + 2 ^ 128 * H5 + 2 ^ 192 * H6 + 2 ^ 192 * H7 + 2 ^ 256 * H8 + 2 ^ 256 * H9 + 2 ^ 320 * H10 + 2 ^ 320 * H11
  · obtain ⟨w0, w1, w2, w3, w4, w5⟩ := words_val x
    have q : ∀ k, word 0 k = 0 := fun k => by simp [word]
    have g1 : Has x.val 0 0 1 r1.1.toNat := .start (v := r1.2.toNat) (u64_lt _) (by rw [w0, q 0]; exact H1)
    have i1 : Has x.val 0 0 1 (r1.1.toNat) → (l1 = 0 ↔ ¬ LosesIn x.val 0 0 1) := fun g => by
      rw [losesIn_iff g (by decide), w0, w1, q 1, I1, mul_zero, add_zero (r1.1.toNat)]
    have s1 : Has x.val 0 0 1 (r1.1.toNat) → l1 = 0 → Has x.val 0 0 2 (r2.2.1.toNat + 2 ^ 64 * r2.1.toNat) := fun g e =>
      g.step (by decide) (u64_lt r2.2.2) (by rw [w0, w1, q 1]; rw [e] at H2; linear_combination H2)
    have i2 : Has x.val 0 0 2 (r2.2.1.toNat + 2 ^ 64 * r2.1.toNat) → (l2 = 0 ↔ ¬ LosesIn x.val 0 0 2) := fun g => by
      rw [losesIn_iff g (by decide), w0, w2, q 2, I2]
    have s2 : Has x.val 0 0 2 (r2.2.1.toNat + 2 ^ 64 * r2.1.toNat) → l2 = 0 → Has x.val 0 0 3 (r4.2.1.toNat + 2 ^ 64 * r4.1.toNat) := fun g e =>
      g.step (by decide) (u64_lt r4.2.2) (by rw [w0, w2, q 2]; rw [e] at H4; linear_combination H4)
    have i3 : Has x.val 0 0 3 (r4.2.1.toNat + 2 ^ 64 * r4.1.toNat) → (l3 = 0 ↔ ¬ LosesIn x.val 0 0 3) := fun g => by
      rw [losesIn_iff g (by decide), w0, w3, q 3, I3]
    have s3 : Has x.val 0 0 3 (r4.2.1.toNat + 2 ^ 64 * r4.1.toNat) → l3 = 0 → Has x.val 0 0 4 (r6.2.1.toNat + 2 ^ 64 * r6.1.toNat) := fun g e =>
      g.step (by decide) (u64_lt r6.2.2) (by rw [w0, w3, q 3]; rw [e] at H6; linear_combination H6)
    have i4 : Has x.val 0 0 4 (r6.2.1.toNat + 2 ^ 64 * r6.1.toNat) → (l4 = 0 ↔ ¬ LosesIn x.val 0 0 4) := fun g => by
      rw [losesIn_iff g (by decide), w0, w4, q 4, I4]
    constructor
    · rintro ⟨e1, e2, e3, e4⟩ j h1 h2
      have g2 := s1 g1 e1
      have g3 := s2 g2 e2
      have g4 := s3 g3 e3
      interval_cases j
      · exact (i1 g1).1 e1
      · exact (i2 g2).1 e2
      · exact (i3 g3).1 e3
      · exact (i4 g4).1 e4
    · intro h
      have e1 := (i1 g1).2 (h 1 (by decide) (by decide))
      have g2 := s1 g1 e1
      have e2 := (i2 g2).2 (h 2 (by decide) (by decide))
      have g3 := s2 g2 e2
      have e3 := (i3 g3).2 (h 3 (by decide) (by decide))
      have g4 := s3 g3 e3
      have e4 := (i4 g4).2 (h 4 (by decide) (by decide))
      exact ⟨e1, e2, e3, e4⟩

theorem sqRound1_loss (x p : Fp) (h5 : x.d5.toNat < 2 ^ 61) :
  ∃ m k l2 l3 l4, m < 2 ^ 64 ∧ l2 ≤ 1 ∧ l3 ≤ 1 ∧ l4 ≤ 1 ∧ 
      2 ^ 64 * ((sqRound1 x p).val + 2 ^ 384 * k) + (2 ^ 256 * l2 + 2 ^ 320 * l3 + 2 ^ 384 * l4) =
        p.val + (x.d1.toNat * x.d1.toNat * 2 ^ 64 + 2 * (x.d1.toNat * x.d2.toNat) * 2 ^ 128 + 2 * (x.d1.toNat * x.d3.toNat) * 2 ^ 192 + 2 * (x.d1.toNat * x.d4.toNat) * 2 ^ 256 + 2 * (x.d1.toNat * x.d5.toNat) * 2 ^ 320) + m * Bls.p
      ∧ ((l2 = 0 ∧ l3 = 0 ∧ l4 = 0) ↔ ∀ j, 1 < j → j < 5 → ¬ LosesIn x.val p.val 1 j) := by
  have hb := fun a : UInt64 => (room_of_lt (a := a) h5).2
  simp only [sqRound1]
  have hm := inp_low p.d0
  have hm' := u64_lt (p.d0 * INP)
  generalize p.d0 * INP = m at *
  obtain ⟨lo, hlo, C⟩ := madd0_spec m MODULUS.d0 p.d0
  generalize madd0 m MODULUS.d0 p.d0 = c at *
  have H1 := madd1_spec x.d1 x.d1 p.d1
  generalize madd1 x.d1 x.d1 p.d1 = r1 at *
  have H2 := madd2_spec m MODULUS.d1 r1.2 c
  generalize madd2 m MODULUS.d1 r1.2 c = r2 at *
  obtain ⟨l2, L2, H3, T3, I2, -⟩ := madd2sb_loss x.d1 x.d2 p.d2 r1.1
  generalize madd2sb x.d1 x.d2 p.d2 r1.1 = r3 at *
  have H4 := madd2_spec m MODULUS.d2 r3.2.2 r2.1
  generalize madd2 m MODULUS.d2 r3.2.2 r2.1 = r4 at *
  obtain ⟨l3, L3, H5, T5, I3, -⟩ := madd2s_loss x.d1 x.d3 p.d3 r3.1 r3.2.1 T3
  generalize madd2s x.d1 x.d3 p.d3 r3.1 r3.2.1 = r5 at *
  have H6 := madd2_spec m MODULUS.d3 r5.2.2 r4.1
  generalize madd2 m MODULUS.d3 r5.2.2 r4.1 = r6 at *
  obtain ⟨l4, L4, H7, T7, I4, -⟩ := madd2s_loss x.d1 x.d4 p.d4 r5.1 r5.2.1 T5
  generalize madd2s x.d1 x.d4 p.d4 r5.1 r5.2.1 = r7 at *
  have H8 := madd2_spec m MODULUS.d4 r7.2.2 r6.1
  generalize madd2 m MODULUS.d4 r7.2.2 r6.1 = r8 at *
  obtain ⟨l, -, H9, -, -, Z⟩ := madd2s_loss x.d1 x.d5 p.d5 r7.1 r7.2.1 T7
  obtain ⟨Z1, rfl⟩ := Z (hb _)
  rw [Z1, mul_zero, add_zero, add_zero] at H9
  generalize madd2s x.d1 x.d5 p.d5 r7.1 r7.2.1 = r9 at *
  obtain ⟨k, H10⟩ := madd3_spec m MODULUS.d5 r9.2.2 r8.1 r9.2.1
  generalize madd3 m MODULUS.d5 r9.2.2 r8.1 r9.2.1 = r10 at *
  have hl : lo = 0 := by
    generalize m.toNat * MODULUS.d0.toNat = mm at *
    clear H1 H2 H3 I2 L2 T3 H4 H5 I3 L3 T5 H6 H7 I4 L4 T7 H8 H9 H10
    omega
  subst hl
  refine ⟨m.toNat, k, l2, l3, l4, hm', L2, L3, L4, ?_, ?_⟩
  · rw [← MODULUS_val]
    simp only [Fp.val]
    linear_combination C + 2 ^ 64 * H1 + 2 ^ 64 * H2 + 2 ^ 128 * H3 + 2 ^ 128 * H4 + 2 ^ 192 * H5 + 2 ^ 192 * H6 + 2 ^ 256 * H7 + 2 ^ 256 * H8 + 2 ^ 320 * H9 + 2 ^ 320 * H10
  · obtain ⟨w0, w1, w2, w3, w4, w5⟩ := words_val x
    obtain ⟨q0, q1, q2, q3, q4, q5⟩ := words_val p
    have g2 : Has x.val p.val 1 2 r1.1.toNat := .start (v := r1.2.toNat) (u64_lt _) (by rw [w1, q1]; exact H1)
    have i2 : Has x.val p.val 1 2 (r1.1.toNat) → (l2 = 0 ↔ ¬ LosesIn x.val p.val 1 2) := fun g => by
      rw [losesIn_iff g (by decide), w1, w2, q2, I2, mul_zero, add_zero (r1.1.toNat)]
    have s2 : Has x.val p.val 1 2 (r1.1.toNat) → l2 = 0 → Has x.val p.val 1 3 (r3.2.1.toNat + 2 ^ 64 * r3.1.toNat) := fun g e =>
      g.step (by decide) (u64_lt r3.2.2) (by rw [w1, w2, q2]; rw [e] at H3; linear_combination H3)
    have i3 : Has x.val p.val 1 3 (r3.2.1.toNat + 2 ^ 64 * r3.1.toNat) → (l3 = 0 ↔ ¬ LosesIn x.val p.val 1 3) := fun g => by
      rw [losesIn_iff g (by decide), w1, w3, q3, I3]
    have s3 : Has x.val p.val 1 3 (r3.2.1.toNat + 2 ^ 64 * r3.1.toNat) → l3 = 0 → Has x.val p.val 1 4 (r5.2.1.toNat + 2 ^ 64 * r5.1.toNat) := fun g e =>
      g.step (by decide) (u64_lt r5.2.2) (by rw [w1, w3, q3]; rw [e] at H5; linear_combination H5)
    have i4 : Has x.val p.val 1 4 (r5.2.1.toNat + 2 ^ 64 * r5.1.toNat) → (l4 = 0 ↔ ¬ LosesIn x.val p.val 1 4) := fun g => by
      rw [losesIn_iff g (by decide), w1, w4, q4, I4]
    constructor
    · rintro ⟨e2, e3, e4⟩ j h1 h2
      have g3 := s2 g2 e2
      have g4 := s3 g3 e3
      interval_cases j
      · exact (i2 g2).1 e2
      · exact (i3 g3).1 e3
      · exact (i4 g4).1 e4
    · intro h
      have e2 := (i2 g2).2 (h 2 (by decide) (by decide))
      have g3 := s2 g2 e2
      have e3 := (i3 g3).2 (h 3 (by decide) (by decide))
      have g4 := s3 g3 e3
      have e4 := (i4 g4).2 (h 4 (by decide) (by decide))
      exact ⟨e2, e3, e4⟩

theorem sqRound2_loss (x p : Fp) (h5 : x.d5.toNat < 2 ^ 61) :
  ∃ m k l3 l4, m < 2 ^ 64 ∧ l3 ≤ 1 ∧ l4 ≤ 1 ∧ 
      2 ^ 64 * ((sqRound2 x p).val + 2 ^ 384 * k) + (2 ^ 320 * l3 + 2 ^ 384 * l4) =
        p.val + (x.d2.toNat * x.d2.toNat * 2 ^ 128 + 2 * (x.d2.toNat * x.d3.toNat) * 2 ^ 192 + 2 * (x.d2.toNat * x.d4.toNat) * 2 ^ 256 + 2 * (x.d2.toNat * x.d5.toNat) * 2 ^ 320) + m * Bls.p
      ∧ ((l3 = 0 ∧ l4 = 0) ↔ ∀ j, 2 < j → j < 5 → ¬ LosesIn x.val p.val 2 j) := by
  have hb := fun a : UInt64 => (room_of_lt (a := a) h5).2
  simp only [sqRound2]
  have hm := inp_low p.d0
  have hm' := u64_lt (p.d0 * INP)
  generalize p.d0 * INP = m at *
  obtain ⟨lo, hlo, C⟩ := madd0_spec m MODULUS.d0 p.d0
  generalize madd0 m MODULUS.d0 p.d0 = c at *
  have H1 := madd2_spec m MODULUS.d1 p.d1 c
  generalize madd2 m MODULUS.d1 p.d1 c = r1 at *
  have H2 := madd1_spec x.d2 x.d2 p.d2
  generalize madd1 x.d2 x.d2 p.d2 = r2 at *
  have H3 := madd2_spec m MODULUS.d2 r2.2 r1.1
  generalize madd2 m MODULUS.d2 r2.2 r1.1 = r3 at *
  obtain ⟨l3, L3, H4, T4, I3, -⟩ := madd2sb_loss x.d2 x.d3 p.d3 r2.1
  generalize madd2sb x.d2 x.d3 p.d3 r2.1 = r4 at *
  have H5 := madd2_spec m MODULUS.d3 r4.2.2 r3.1
  generalize madd2 m MODULUS.d3 r4.2.2 r3.1 = r5 at *
  obtain ⟨l4, L4, H6, T6, I4, -⟩ := madd2s_loss x.d2 x.d4 p.d4 r4.1 r4.2.1 T4
  generalize madd2s x.d2 x.d4 p.d4 r4.1 r4.2.1 = r6 at *
  have H7 := madd2_spec m MODULUS.d4 r6.2.2 r5.1
  generalize madd2 m MODULUS.d4 r6.2.2 r5.1 = r7 at *
  obtain ⟨l, -, H8, -, -, Z⟩ := madd2s_loss x.d2 x.d5 p.d5 r6.1 r6.2.1 T6
  obtain ⟨Z1, rfl⟩ := Z (hb _)
  rw [Z1, mul_zero, add_zero, add_zero] at H8
  generalize madd2s x.d2 x.d5 p.d5 r6.1 r6.2.1 = r8 at *
  obtain ⟨k, H9⟩ := madd3_spec m MODULUS.d5 r8.2.2 r7.1 r8.2.1
  generalize madd3 m MODULUS.d5 r8.2.2 r7.1 r8.2.1 = r9 at *
  have hl : lo = 0 := by
    generalize m.toNat * MODULUS.d0.toNat = mm at *
    clear H1 H2 H3 H4 I3 L3 T4 H5 H6 I4 L4 T6 H7 H8 H9
    omega
  subst hl
  refine ⟨m.toNat, k, l3, l4, hm', L3, L4, ?_, ?_⟩
  · rw [← MODULUS_val]
    simp only [Fp.val]
    linear_combination C + 2 ^ 64 * H1 + 2 ^ 128 * H2 + 2 ^ 128 * H3 + 2 ^ 192 * H4 + 2 ^ 192 * H5 + 2 ^ 256 * H6 + 2 ^ 256 * H7 + 2 ^ 320 * H8 + 2 ^ 320 * H9
  · obtain ⟨w0, w1, w2, w3, w4, w5⟩ := words_val x
    obtain ⟨q0, q1, q2, q3, q4, q5⟩ := words_val p
    have g3 : Has x.val p.val 2 3 r2.1.toNat := .start (v := r2.2.toNat) (u64_lt _) (by rw [w2, q2]; exact H2)
    have i3 : Has x.val p.val 2 3 (r2.1.toNat) → (l3 = 0 ↔ ¬ LosesIn x.val p.val 2 3) := fun g => by
      rw [losesIn_iff g (by decide), w2, w3, q3, I3, mul_zero, add_zero (r2.1.toNat)]
    have s3 : Has x.val p.val 2 3 (r2.1.toNat) → l3 = 0 → Has x.val p.val 2 4 (r4.2.1.toNat + 2 ^ 64 * r4.1.toNat) := fun g e =>
      g.step (by decide) (u64_lt r4.2.2) (by rw [w2, w3, q3]; rw [e] at H4; linear_combination H4)
    have i4 : Has x.val p.val 2 4 (r4.2.1.toNat + 2 ^ 64 * r4.1.toNat) → (l4 = 0 ↔ ¬ LosesIn x.val p.val 2 4) := fun g => by
      rw [losesIn_iff g (by decide), w2, w4, q4, I4]
    constructor
    · rintro ⟨e3, e4⟩ j h1 h2
      have g4 := s3 g3 e3
      interval_cases j
      · exact (i3 g3).1 e3
      · exact (i4 g4).1 e4
    · intro h
      have e3 := (i3 g3).2 (h 3 (by decide) (by decide))
      have g4 := s3 g3 e3
      have e4 := (i4 g4).2 (h 4 (by decide) (by decide))
      exact ⟨e3, e4⟩

theorem sqRound3_loss (x p : Fp) (h5 : x.d5.toNat < 2 ^ 61) :
  ∃ m k l4, m < 2 ^ 64 ∧ l4 ≤ 1 ∧ 
      2 ^ 64 * ((sqRound3 x p).val + 2 ^ 384 * k) + (2 ^ 384 * l4) =
        p.val + (x.d3.toNat * x.d3.toNat * 2 ^ 192 + 2 * (x.d3.toNat * x.d4.toNat) * 2 ^ 256 + 2 * (x.d3.toNat * x.d5.toNat) * 2 ^ 320) + m * Bls.p
      ∧ ((l4 = 0) ↔ ∀ j, 3 < j → j < 5 → ¬ LosesIn x.val p.val 3 j) := by
  have hb := fun a : UInt64 => (room_of_lt (a := a) h5).2
  simp only [sqRound3]
  have hm := inp_low p.d0
  have hm' := u64_lt (p.d0 * INP)
  generalize p.d0 * INP = m at *
  obtain ⟨lo, hlo, C⟩ := madd0_spec m MODULUS.d0 p.d0
  generalize madd0 m MODULUS.d0 p.d0 = c at *
  have H1 := madd2_spec m MODULUS.d1 p.d1 c
  generalize madd2 m MODULUS.d1 p.d1 c = r1 at *
  have H2 := madd2_spec m MODULUS.d2 p.d2 r1.1
  generalize madd2 m MODULUS.d2 p.d2 r1.1 = r2 at *
  have H3 := madd1_spec x.d3 x.d3 p.d3
  generalize madd1 x.d3 x.d3 p.d3 = r3 at *
  have H4 := madd2_spec m MODULUS.d3 r3.2 r2.1
  generalize madd2 m MODULUS.d3 r3.2 r2.1 = r4 at *
  obtain ⟨l4, L4, H5, T5, I4, -⟩ := madd2sb_loss x.d3 x.d4 p.d4 r3.1
  generalize madd2sb x.d3 x.d4 p.d4 r3.1 = r5 at *
  have H6 := madd2_spec m MODULUS.d4 r5.2.2 r4.1
  generalize madd2 m MODULUS.d4 r5.2.2 r4.1 = r6 at *
  obtain ⟨l, -, H7, -, -, Z⟩ := madd2s_loss x.d3 x.d5 p.d5 r5.1 r5.2.1 T5
  obtain ⟨Z1, rfl⟩ := Z (hb _)
  rw [Z1, mul_zero, add_zero, add_zero] at H7
  generalize madd2s x.d3 x.d5 p.d5 r5.1 r5.2.1 = r7 at *
  obtain ⟨k, H8⟩ := madd3_spec m MODULUS.d5 r7.2.2 r6.1 r7.2.1
  generalize madd3 m MODULUS.d5 r7.2.2 r6.1 r7.2.1 = r8 at *
  have hl : lo = 0 := by
    generalize m.toNat * MODULUS.d0.toNat = mm at *
    clear H1 H2 H3 H4 H5 I4 L4 T5 H6 H7 H8
    omega
  subst hl
  refine ⟨m.toNat, k, l4, hm', L4, ?_, ?_⟩
  · rw [← MODULUS_val]
    simp only [Fp.val]
    linear_combination C + 2 ^ 64 * H1 + 2 ^ 128 * H2 + 2 ^ 192 * H3 + 2 ^ 192 * H4 + 2 ^ 256 * H5 + 2 ^ 256 * H6 + 2 ^ 320 * H7 + 2 ^ 320 * H8
  · obtain ⟨w0, w1, w2, w3, w4, w5⟩ := words_val x
    obtain ⟨q0, q1, q2, q3, q4, q5⟩ := words_val p
    have g4 : Has x.val p.val 3 4 r3.1.toNat := .start (v := r3.2.toNat) (u64_lt _) (by rw [w3, q3]; exact H3)
    have i4 : Has x.val p.val 3 4 (r3.1.toNat) → (l4 = 0 ↔ ¬ LosesIn x.val p.val 3 4) := fun g => by
      rw [losesIn_iff g (by decide), w3, w4, q4, I4, mul_zero, add_zero (r3.1.toNat)]
    constructor
    · intro e4 j h1 h2
      interval_cases j
      · exact (i4 g4).1 e4
    · intro h
      have e4 := (i4 g4).2 (h 4 (by decide) (by decide))
      exact e4

theorem sqRound4_loss (x p : Fp) (h5 : x.d5.toNat < 2 ^ 61) :
  ∃ m k, m < 2 ^ 64 ∧ 
      2 ^ 64 * ((sqRound4 x p).val + 2 ^ 384 * k) + (0) =
        p.val + (x.d4.toNat * x.d4.toNat * 2 ^ 256 + 2 * (x.d4.toNat * x.d5.toNat) * 2 ^ 320) + m * Bls.p := by
  have hb := fun a : UInt64 => (room_of_lt (a := a) h5).2
  simp only [sqRound4]
  have hm := inp_low p.d0
  have hm' := u64_lt (p.d0 * INP)
  generalize p.d0 * INP = m at *
  obtain ⟨lo, hlo, C⟩ := madd0_spec m MODULUS.d0 p.d0
  generalize madd0 m MODULUS.d0 p.d0 = c at *
  have H1 := madd2_spec m MODULUS.d1 p.d1 c
  generalize madd2 m MODULUS.d1 p.d1 c = r1 at *
  have H2 := madd2_spec m MODULUS.d2 p.d2 r1.1
  generalize madd2 m MODULUS.d2 p.d2 r1.1 = r2 at *
  have H3 := madd2_spec m MODULUS.d3 p.d3 r2.1
  generalize madd2 m MODULUS.d3 p.d3 r2.1 = r3 at *
  have H4 := madd1_spec x.d4 x.d4 p.d4
  generalize madd1 x.d4 x.d4 p.d4 = r4 at *
  have H5 := madd2_spec m MODULUS.d4 r4.2 r3.1
  generalize madd2 m MODULUS.d4 r4.2 r3.1 = r5 at *
  obtain ⟨l, -, H6, -, -, Z⟩ := madd2sb_loss x.d4 x.d5 p.d5 r4.1
  obtain ⟨Z1, rfl⟩ := Z (hb _)
  rw [Z1, mul_zero, add_zero, add_zero] at H6
  generalize madd2sb x.d4 x.d5 p.d5 r4.1 = r6 at *
  obtain ⟨k, H7⟩ := madd3_spec m MODULUS.d5 r6.2.2 r5.1 r6.2.1
  generalize madd3 m MODULUS.d5 r6.2.2 r5.1 r6.2.1 = r7 at *
  have hl : lo = 0 := by
    generalize m.toNat * MODULUS.d0.toNat = mm at *
    clear H1 H2 H3 H4 H5 H6 H7
    omega
  subst hl
  refine ⟨m.toNat, k, hm', ?_⟩
  · rw [← MODULUS_val]
    simp only [Fp.val]
    linear_combination C + 2 ^ 64 * H1 + 2 ^ 128 * H2 + 2 ^ 192 * H3 + 2 ^ 256 * H4 + 2 ^ 256 * H5 + 2 ^ 320 * H6 + 2 ^ 320 * H7

theorem sqRound5_loss (x p : Fp) (h5 : x.d5.toNat < 2 ^ 61) :
  ∃ m k, m < 2 ^ 64 ∧ 
      2 ^ 64 * ((sqRound5 x p).val + 2 ^ 384 * k) + (0) =
        p.val + (x.d5.toNat * x.d5.toNat * 2 ^ 320) + m * Bls.p := by
  simp only [sqRound5]
  have hm := inp_low p.d0
  have hm' := u64_lt (p.d0 * INP)
  generalize p.d0 * INP = m at *
  obtain ⟨lo, hlo, C⟩ := madd0_spec m MODULUS.d0 p.d0
  generalize madd0 m MODULUS.d0 p.d0 = c at *
  have H1 := madd2_spec m MODULUS.d1 p.d1 c
  generalize madd2 m MODULUS.d1 p.d1 c = r1 at *
  have H2 := madd2_spec m MODULUS.d2 p.d2 r1.1
  generalize madd2 m MODULUS.d2 p.d2 r1.1 = r2 at *
  have H3 := madd2_spec m MODULUS.d3 p.d3 r2.1
  generalize madd2 m MODULUS.d3 p.d3 r2.1 = r3 at *
  have H4 := madd2_spec m MODULUS.d4 p.d4 r3.1
  generalize madd2 m MODULUS.d4 p.d4 r3.1 = r4 at *
  have H5 := madd1_spec x.d5 x.d5 p.d5
  generalize madd1 x.d5 x.d5 p.d5 = r5 at *
  obtain ⟨k, H6⟩ := madd3_spec m MODULUS.d5 r5.2 r4.1 r5.1
  generalize madd3 m MODULUS.d5 r5.2 r4.1 r5.1 = r6 at *
  have hl : lo = 0 := by
    generalize m.toNat * MODULUS.d0.toNat = mm at *
    clear H1 H2 H3 H4 H5 H6
    omega
  subst hl
  refine ⟨m.toNat, k, hm', ?_⟩
  · rw [← MODULUS_val]
    simp only [Fp.val]
    linear_combination C + 2 ^ 64 * H1 + 2 ^ 128 * H2 + 2 ^ 192 * H3 + 2 ^ 256 * H4 + 2 ^ 320 * H5 + 2 ^ 320 * H6

theorem sum_words (P : ℕ) : ∀ j, ∑ k ∈ Finset.range j, 2 ^ (64 * k) * word P k = P % 2 ^ (64 * j)
  | 0 => by simp [Nat.mod_one]
  | j + 1 => by
    rw [Finset.sum_range_succ, sum_words P j, show 64 * (j + 1) = 64 * j + 64 from rfl, pow_add, Nat.mod_mul, word]

theorem row_six {x P : ℕ} (i : ℕ) (hP : P < 2 ^ 384) :
    row x P i 6 = P + ∑ k ∈ Finset.range 6, 2 ^ (64 * k) * part x i k := by
  rw [row]
  simp only [mul_add, Finset.sum_add_distrib]
  rw [sum_words, Nat.mod_eq_of_lt hP]

/-- The multiple of `p` is determined. -/
theorem reduce_eq {T t m : ℕ} (hm : m < 2 ^ 64) (h : 2 ^ 64 * T = t + m * Bls.p) : T = reduce t := by
  have e : t * 0x89f3fffcfffcfffd % 2 ^ 64 = m := by
    unfold Bls.p at h
    omega
  rw [reduce, e, ← h, Nat.mul_div_cancel_left _ (by norm_num)]

/-- One round, given that the accumulator stays in six words. -/
theorem loss_exact {T t S v L : Nat} {x : Fp} (hx : x.val < Bls.p) (hv : v < 2 ^ 64)
    (hS : S ≤ 2 * x.val) (ht : t ≤ 2 * x.val + Bls.p) {m k : ℕ} (hm : m < 2 ^ 64)
    (h : 2 ^ 64 * (T + 2 ^ 384 * k) + L = t + v * S + m * Bls.p) :
    2 ^ 64 * T + L = t + v * S + m * Bls.p ∧ T ≤ 2 * x.val + Bls.p := by
  have h1 : v * S ≤ (2 ^ 64 - 1) * (2 * x.val) := Nat.mul_le_mul (by omega) hS
  have h2 : m * Bls.p ≤ (2 ^ 64 - 1) * Bls.p := Nat.mul_le_mul_right _ (by omega)
  have hk : k = 0 := by
    rcases Nat.eq_zero_or_pos k with h0 | h0
    · exact h0
    · exfalso; generalize v * S = a at *; generalize m * Bls.p = b at *
      unfold Bls.p at *; omega
  subst hk
  refine ⟨by simpa using h, ?_⟩
  generalize v * S = a at *; generalize m * Bls.p = b at *
  unfold Bls.p at *; omega

theorem row_six0 (x : Fp) {P : ℕ} (hP : P < 2 ^ 384) : row x.val P 0 6 = P + (x.d0.toNat * x.d0.toNat * 2 ^ 0 + 2 * (x.d0.toNat * x.d1.toNat) * 2 ^ 64 + 2 * (x.d0.toNat * x.d2.toNat) * 2 ^ 128 + 2 * (x.d0.toNat * x.d3.toNat) * 2 ^ 192 + 2 * (x.d0.toNat * x.d4.toNat) * 2 ^ 256 + 2 * (x.d0.toNat * x.d5.toNat) * 2 ^ 320) := by
  obtain ⟨w0, w1, w2, w3, w4, w5⟩ := words_val x
  rw [row_six 0 hP]
  simp only [Finset.sum_range_succ, Finset.sum_range_zero, part, w0, w1, w2, w3, w4, w5]
  norm_num
  ring

theorem row_six1 (x : Fp) {P : ℕ} (hP : P < 2 ^ 384) : row x.val P 1 6 = P + (x.d1.toNat * x.d1.toNat * 2 ^ 64 + 2 * (x.d1.toNat * x.d2.toNat) * 2 ^ 128 + 2 * (x.d1.toNat * x.d3.toNat) * 2 ^ 192 + 2 * (x.d1.toNat * x.d4.toNat) * 2 ^ 256 + 2 * (x.d1.toNat * x.d5.toNat) * 2 ^ 320) := by
  obtain ⟨w0, w1, w2, w3, w4, w5⟩ := words_val x
  rw [row_six 1 hP]
  simp only [Finset.sum_range_succ, Finset.sum_range_zero, part, w0, w1, w2, w3, w4, w5]
  norm_num
  ring

theorem row_six2 (x : Fp) {P : ℕ} (hP : P < 2 ^ 384) : row x.val P 2 6 = P + (x.d2.toNat * x.d2.toNat * 2 ^ 128 + 2 * (x.d2.toNat * x.d3.toNat) * 2 ^ 192 + 2 * (x.d2.toNat * x.d4.toNat) * 2 ^ 256 + 2 * (x.d2.toNat * x.d5.toNat) * 2 ^ 320) := by
  obtain ⟨w0, w1, w2, w3, w4, w5⟩ := words_val x
  rw [row_six 2 hP]
  simp only [Finset.sum_range_succ, Finset.sum_range_zero, part, w0, w1, w2, w3, w4, w5]
  norm_num
  ring

theorem row_six3 (x : Fp) {P : ℕ} (hP : P < 2 ^ 384) : row x.val P 3 6 = P + (x.d3.toNat * x.d3.toNat * 2 ^ 192 + 2 * (x.d3.toNat * x.d4.toNat) * 2 ^ 256 + 2 * (x.d3.toNat * x.d5.toNat) * 2 ^ 320) := by
  obtain ⟨w0, w1, w2, w3, w4, w5⟩ := words_val x
  rw [row_six 3 hP]
  simp only [Finset.sum_range_succ, Finset.sum_range_zero, part, w0, w1, w2, w3, w4, w5]
  norm_num
  ring

theorem row_six4 (x : Fp) {P : ℕ} (hP : P < 2 ^ 384) : row x.val P 4 6 = P + (x.d4.toNat * x.d4.toNat * 2 ^ 256 + 2 * (x.d4.toNat * x.d5.toNat) * 2 ^ 320) := by
  obtain ⟨w0, w1, w2, w3, w4, w5⟩ := words_val x
  rw [row_six 4 hP]
  simp only [Finset.sum_range_succ, Finset.sum_range_zero, part, w0, w1, w2, w3, w4, w5]
  norm_num
  ring

theorem row_six5 (x : Fp) {P : ℕ} (hP : P < 2 ^ 384) : row x.val P 5 6 = P + (x.d5.toNat * x.d5.toNat * 2 ^ 320) := by
  obtain ⟨w0, w1, w2, w3, w4, w5⟩ := words_val x
  rw [row_six 5 hP]
  simp only [Finset.sum_range_succ, Finset.sum_range_zero, part, w0, w1, w2, w3, w4, w5]
  norm_num
  ring

/-- No lost carry, or a wrong residue. -/
theorem loss_mod_digits : ∀ n < 432, (2 ^ 192 * (n % 2) + 2 ^ 256 * (n / 2 % 2) + 2 ^ 320 * (n / 4 % 3) + 2 ^ 384 * (n / 12 % 3) +
    2 ^ 448 * (n / 36 % 3) + 2 ^ 512 * (n / 108 % 2) + 2 ^ 576 * (n / 216 % 2)) % Bls.p = 0 → n = 0 := by
  decide +kernel

theorem loss_mod {a b c d e f g : ℕ} (ha : a < 2) (hb : b < 2) (hc : c < 3) (hd : d < 3) (he : e < 3) (hf : f < 2) (hg : g < 2)
    (h : (2 ^ 192 * a + 2 ^ 256 * b + 2 ^ 320 * c + 2 ^ 384 * d + 2 ^ 448 * e + 2 ^ 512 * f + 2 ^ 576 * g) % Bls.p = 0) :
    a + b + c + d + e + f + g = 0 := by
  have h1 := loss_mod_digits (a + 2 * b + 4 * c + 12 * d + 36 * e + 108 * f + 216 * g) (by omega)
  generalize hn : a + 2 * b + 4 * c + 12 * d + 36 * e + 108 * f + 216 * g = n at *
  have e1 : n % 2 = a := by omega
  have e2 : n / 2 % 2 = b := by omega
  have e3 : n / 4 % 3 = c := by omega
  have e4 : n / 12 % 3 = d := by omega
  have e5 : n / 36 % 3 = e := by omega
  have e6 : n / 108 % 2 = f := by omega
  have e7 : n / 216 % 2 = g := by omega
  rw [e1, e2, e3, e4, e5, e6, e7] at h1
  have := h1 h
  omega

theorem cancel_mod {A E P : ℕ} (h : (A + E) % P = A % P) : E % P = 0 :=
  Nat.ModEq.add_left_cancel' A (show A + E ≡ A + 0 [MOD P] from h)

/-- The square less the lost carries. -/
theorem square_loss (x : Fp) (hx : x.val < Bls.p) : ∃ l01 l02 l03 l04 l12 l13 l14 l23 l24 l34, l01 < 2 ∧ l02 < 2 ∧ l03 < 2 ∧ l04 < 2 ∧ l12 < 2 ∧ l13 < 2 ∧ l14 < 2 ∧ l23 < 2 ∧ l24 < 2 ∧ l34 < 2 ∧
    (square x).val < Bls.p ∧ (2 ^ 384 * (square x).val + (2 ^ 192 * l01 + 2 ^ 256 * l02 + 2 ^ 320 * l03 + 2 ^ 384 * l04 + 2 ^ 320 * l12 + 2 ^ 384 * l13 + 2 ^ 448 * l14 + 2 ^ 448 * l23 + 2 ^ 512 * l24 + 2 ^ 576 * l34)) % Bls.p = x.val * x.val % Bls.p ∧
    ((l01 = 0 ∧ l02 = 0 ∧ l03 = 0 ∧ l04 = 0 ∧ l12 = 0 ∧ l13 = 0 ∧ l14 = 0 ∧ l23 = 0 ∧ l24 = 0 ∧ l34 = 0) ↔ ∀ i j, i < j → j < 5 → ¬ Loses x.val i j) := by
  have hval : x.val = x.d0.toNat + 2 ^ 64 * (x.d1.toNat + 2 ^ 64 * (x.d2.toNat + 2 ^ 64 *
    (x.d3.toNat + 2 ^ 64 * (x.d4.toNat + 2 ^ 64 * x.d5.toNat)))) := rfl
  have h5 : x.d5.toNat < 2 ^ 61 := by
    rw [hval] at hx
    unfold Bls.p at hx
    omega
  have hp3 : 2 * x.val + Bls.p < 2 ^ 384 := by unfold Bls.p at *; omega
  obtain ⟨m0, k0, l01, l02, l03, l04, hm0, L01, L02, L03, L04, e0, I0⟩ := sqRound0_loss x h5
  generalize ht0 : sqRound0 x = t0 at *
  obtain ⟨f0, b0⟩ := loss_exact (S := x.d0.toNat * 2 ^ 0 + 2 * x.d1.toNat * 2 ^ 64 + 2 * x.d2.toNat * 2 ^ 128 + 2 * x.d3.toNat * 2 ^ 192 + 2 * x.d4.toNat * 2 ^ 256 + 2 * x.d5.toNat * 2 ^ 320) (v := x.d0.toNat) hx (u64_lt _) (by omega) (Nat.zero_le _) hm0 (e0.trans (by ring))
  clear e0
  obtain ⟨m1, k1, l12, l13, l14, hm1, L12, L13, L14, e1, I1⟩ := sqRound1_loss x t0 h5
  generalize ht1 : sqRound1 x t0 = t1 at *
  obtain ⟨f1, b1⟩ := loss_exact (S := x.d1.toNat * 2 ^ 64 + 2 * x.d2.toNat * 2 ^ 128 + 2 * x.d3.toNat * 2 ^ 192 + 2 * x.d4.toNat * 2 ^ 256 + 2 * x.d5.toNat * 2 ^ 320) (v := x.d1.toNat) hx (u64_lt _) (by omega) b0 hm1 (e1.trans (by ring))
  clear e1
  obtain ⟨m2, k2, l23, l24, hm2, L23, L24, e2, I2⟩ := sqRound2_loss x t1 h5
  generalize ht2 : sqRound2 x t1 = t2 at *
  obtain ⟨f2, b2⟩ := loss_exact (S := x.d2.toNat * 2 ^ 128 + 2 * x.d3.toNat * 2 ^ 192 + 2 * x.d4.toNat * 2 ^ 256 + 2 * x.d5.toNat * 2 ^ 320) (v := x.d2.toNat) hx (u64_lt _) (by omega) b1 hm2 (e2.trans (by ring))
  clear e2
  obtain ⟨m3, k3, l34, hm3, L34, e3, I3⟩ := sqRound3_loss x t2 h5
  generalize ht3 : sqRound3 x t2 = t3 at *
  obtain ⟨f3, b3⟩ := loss_exact (S := x.d3.toNat * 2 ^ 192 + 2 * x.d4.toNat * 2 ^ 256 + 2 * x.d5.toNat * 2 ^ 320) (v := x.d3.toNat) hx (u64_lt _) (by omega) b2 hm3 (e3.trans (by ring))
  clear e3
  obtain ⟨m4, k4, hm4, e4⟩ := sqRound4_loss x t3 h5
  generalize ht4 : sqRound4 x t3 = t4 at *
  obtain ⟨f4, b4⟩ := loss_exact (S := x.d4.toNat * 2 ^ 256 + 2 * x.d5.toNat * 2 ^ 320) (v := x.d4.toNat) hx (u64_lt _) (by omega) b3 hm4 (e4.trans (by ring))
  clear e4
  obtain ⟨m5, k5, hm5, e5⟩ := sqRound5_loss x t4 h5
  generalize ht5 : sqRound5 x t4 = t5 at *
  obtain ⟨f5, b5⟩ := loss_exact (S := x.d5.toNat * 2 ^ 320) (v := x.d5.toNat) hx (u64_lt _) (by omega) b4 hm5 (e5.trans (by ring))
  clear e5
  refine ⟨l01, l02, l03, l04, l12, l13, l14, l23, l24, l34, by omega, by omega, by omega, by omega, by omega, by omega, by omega, by omega, by omega, by omega, ?_⟩
  have hsq : square x = condSub t5 := by simp only [square, ht0, ht1, ht2, ht3, ht4, ht5]
  clear ht0 ht1 ht2 ht3 ht4 ht5
  rw [hsq, condSub_val]
  have key : 2 ^ 384 * t5.val + (2 ^ 192 * l01 + 2 ^ 256 * l02 + 2 ^ 320 * l03 + 2 ^ 384 * l04 + 2 ^ 320 * l12 + 2 ^ 384 * l13 + 2 ^ 448 * l14 + 2 ^ 448 * l23 + 2 ^ 512 * l24 + 2 ^ 576 * l34) = x.val * x.val +
      (m0 + 2 ^ 64 * m1 + 2 ^ 128 * m2 + 2 ^ 192 * m3 + 2 ^ 256 * m4 + 2 ^ 320 * m5) * Bls.p := by
    rw [hval]
    linear_combination f0 + 2 ^ 64 * f1 + 2 ^ 128 * f2 + 2 ^ 192 * f3 + 2 ^ 256 * f4 + 2 ^ 320 * f5
  have hM : m0 + 2 ^ 64 * m1 + 2 ^ 128 * m2 + 2 ^ 192 * m3 + 2 ^ 256 * m4 + 2 ^ 320 * m5
      < 2 ^ 384 := by omega
  have hxy : x.val * x.val < 2 ^ 384 * Bls.p := Nat.mul_lt_mul'' (Fp.val_lt x) hx
  generalize m0 + 2 ^ 64 * m1 + 2 ^ 128 * m2 + 2 ^ 192 * m3 + 2 ^ 256 * m4 + 2 ^ 320 * m5 = M at *
  have hlt : t5.val < 2 * Bls.p := by
    have h1 : M * Bls.p ≤ (2 ^ 384 - 1) * Bls.p := Nat.mul_le_mul_right _ (by omega)
    have h2 : 2 ^ 384 * t5.val < 2 ^ 384 * (2 * Bls.p) := by
      clear f0 f1 f2 f3 f4 f5
      generalize x.val * x.val = X at *
      generalize M * Bls.p = Y at *
      unfold Bls.p at *
      omega
    exact Nat.lt_of_mul_lt_mul_left h2
  refine ⟨?_, ?_, ?_⟩
  · split <;> omega
  · rw [← Nat.add_mul_mod_self_right (x.val * x.val) M Bls.p, ← key]
    split
    · rfl
    · obtain ⟨s, hs⟩ : ∃ s, t5.val = s + Bls.p := ⟨t5.val - Bls.p, by omega⟩
      rw [hs, Nat.add_sub_cancel, Nat.mul_add, Nat.add_right_comm (2 ^ 384 * s), Nat.add_mul_mod_self_right]
  · have s0 : (0 : ℕ) = state x.val 0 := rfl
    have n0 : 0 = state x.val 0 → l01 = 0 → l02 = 0 → l03 = 0 → l04 = 0 → t0.val = state x.val 1 := fun e z1 z2 z3 z4 => by
      rw [state, ← e]
      refine reduce_eq hm0 ?_
      rw [row_six0 x (by norm_num)]
      rw [z1, z2, z3, z4] at f0
      linear_combination f0
    have n1 : t0.val = state x.val 1 → l12 = 0 → l13 = 0 → l14 = 0 → t1.val = state x.val 2 := fun e z2 z3 z4 => by
      rw [state, ← e]
      refine reduce_eq hm1 ?_
      rw [row_six1 x (by omega)]
      rw [z2, z3, z4] at f1
      linear_combination f1
    have n2 : t1.val = state x.val 2 → l23 = 0 → l24 = 0 → t2.val = state x.val 3 := fun e z3 z4 => by
      rw [state, ← e]
      refine reduce_eq hm2 ?_
      rw [row_six2 x (by omega)]
      rw [z3, z4] at f2
      linear_combination f2
    have n3 : t2.val = state x.val 3 → l34 = 0 → t3.val = state x.val 4 := fun e z4 => by
      rw [state, ← e]
      refine reduce_eq hm3 ?_
      rw [row_six3 x (by omega)]
      rw [z4] at f3
      linear_combination f3
    constructor
    · rintro ⟨z01, z02, z03, z04, z12, z13, z14, z23, z24, z34⟩ i j h1 h2
      have s1 := n0 s0 z01 z02 z03 z04
      have s2 := n1 s1 z12 z13 z14
      have s3 := n2 s2 z23 z24
      have hi : i < 4 := by omega
      interval_cases i
      · rw [Loses, ← s0]; exact I0.1 ⟨z01, z02, z03, z04⟩ j h1 h2
      · rw [Loses, ← s1]; exact I1.1 ⟨z12, z13, z14⟩ j h1 h2
      · rw [Loses, ← s2]; exact I2.1 ⟨z23, z24⟩ j h1 h2
      · rw [Loses, ← s3]; exact I3.1 z34 j h1 h2
    · intro h
      obtain ⟨z01, z02, z03, z04⟩ := I0.2 fun j h1 h2 => by rw [s0]; exact h 0 j h1 h2
      have s1 := n0 s0 z01 z02 z03 z04
      obtain ⟨z12, z13, z14⟩ := I1.2 fun j h1 h2 => by rw [s1]; exact h 1 j h1 h2
      have s2 := n1 s1 z12 z13 z14
      obtain ⟨z23, z24⟩ := I2.2 fun j h1 h2 => by rw [s2]; exact h 2 j h1 h2
      have s3 := n2 s2 z23 z24
      have z34 := I3.2 fun j h1 h2 => by rw [s3]; exact h 3 j h1 h2
      exact ⟨z01, z02, z03, z04, z12, z13, z14, z23, z24, z34⟩

/-- The square is right if and only if no carry is lost. -/
theorem square_exact (x : Fp) (hx : x.val < Bls.p) :
    2 ^ 384 * (square x).val % Bls.p = x.val * x.val % Bls.p ↔ ∀ i j, i < j → j < 5 → ¬ Loses x.val i j := by
  obtain ⟨l01, l02, l03, l04, l12, l13, l14, l23, l24, l34, hl01, hl02, hl03, hl04, hl12, hl13, hl14, hl23, hl24, hl34, -, h1, h2⟩ := square_loss x hx
  rw [← h2, ← h1]
  constructor
  · intro h
    have h4 := cancel_mod h.symm
    have e : 2 ^ 192 * l01 + 2 ^ 256 * l02 + 2 ^ 320 * l03 + 2 ^ 384 * l04 + 2 ^ 320 * l12 + 2 ^ 384 * l13 + 2 ^ 448 * l14 + 2 ^ 448 * l23 + 2 ^ 512 * l24 + 2 ^ 576 * l34 =
      2 ^ 192 * l01 + 2 ^ 256 * l02 + 2 ^ 320 * (l03 + l12) + 2 ^ 384 * (l04 + l13) + 2 ^ 448 * (l14 + l23) + 2 ^ 512 * l24 + 2 ^ 576 * l34 := by ring
    rw [e] at h4
    have h5 := loss_mod hl01 hl02 (c := l03 + l12) (by omega) (d := l04 + l13) (by omega) (e := l14 + l23) (by omega) hl24 hl34
      h4
    omega
  · rintro ⟨rfl, rfl, rfl, rfl, rfl, rfl, rfl, rfl, rfl, rfl⟩
    simp only [mul_zero, add_zero]

end Portable
end Bls
