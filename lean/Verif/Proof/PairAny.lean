import Verif.Proof.PairZero

/-!
# Linearity of the pairing in its first argument on the whole curve

The second argument lies in the subgroup, the first one is any point. The points with `x = 0`, where the lines degenerate,
are treated apart: there the loop stays in the field of `p⁴` elements, and the final exponentiation gives one.
-/

set_option linter.unusedSectionVars false

namespace Bls.Pairing
open Bls WeierstrassCurve.Affine Chord Cocycle

attribute [local irreducible] p q

variable {K : Type} [Field K] [FpOps K] [LawfulFp K] [DecidableEq K]

theorem not13 {Q : E2 K} (hQ : q • Q = 0) : ¬(Q ≠ 0 ∧ 13 • Q = 0) := fun h =>
  order_smul_ne hQ h.1 13 (by norm_num) (by decide +kernel) h.2

theorem eps_pow_q (P : E1 K) {Q : E2 K} (hQ : q • Q = 0) : eps P Q ^ q = 1 :=
  (eps_order_iff P Q).2 fun h => not13 hQ h.2

theorem eps_ne_zero (P : E1 K) {Q : E2 K} (hQ : q • Q = 0) : eps P Q ≠ 0 := fun h =>
  not13 hQ ((eps_eq_zero_iff P Q).1 h).2

/-! ## The points with `x = 0` -/

theorem emb_pow (a : Fp2 K) : (Fp12.emb a) ^ p ^ 4 = Fp12.emb a := by
  rw [← map_pow, Fp2.pow_p_pow, Fp2.frob]
  rfl

theorem w3_pow : ((Fp12.w : Fp12 K) ^ 3) ^ p ^ 4 = Fp12.w ^ 3 := by
  have h : (Fp12.w : Fp12 K) ^ 6 = Fp12.emb Fp2.xi := Fp12.w6_eq
  have hx : (Fp12.emb (Fp2.xi : Fp2 K)) ^ (p ^ 2 - 1) = 1 := by
    have h2 : (Fp2.xi : Fp2 K) ^ p ^ 2 = Fp2.xi := by rw [Fp2.pow_p_pow, Fp2.frob]; rfl
    have h0 : (Fp2.xi : Fp2 K) ≠ 0 := fun e => one_ne_zero (congrArg Fp2.c0 e)
    rw [← map_pow]
    have : (Fp2.xi : Fp2 K) ^ (p ^ 2 - 1) = 1 := by
      apply mul_right_cancel₀ h0
      rw [← pow_succ, Nat.sub_add_cancel (by decide +kernel), h2, one_mul]
    rw [this, map_one]
  rw [← pow_mul, show 3 * p ^ 4 = 6 * ((p ^ 2 - 1) * ((p ^ 2 + 1) / 2)) + 3 by decide +kernel, pow_add, pow_mul, h,
    pow_mul, hx, one_pow, one_mul]

/-- A line at a point with `x = 0`. -/
theorem lineVal_pow {A : G1 K} (hx : A.x = 0) (c : Coeff K) : lineVal A c ^ p ^ 4 = lineVal A c := by
  have : ExpChar (Fp12 K) p := inferInstance
  rw [lineVal, hx, show Fp2.ofBase (0 : K) = 0 from rfl, mul_zero, Fp12.line_eq, map_zero, zero_mul, add_zero, add_pow_expChar_pow, mul_pow,
    emb_pow, emb_pow, w3_pow]

theorem loopVal_pow {n : ℕ} {V : ℕ → Fp12 K} (hV : ∀ k, V k ^ n = V k) : ∀ (i k : ℕ) (f : Fp12 K), f ^ n = f →
    loopVal V i k f ^ n = loopVal V i k f
  | 0, _, _, hf => hf
  | i + 1, k, f, hf => by
    have hs : (if i ≠ 62 then f * f else f) ^ n = if i ≠ 62 then f * f else f := by
      split_ifs
      · rw [mul_pow, hf]
      · exact hf
    simp only [loopVal]
    split_ifs at hs ⊢
    all_goals
      refine loopVal_pow hV i _ _ ?_
      simp only [mul_pow, hs, hV]

theorem eps_x_zero {y : K} {h : (curve (4 : K)).Nonsingular 0 y} {Q : E2 K} (hQ : q • Q = 0) :
    eps (Point.some 0 y h) Q = 1 := by
  have h0 := eps_ne_zero (Point.some 0 y h) hQ
  match Q, h0 with
  | .zero, _ => rfl
  | .some x' y' h', h0 =>
    change (millerVal (⟨0, y, 1⟩ : G1 K) ⟨x', y', 1⟩ ^ p ^ 6) ^ finalExp ≠ 0 at h0
    change (millerVal (⟨0, y, 1⟩ : G1 K) ⟨x', y', 1⟩ ^ p ^ 6) ^ finalExp = 1
    have hm : millerVal (⟨0, y, 1⟩ : G1 K) ⟨x', y', 1⟩ ^ p ^ 4 = millerVal (⟨0, y, 1⟩ : G1 K) ⟨x', y', 1⟩ :=
      loopVal_pow (fun k => lineVal_pow rfl _) 63 0 1 (one_pow _)
    revert h0 hm
    generalize millerVal (⟨0, y, 1⟩ : G1 K) ⟨x', y', 1⟩ = m
    intro h0 hm
    have hm0 : m ≠ 0 := by
      rintro rfl
      rw [zero_pow (by decide +kernel), zero_pow (by decide +kernel)] at h0
      exact h0 rfl
    have h1 : m ^ (p ^ 4 - 1) = 1 := by
      apply mul_right_cancel₀ hm0
      rw [← pow_succ, Nat.sub_add_cancel (by decide +kernel), hm, one_mul]
    rw [← pow_mul, show p ^ 6 * finalExp = (p ^ 4 - 1) * (finalExp / (p ^ 4 - 1) * p ^ 6) by decide +kernel, pow_mul, h1,
      one_pow]

/-! ## Linearity -/

/-- A point with `x = 0`. -/
def XZero : E1 K → Prop
  | .zero => False
  | .some x _ _ => x = 0

/-- The points with `x = 0` have order 3. -/
theorem XZero.three {P : E1 K} (h : XZero P) : 3 • P = 0 := by
  match P, h with
  | .some x y hn, h =>
    change x = 0 at h
    subst h
    obtain ⟨n, e⟩ := dbl_affine hn (mul_ne_zero (goodCurve1 K).two (y1_ne_zero hn)) (l := 0) (by ring)
    rw [succ_nsmul, two_nsmul, e]
    exact Point.add_of_Y_eq (by ring) (by rw [negY_curve]; ring)

theorem XZero.ne {P : E1 K} (h : XZero P) : P ≠ 0 := by
  rintro rfl
  exact h

theorem eps_xzero {P : E1 K} (h : XZero P) {Q : E2 K} (hQ : q • Q = 0) : eps P Q = 1 := by
  match P, h with
  | .some x y hn, h =>
    change x = 0 at h
    subst h
    exact eps_x_zero hQ

theorem card_smul1 (P : E1 K) : N1 • P = 0 := by
  rw [← E1_card K]
  exact card_nsmul_eq_zero'

theorem gcd_smul {G : Type*} [AddCommGroup G] {P : G} {m n : ℕ} (h : m • P = 0) (h' : n • P = 0) : Nat.gcd m n • P = 0 :=
  addOrderOf_dvd_iff_nsmul_eq_zero.1
    (Nat.dvd_gcd (addOrderOf_dvd_of_nsmul_eq_zero h) (addOrderOf_dvd_of_nsmul_eq_zero h'))

theorem gcd9 : Nat.gcd 9 N1 = 3 := by decide +kernel
theorem gcd6 : Nat.gcd 6 N1 = 3 := by decide +kernel

attribute [local irreducible] N1 in
/-- There is no point of order 9. -/
theorem not_xzero_three (P : E1 K) : ¬XZero (3 • P) := fun h => by
  have h9 : 9 • P = 0 := by rw [show 9 = 3 * 3 from rfl, mul_nsmul]; exact h.three
  have := gcd_smul h9 (card_smul1 P)
  exact h.ne (gcd9 ▸ this)

attribute [local irreducible] N1 in
/-- There is no point of order 6. -/
theorem not_xzero_two {P : E1 K} (hP : ¬XZero P) : ¬XZero (2 • P) := fun h => by
  have h6 : 6 • P = 0 := by rw [show 6 = 2 * 3 from rfl, mul_nsmul]; exact h.three
  have h3 : 3 • P = 0 := gcd6 ▸ gcd_smul h6 (card_smul1 P)
  have e : 2 • P = -P := eq_neg_of_add_eq_zero_left (by rw [← succ_nsmul]; exact h3)
  rw [e] at h
  match P, hP, h with
  | .some x y hn, hP, h =>
    rw [Point.neg_some] at h
    exact hP h

attribute [local irreducible] zabs in
/-- Linearity away from `x = 0`. -/
theorem eps_add_generic {P R : E1 K} {Q : E2 K} (hP : ¬XZero P) (hR : ¬XZero R) (hPR : ¬XZero (P + R)) (hQ : q • Q = 0) :
    eps (P + R) Q = eps P Q * eps R Q := by
  by_cases hQ0 : Q = 0
  · subst hQ0
    rw [eps_zero_right, eps_zero_right, eps_zero_right, mul_one]
  match P, hP, R, hR with
  | .zero, _, R, _ =>
    change eps (0 + R) Q = 1 * _
    rw [zero_add, one_mul]
  | .some x y h, _, .zero, _ =>
    change eps (Point.some x y h + 0) Q = _ * 1
    rw [add_zero, mul_one]
  | .some x₁ y₁ h₁, hx₁, .some x₂ y₂ h₂, hx₂ =>
    change x₁ ≠ 0 at hx₁
    change x₂ ≠ 0 at hx₂
    have hy₁ := y1_ne_zero h₁
    have hy₂ := y1_ne_zero h₂
    rw [eps_val hx₁ hy₁ hQ, eps_val hx₂ hy₂ hQ, ← Units.val_mul, ← mul_inv]
    by_cases hn : x₁ = x₂ ∧ y₁ = -y₂
    · obtain ⟨rfl, e⟩ := hn
      rw [Point.add_of_Y_eq rfl (by rw [negY_curve]; exact e), phi_neg12 e, inv_one, Units.val_one, eps_zero_left]
    · obtain ⟨m, k, x₃, h₃, hs, -, v1, v2, w1, w2, w3, -, -⟩ := line_vieta (goodCurve1 K).two h₁ h₂ hn
      rw [hs] at hPR
      have hx₃ : x₃ ≠ 0 := hPR
      have hy₃ := y1_ne_zero h₃
      have h₃' : (curve (4 : K)).Nonsingular x₃ (m * x₃ + k) := by
        have := (nonsingular_neg x₃ (-(m * x₃ + k))).2 h₃
        rwa [negY_curve, neg_neg] at this
      have hy₃' : m * x₃ + k ≠ 0 := neg_ne_zero.1 hy₃
      have ht := line12_through (h₁ := h₁) (h₂ := h₂) (h₃ := h₃') (hx₁ := hx₁) (hy₁ := hy₁) (hx₂ := hx₂) (hy₂ := hy₂)
        (hx₃ := hx₃) (hy₃ := hy₃') v1 v2 rfl w1 w2 w3
      have hlt := zabs_lt_q
      have hz := zabs_lt
      have key := (line12 m k).phi_through (goodCurve2 K).two (goodCurve2 K) frob12 (line12_rational m k) ht
        (N := zabs) (r := q) (fun x h => ext12_chi_order h) q_dvd (psi_hom hQ) zabs_pos (fun k h0 hk => by
          rw [← add_nsmul]
          exact order_smul_ne hQ hQ0 _ (by omega) (by omega))
      have hneg := phi_neg12 (h := h₃) (h' := h₃') (hx := hx₃) (hy := hy₃) (hy' := hy₃') (neg_neg _).symm Q
      rw [hs, eps_val hx₃ hy₃ hQ]
      congr 2
      rw [mul_eq_one_iff_eq_inv] at hneg key
      rw [key, hneg, inv_inv]

theorem eps_three (P : E1 K) {Q : E2 K} (hQ : q • Q = 0) : eps (3 • P) Q = eps P Q ^ 3 := by
  by_cases hP : XZero P
  · rw [hP.three, eps_zero_left, eps_xzero hP hQ, one_pow]
  · have h2 := not_xzero_two hP
    have h3 := not_xzero_three P
    rw [succ_nsmul] at h3 ⊢
    rw [eps_add_generic h2 hP h3 hQ]
    rw [two_nsmul] at h2 ⊢
    rw [eps_add_generic hP hP h2 hQ]
    ring

theorem cube_inj {u v : Fp12 K} (hu : u ^ q = 1) (hv : v ^ q = 1) (h : u ^ 3 = v ^ 3) : u = v := by
  have key : ∀ t : Fp12 K, t ^ q = 1 → (t ^ 3) ^ ((q + q + 1) / 3) = t := fun t ht => by
    rw [← pow_mul, show 3 * ((q + q + 1) / 3) = q + q + 1 by decide +kernel, pow_succ, pow_add, ht, one_mul, one_mul]
  rw [← key u hu, h, key v hv]

/-- Linearity in the first argument, on the whole curve. -/
theorem eps_add_any (P R : E1 K) {Q : E2 K} (hQ : q • Q = 0) : eps (P + R) Q = eps P Q * eps R Q := by
  refine cube_inj (eps_pow_q _ hQ) (by rw [mul_pow, eps_pow_q _ hQ, eps_pow_q _ hQ, one_mul]) ?_
  rw [mul_pow, ← eps_three P hQ, ← eps_three R hQ, ← eps_three (P + R) hQ, nsmul_add]
  refine eps_add_generic (not_xzero_three P) (not_xzero_three R) ?_ hQ
  rw [← nsmul_add]
  exact not_xzero_three _

theorem eps_smul_any (P : E1 K) {Q : E2 K} (hQ : q • Q = 0) : ∀ n : ℕ, eps (n • P) Q = eps P Q ^ n
  | 0 => by rw [zero_nsmul, pow_zero, eps_zero_left]
  | n + 1 => by rw [succ_nsmul, eps_add_any _ _ hQ, eps_smul_any P hQ n, pow_succ]

theorem pow_coprime_one {u : Fp12 K} {n : ℕ} (hu : u ^ q = 1) (hn : u ^ n = 1) (h : Nat.Coprime q n) : u = 1 := by
  rw [← orderOf_eq_one_iff, ← Nat.dvd_one, ← h]
  exact Nat.dvd_gcd (orderOf_dvd_of_pow_eq_one hu) (orderOf_dvd_of_pow_eq_one hn)

/-- The pairing is one exactly if the second point is infinity or clearing the cofactor of the first gives infinity. -/
theorem eps_one_any (P : E1 K) {Q : E2 K} (hQ : q • Q = 0) : eps P Q = 1 ↔ hEff1 • P = 0 ∨ Q = 0 := by
  rw [← eps_eq_one_iff (clear_order.1 P) hQ, eps_smul_any P hQ]
  exact ⟨fun h => by rw [h, one_pow], fun h => pow_coprime_one (eps_pow_q P hQ) h (by decide +kernel)⟩

end Bls.Pairing
