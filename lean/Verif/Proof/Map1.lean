import Verif.Proof.Iso1

/-! The SWU map and the isogeny of the first group. -/

namespace Bls
open Rfc

section
variable {K : Type} [Field K] [FpOps K] [LawfulFp K] [DecidableEq K]

attribute [local irreducible] p

theorem const_is (c : Fp) (n : ℕ) (h : c.val < p) (e : unmont c = n) : (FpOps.const c : K) = (n : K) :=
  (const_nat c h).trans (by rw [e])

/-- `zInv` of the first group. -/
def zInv1 : ℕ := 363855414111060672128889984157809468777898438176273444121096194193093786408257987676607966284455969457990388414526
/-- `minusBOverA` of the first group. -/
def mBA1 : ℕ := 1165829013300031051498189320085913366300917435352691079268722832469236884678791583237077507172460989948189414825084
/-- Square root of the exceptional value. -/
def exc1 : ℕ := 883926319761702754759909536142450234040420493353017578303105057331414514426056372828799438842649753623273850162620

theorem z1_eq : (G1.swuParams : SwuParams K).z = 11 :=
  (const_is _ 11 (by decide +kernel) (by decide +kernel)).trans (by norm_num)
theorem zInv1_eq : (G1.swuParams : SwuParams K).zInv = (zInv1 : K) :=
  const_is _ zInv1 (by decide +kernel) (by decide +kernel)
theorem a1_eq : (G1.swuParams : SwuParams K).a = (swuA1 : K) :=
  const_is _ swuA1 (by decide +kernel) (by decide +kernel)
theorem b1_eq : (G1.swuParams : SwuParams K).b = (swuB1 : K) :=
  const_is _ swuB1 (by decide +kernel) (by decide +kernel)
theorem mBA1_eq : (G1.swuParams : SwuParams K).minusBOverA = (mBA1 : K) :=
  const_is _ mBA1 (by decide +kernel) (by decide +kernel)

theorem nat_nonsquare {n : ℕ} (h : Nat.beq (powMod p n ((p - 1) / 2) % p) 1 = false) (h0 : (n : K) ≠ 0) :
    ¬ IsSquare (n : K) := by
  intro hs
  have h1 := FpC.euler hs h0
  rw [← IsFp.powMod_cast, ← Nat.cast_one (R := K), IsFp.natCast_eq_iff, Nat.mod_eq_of_lt p_prime.one_lt] at h1
  rw [h1] at h
  exact absurd h (by decide)

theorem not_cube {n : ℕ} (h : Nat.beq (powMod p n ((p - 1) / 3) % p) 1 = false) (h0 : (n : K) ≠ 0) (y : K) :
    y ^ 3 ≠ (n : K) := by
  intro hs
  have hy : y ≠ 0 := by rintro rfl; rw [zero_pow (by decide)] at hs; exact h0 hs.symm
  have h1 : ((n : ℕ) : K) ^ ((p - 1) / 3) = 1 := by
    rw [← hs, ← pow_mul, show 3 * ((p - 1) / 3) = p - 1 by unfold p; decide +kernel]
    exact IsFp.pow_pred hy
  rw [← IsFp.powMod_cast, ← Nat.cast_one (R := K), IsFp.natCast_eq_iff, Nat.mod_eq_of_lt p_prime.one_lt] at h1
  rw [h1] at h
  exact absurd h (by decide)

theorem natCast_ne_zero {n : ℕ} (h : Nat.beq (n % p) 0 = false) : (n : K) ≠ 0 := by
  rw [Ne, IsFp.natCast_eq_zero_iff]
  intro e
  rw [e] at h
  exact absurd h (by decide)

theorem cubic1_natCast (n : ℕ) : cubic (swuA1 : K) (swuB1 : K) (n : K) = ((n ^ 3 + swuA1 * n + swuB1 : ℕ) : K) := by
  rw [cubic, Nat.cast_add, Nat.cast_add, Nat.cast_mul, Nat.cast_pow]

/-- The curve `y² = x³ + A x + B` has no point of order two. -/
theorem cubic1_ne_zero (x : K) : cubic (swuA1 : K) (swuB1 : K) x ≠ 0 := by
  intro h0
  by_cases hk : ker1 x = 0
  · obtain ⟨r, hr, rfl⟩ := ker1_zero hk
    rw [cubic1_natCast] at h0
    have : ∀ r ∈ kernel1, Nat.beq ((r ^ 3 + swuA1 * r + swuB1) % p) 0 = false := by unfold p; decide +kernel
    exact natCast_ne_zero (K := K) (this r hr) h0
  · have h := iso1_val x
    rw [h0, zero_mul] at h
    have h4 : ((4 : ℕ) : K) ≠ 0 := natCast_ne_zero (by unfold p; decide +kernel)
    refine not_cube (n := 4) (by unfold p; decide +kernel) h4 (-(polyVal (xNum1.map Nat.cast) x / ker1 x ^ 2)) ?_
    have : polyVal (xNum1.map Nat.cast) x ^ 3 = -4 * (ker1 x ^ 2) ^ 3 := by linear_combination -h
    rw [Odd.neg_pow (by decide), div_pow, this, mul_div_assoc, div_self (pow_ne_zero _ (pow_ne_zero _ hk))]
    norm_num

variable (K) in
theorem swuGood1 : SwuGood (G1.swuParams : SwuParams K) (swuA1 : K) (swuB1 : K) 11 where
  z := z1_eq
  a := a1_eq
  b := b1_eq
  zInv := by
    have h : ((zInv1 * 11 + 1 : ℕ) : K) = 0 := IsFp.natCast_eq_zero_iff.2 (by unfold p; decide +kernel)
    rw [Nat.cast_add, Nat.cast_mul, Nat.cast_one, Nat.cast_ofNat] at h
    rw [zInv1_eq]
    exact eq_neg_of_add_eq_zero_left h
  minusBOverA := by
    have h : ((mBA1 * swuA1 + swuB1 : ℕ) : K) = 0 := IsFp.natCast_eq_zero_iff.2 (by unfold p; decide +kernel)
    rw [Nat.cast_add, Nat.cast_mul] at h
    rw [mBA1_eq]
    exact eq_neg_of_add_eq_zero_left h
  a0 := natCast_ne_zero (by unfold p; decide +kernel)
  nonsquare := by
    have := nat_nonsquare (K := K) (n := 11) (by unfold p; decide +kernel) (natCast_ne_zero (by unfold p; decide +kernel))
    rwa [Nat.cast_ofNat] at this
  exceptional := by
    rw [zInv1_eq, mBA1_eq, ← Nat.cast_mul, cubic1_natCast]
    refine ⟨(exc1 : K), ?_⟩
    rw [← Nat.cast_mul]
    exact IsFp.natCast_eq_iff.2 (by unfold p; decide +kernel)
  root := cubic1_ne_zero

/-- The SWU map of the first group is the map of RFC 9380. -/
theorem swu1 (e : K) : IsSswu (swuA1 : K) (swuB1 : K) 11 Odd1 e (G1.swuMapG1 e).1 (G1.swuMapG1 e).2 :=
  swuMap_spec (swuGood1 K) (swuFns1 K) e

/-- Outside the kernel the isogeny map returns the affine coordinates of the image. -/
theorem iso1 {x y : K} (hy : y ^ 2 = cubic (swuA1 : K) (swuB1 : K) x) (hk : ker1 x ≠ 0) :
    ∃ P : E1 K, IsIso (xNum1.map Nat.cast) (xDen1.map Nat.cast) (yNum1.map Nat.cast) (yDen1.map Nat.cast) x y P ∧
      (⟨(G1.isogenyMapG1 x y).1, (G1.isogenyMapG1 x y).2, 1⟩ : G1 K).Rep P := by
  have hD : polyVal (xDen1.map Nat.cast) x ≠ 0 := by rw [xDen1_val]; exact pow_ne_zero _ hk
  have hD' : polyVal (yDen1.map Nat.cast) x ≠ 0 := by rw [yDen1_val]; exact pow_ne_zero _ hk
  have heq : (y * (polyVal (yNum1.map Nat.cast) x / polyVal (yDen1.map Nat.cast) x)) ^ 2 =
      (polyVal (xNum1.map Nat.cast) x / polyVal (xDen1.map Nat.cast) x) ^ 3 + 4 := by
    have h := iso1_val x
    rw [xDen1_val, yDen1_val, mul_pow, hy, div_pow, div_pow]
    generalize cubic (swuA1 : K) (swuB1 : K) x = g at h ⊢
    generalize polyVal (xNum1.map Nat.cast) x = a at h ⊢
    generalize polyVal (yNum1.map Nat.cast) x = b at h ⊢
    generalize ker1 x = k at h hk ⊢
    field_simp
    linear_combination h
  have hns := (goodCurve1 K).nonsingular heq
  refine ⟨.some _ _ hns, Or.inr ⟨hD, hD', hns, rfl⟩, ?_⟩
  have e1 : (G1.isogenyMapG1 x y).1 = polyVal (xNum1.map Nat.cast) x / polyVal (xDen1.map Nat.cast) x := by
    change Ops.mul (G1.isoPoly G1.isoW0 x) (Ops.inv (G1.isoPoly G1.isoW1 x)) = _
    rw [isoPoly1_xNum, isoPoly1_xDen, LawfulOps.mul_eq, LawfulOps.inv_eq, div_eq_mul_inv]
  have e2 : (G1.isogenyMapG1 x y).2 = y * (polyVal (yNum1.map Nat.cast) x / polyVal (yDen1.map Nat.cast) x) := by
    change Ops.mul (Ops.mul (G1.isoPoly G1.isoW2 x) (Ops.inv (G1.isoPoly G1.isoW3 x))) y = _
    rw [isoPoly1_yNum, isoPoly1_yDen, LawfulOps.mul_eq, LawfulOps.mul_eq, LawfulOps.inv_eq, div_eq_mul_inv, mul_comm]
  rw [e1, e2]
  refine ⟨one_ne_zero, ?_, ?_⟩
  · change _ = _ * (1 : K) ^ 2
    rw [one_pow, mul_one]
  · change _ = _ * (1 : K) ^ 3
    rw [one_pow, mul_one]

theorem map1 {e : K} (hk : ker1 (G1.swuMapG1 e).1 ≠ 0) : ∃ P : E1 K, IsMap1 e P ∧
    ∃ a : G1 K, a.Rep P ∧ G1.mapToCurve e = a.clearCofactor := by
  have hs := swu1 e
  obtain ⟨P, hP, hr⟩ := iso1 hs.2.1 hk
  refine ⟨P, ⟨_, _, hs, hP⟩, _, hr, ?_⟩
  rw [G1.mapToCurve, LawfulOps.one_eq]

end

end Bls
