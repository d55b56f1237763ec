import Verif.Proof.Swu
import Verif.Proof.NatEval
import Verif.Proof.Subgroup2
import Mathlib.NumberTheory.LegendreSymbol.QuadraticChar.Basic

/-! The functions used by the SWU maps of the two groups. -/

namespace Bls
open Rfc

theorem nonsquare_mul {F : Type} [Field F] [Finite F] (a b : F) (ha : ¬ IsSquare a) (hb : ¬ IsSquare b) :
    IsSquare (a * b) := by
  classical
  have := Fintype.ofFinite F
  have h0 : ∀ {x : F}, ¬ IsSquare x → x ≠ 0 := fun h e => h (e ▸ IsSquare.zero)
  rw [← quadraticChar_one_iff_isSquare (mul_ne_zero (h0 ha) (h0 hb)), map_mul,
    quadraticChar_neg_one_iff_not_isSquare.2 ha, quadraticChar_neg_one_iff_not_isSquare.2 hb]
  norm_num

variable {K : Type} [Field K] [FpOps K] [LawfulFp K] [DecidableEq K]

attribute [local irreducible] p

theorem odd1_natCast {n : ℕ} (h : n < p) : Odd1 (n : K) ↔ n % 2 = 1 := by
  constructor
  · rintro ⟨k, hk, e, h1⟩
    rw [IsFp.natCast_eq_iff, Nat.mod_eq_of_lt hk, Nat.mod_eq_of_lt h] at e
    rwa [← e]
  · exact fun h1 => ⟨n, h, rfl, h1⟩

theorem odd1_zero : ¬ Odd1 (0 : K) := by
  have := odd1_natCast (K := K) (n := 0) p_prime.pos
  rw [Nat.cast_zero] at this
  rw [this]; decide

omit [DecidableEq K] in
theorem p_odd : p % 2 = 1 := by unfold p; decide +kernel

theorem odd1_neg (x : K) (h : x ≠ 0) : Odd1 (-x) ↔ ¬ Odd1 x := by
  obtain ⟨n, hn, rfl⟩ := FpC.exists_nat x
  have h0 : n ≠ 0 := fun e => h (by rw [e, Nat.cast_zero])
  have hc : -(n : K) = ((p - n : ℕ) : K) := by
    rw [Nat.cast_sub hn.le, (IsFp.natCast_eq_zero_iff (K := K) (a := p)).2 (Nat.mod_self p), zero_sub]
  have hp := p_odd
  rw [hc, odd1_natCast (by omega), odd1_natCast hn]
  omega

theorem sign1 (x : K) : FpC.sign x = true ↔ ¬ Odd1 x := by
  obtain ⟨n, hn, rfl⟩ := FpC.exists_nat x
  rw [FpC.sign_natCast hn, odd1_natCast hn, decide_eq_true_iff]
  omega

variable (K) in
theorem swuFns1 : SwuFns (F := K) FpC.isQuadraticNonResidue FpC.sqrt FpC.sign Odd1 where
  qnr := FpC.isQNR_iff
  sqrt x h := FpC.sqrt_correct x ((FpC.sqrt_iff x).2 h)
  sign := sign1
  sign_neg := odd1_neg
  mul := nonsquare_mul

theorem sign2 (x : Fp2 K) : x.sign = true ↔ ¬ Odd2 x := by
  have h0 := sign1 x.c0
  have h1 := sign1 x.c1
  rw [FpC.sign] at h0 h1
  have hz := LawfulOps.isZero_iff x.c0
  rw [Fp2.sign, Odd2]
  by_cases hc : x.c0 = 0
  · rw [hz.2 hc, if_neg (by decide), h1]
    have : ¬ Odd1 x.c0 := hc ▸ odd1_zero
    tauto
  · rw [Bool.eq_false_iff.2 (fun e => hc (hz.1 e)), if_pos (by decide), h0]
    tauto

theorem odd2_neg (x : Fp2 K) (h : x ≠ 0) : Odd2 (-x) ↔ ¬ Odd2 x := by
  rw [Odd2, Odd2, Fp2.neg_c0, Fp2.neg_c1]
  by_cases hc : x.c0 = 0
  · have h1 : x.c1 ≠ 0 := fun e => h (Fp2.ext hc e)
    have := odd1_neg _ h1
    have hz : ¬ Odd1 x.c0 := hc ▸ odd1_zero
    rw [hc, neg_zero] at *
    tauto
  · have := odd1_neg _ hc
    have : -x.c0 ≠ 0 := neg_ne_zero.2 hc
    tauto

variable (K) in
theorem swuFns2 : SwuFns (F := Fp2 K) Fp2.isQuadraticNonResidue Fp2.sqrt Fp2.sign Odd2 where
  qnr := Fp2.isQNR_iff
  sqrt x h := Fp2.sqrt_correct x ((Fp2.sqrt_iff x).2 h)
  sign := sign2
  sign_neg := odd2_neg
  mul := have := Fp2.finite (K := K); nonsquare_mul

end Bls
