import Verif.Spec.Groups
import Verif.Proof.Group
import Verif.Proof.Eval

/-! The curve constants and generators of the program. -/

namespace Bls

open WeierstrassCurve.Affine

section

variable (K : Type) [Field K] [IsFp K]

theorem goodCurve1 : GoodCurve (4 : K) where
  two := IsFp.two_ne_zero
  three := IsFp.three_ne_zero
  const := by
    have : (4 : K) = 2 * 2 := by norm_num
    rw [this]; exact mul_ne_zero IsFp.two_ne_zero IsFp.two_ne_zero

theorem Fp2.two_ne_zero' : (2 : Fp2 K) ≠ 0 := by
  intro h
  have h1 := congrArg Fp2.c0 (show (1 : Fp2 K) + 1 = 0 by rw [← h]; norm_num)
  simp only [Fp2.add_c0, Fp2.one_c0, Fp2.zero_c0] at h1
  exact IsFp.two_ne_zero (K := K) (by rw [← h1]; norm_num)

theorem Fp2.three_ne_zero' : (3 : Fp2 K) ≠ 0 := by
  intro h
  have h1 := congrArg Fp2.c0 (show (1 : Fp2 K) + 1 + 1 = 0 by rw [← h]; norm_num)
  simp only [Fp2.add_c0, Fp2.one_c0, Fp2.zero_c0] at h1
  exact IsFp.three_ne_zero (K := K) (by rw [← h1]; norm_num)

theorem goodCurve2 : GoodCurve (4 * Fp2.xi : Fp2 K) where
  two := Fp2.two_ne_zero' K
  three := Fp2.three_ne_zero' K
  const := by
    have : (4 : Fp2 K) = 2 * 2 := by norm_num
    rw [this]
    exact mul_ne_zero (mul_ne_zero (Fp2.two_ne_zero' K) (Fp2.two_ne_zero' K)) Fp2.xi_ne_zero

theorem four_xi : (4 * Fp2.xi : Fp2 K) = N2.cast K ⟨4, 4⟩ := by
  have : (4 : Fp2 K) = 1 + 1 + 1 + 1 := by norm_num
  rw [this]
  ext <;> simp [Fp2.xi, N2.cast] <;> norm_num

/-- The standard generators lie on the curves. -/
theorem gen1_nonsingular : (curve (4 : K)).Nonsingular gen1X gen1Y := by
  apply (goodCurve1 K).nonsingular
  have h : gen1Y ^ 2 % p = (gen1X ^ 3 + 4) % p := by decide +kernel
  have := (IsFp.natCast_eq_iff (K := K)).2 h
  rwa [Nat.cast_pow, Nat.cast_add, Nat.cast_pow, Nat.cast_ofNat] at this

@[inherit_doc gen1_nonsingular]
theorem gen2_nonsingular :
    (curve (4 * Fp2.xi : Fp2 K)).Nonsingular ⟨gen2X0, gen2X1⟩ ⟨gen2Y0, gen2Y1⟩ := by
  apply (goodCurve2 K).nonsingular
  change (N2.cast K ⟨gen2Y0, gen2Y1⟩) ^ 2 = (N2.cast K ⟨gen2X0, gen2X1⟩) ^ 3 + _
  rw [four_xi, ← N2.to_pow, ← N2.to_pow, ← N2.to_add]
  apply N2.to_eq
  decide +kernel

/-- The generator of the first group. -/
def gen1 : E1 K := Point.some _ _ (gen1_nonsingular K)

/-- The generator of the second group. -/
def gen2 : E2 K := Point.some _ _ (gen2_nonsingular K)

theorem gen1_ne_zero : gen1 K ≠ 0 := Point.some_ne_zero _
theorem gen2_ne_zero : gen2 K ≠ 0 := Point.some_ne_zero _

end

variable {K : Type} [Field K] [FpOps K] [LawfulFp K]

@[ops_eq] theorem FpC.B_eq : (FpC.B : K) = 4 := by
  rw [FpC.B, const_nat _ (by decide +kernel)]
  have : unmont ⟨0xaa270000000cfff3, 0x53cc0032fc34000a, 0x478fe97a6b0a807f, 0xb1d37ebee6ba24d7,
    0x8ec9733bbf78ab2f, 0x09d645513d83de7e⟩ = 4 := by decide +kernel
  rw [this, Nat.cast_ofNat]

@[ops_eq] theorem Fp2.B_eq : (Fp2.B : Fp2 K) = 4 * Fp2.xi := by
  rw [four_xi, Fp2.B, const2 _ _ (by decide +kernel) (by decide +kernel)]
  exact N2.to_eq (by decide +kernel)

theorem G1.one_eq : (G1.one : G1 K) = ⟨gen1X, gen1Y, 1⟩ := by
  rw [G1.one, const_nat _ (by decide +kernel), const_nat _ (by decide +kernel), const_nat _ (by decide +kernel)]
  have h1 : unmont ⟨0x5cb38790fd530c16, 0x7817fc679976fff5, 0x154f95c7143ba1c1, 0xf0ae6acdf3d0e747,
    0xedce6ecc21dbf440, 0x120177419e0bfb75⟩ = gen1X := by decide +kernel
  have h2 : unmont ⟨0xbaac93d50ce72271, 0x8c22631a7918fd8e, 0xdd595f13570725ce, 0x51ac582950405194,
    0x0e1c8c3fad0059c0, 0x0bbc3efc5008a26a⟩ = gen1Y := by decide +kernel
  have h3 : unmont ⟨0x760900000002fffd, 0xebf4000bc40c0002, 0x5f48985753c758ba, 0x77ce585370525745,
    0x5c071a97a256ec6d, 0x15f65ec3fa80e493⟩ = 1 := by decide +kernel
  rw [h1, h2, h3, Nat.cast_one]

theorem G2.one_eq : (G2.one : G2 K) = ⟨⟨gen2X0, gen2X1⟩, ⟨gen2Y0, gen2Y1⟩, 1⟩ := by
  rw [G2.one, const2 _ _ (by decide +kernel) (by decide +kernel),
    const2 _ _ (by decide +kernel) (by decide +kernel), const2 _ _ (by decide +kernel) (by decide +kernel)]
  rw [N2.to_eq (K := K) (x := ⟨unmont _, unmont _⟩) (y := ⟨gen2X0, gen2X1⟩) (by decide +kernel)]
  rw [N2.to_eq (K := K) (x := ⟨unmont _, unmont _⟩) (y := ⟨gen2Y0, gen2Y1⟩) (by decide +kernel)]
  rw [N2.to_eq (K := K) (x := ⟨unmont _, unmont _⟩) (y := ⟨1, 0⟩) (by decide +kernel), N2.to_one]
  rfl

/-- The program's generator is the standard one. -/
theorem G1.one_rep : (G1.one : G1 K).Rep (gen1 K) := by
  rw [G1.one_eq]
  refine ⟨one_ne_zero, ?_, ?_⟩
  · change (gen1X : K) = gen1X * 1 ^ 2
    rw [one_pow, mul_one]
  · change (gen1Y : K) = gen1Y * 1 ^ 3
    rw [one_pow, mul_one]

@[inherit_doc G1.one_rep]
theorem G2.one_rep : (G2.one : G2 K).Rep (gen2 K) := by
  rw [G2.one_eq]
  refine ⟨one_ne_zero, ?_, ?_⟩
  · change (⟨gen2X0, gen2X1⟩ : Fp2 K) = ⟨gen2X0, gen2X1⟩ * 1 ^ 2
    rw [one_pow, mul_one]
  · change (⟨gen2Y0, gen2Y1⟩ : Fp2 K) = ⟨gen2Y0, gen2Y1⟩ * 1 ^ 3
    rw [one_pow, mul_one]

end Bls
