import Verif.Spec.Tower
import Verif.Proof.PrimeP
import Verif.Proof.PowMod
import Mathlib.FieldTheory.Finite.Basic

/-! Facts about the field with `p` elements. -/

namespace Bls.IsFp

variable (K : Type) [Field K] [IsFp K]

/-- The canonical isomorphism. -/
noncomputable def equiv : ZMod p ≃+* K :=
  haveI : CharP K p := charP
  RingEquiv.ofBijective (ZMod.castHom (dvd_refl p) K)
    ⟨(ZMod.castHom (dvd_refl p) K).injective, fun x => by
      obtain ⟨n, hn⟩ := surj x
      exact ⟨n, by rw [map_natCast, hn]⟩⟩

instance finite : Finite K := Finite.of_equiv _ (equiv K).toEquiv

theorem card : Nat.card K = p := by
  rw [← Nat.card_congr (equiv K).toEquiv, Nat.card_zmod]

variable {K}

theorem natCast_eq_iff {a b : ℕ} : (a : K) = b ↔ a % p = b % p := by
  have : CharP K p := charP
  rw [CharP.cast_eq_iff_mod_eq (R := K) (p := p)]

theorem natCast_eq_zero_iff {a : ℕ} : (a : K) = 0 ↔ a % p = 0 := by
  have := natCast_eq_iff (K := K) (a := a) (b := 0)
  rwa [Nat.cast_zero, Nat.zero_mod] at this

theorem pow_p (x : K) : x ^ p = x := by
  have := (equiv K).symm.injective (a₁ := x ^ p) (a₂ := x)
  apply this
  rw [map_pow, ZMod.pow_card]

theorem pow_pred {x : K} (h : x ≠ 0) : x ^ (p - 1) = 1 := by
  have h1 : x * x ^ (p - 1) = x * 1 := by
    rw [← pow_succ', Nat.sub_add_cancel p_prime.one_le, pow_p, mul_one]
  exact mul_left_cancel₀ h h1

theorem powMod_cast (b e : ℕ) : (powMod p b e : K) = (b : K) ^ e := by
  have := congrArg (equiv K) (powMod_eq p b e)
  rwa [map_pow, map_natCast, map_natCast] at this

theorem two_ne_zero : (2 : K) ≠ 0 := by
  have : ((2 : ℕ) : K) ≠ 0 := by
    rw [Ne, natCast_eq_zero_iff]
    decide +kernel
  exact_mod_cast this

theorem three_ne_zero : (3 : K) ≠ 0 := by
  have : ((3 : ℕ) : K) ≠ 0 := by
    rw [Ne, natCast_eq_zero_iff]
    decide +kernel
  exact_mod_cast this

/-- A number with `n^((p-1)/k) ≠ 1` is no `k`-th power. -/
theorem not_pow {k n : ℕ} (hk : (p - 1) / k * k = p - 1) (h : powMod p n ((p - 1) / k) % p ≠ 1)
    (hn : n % p ≠ 0) (hk0 : k ≠ 0) (x : K) : x ^ k ≠ n := by
  intro hx
  have hx0 : x ≠ 0 := by
    rintro rfl
    rw [zero_pow hk0] at hx
    exact hn (natCast_eq_zero_iff.1 hx.symm)
  have h1 : (n : K) ^ ((p - 1) / k) = 1 := by
    rw [← hx, ← pow_mul, mul_comm, hk, pow_pred hx0]
  rw [← powMod_cast] at h1
  have h1 := natCast_eq_iff.1 (h1.trans Nat.cast_one.symm)
  exact h (by rw [h1]; decide +kernel)

/-- `-1` is not a square in `F_p`. -/
theorem neg_one_not_sq (x : K) : x * x ≠ -1 := by
  intro hx
  apply not_pow (K := K) (k := 2) (n := p - 1) (by decide +kernel) (by decide +kernel) (by decide +kernel)
    (by norm_num) x
  rw [sq, hx, Nat.cast_sub p_prime.one_le]
  have : CharP K p := charP
  simp

/-- `2` is not a square in `F_p`. -/
theorem two_not_sq (x : K) : x ^ 2 ≠ 2 := by
  have := not_pow (K := K) (k := 2) (n := 2) (by decide +kernel) (by decide +kernel) (by decide +kernel)
    (by norm_num) x
  exact_mod_cast this

/-- `2` is not a cube in `F_p`. -/
theorem two_not_cube (x : K) : x ^ 3 ≠ 2 := by
  have := not_pow (K := K) (k := 3) (n := 2) (by decide +kernel) (by decide +kernel) (by decide +kernel)
    (by norm_num) x
  exact_mod_cast this

theorem cast_p : (p : K) = 0 := by
  have : CharP K p := charP
  exact CharP.cast_eq_zero K p

end Bls.IsFp
