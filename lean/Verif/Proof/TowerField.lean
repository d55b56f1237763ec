import Verif.Proof.IsFp
import Mathlib.Tactic.LinearCombination
import Mathlib.Tactic.FieldSimp

/-! The tower rings are fields. -/

set_option linter.unusedSectionVars false
set_option linter.unnecessarySeqFocus false

namespace Bls

namespace Fp2

variable {K : Type} [CommRing K]

/-- Norm to `F_p`. -/
def norm (a : Fp2 K) : K := a.c0 * a.c0 + a.c1 * a.c1

theorem norm_mul (a b : Fp2 K) : (a * b).norm = a.norm * b.norm := by
  simp only [norm, mul_c0, mul_c1]; ring

theorem norm_one : (1 : Fp2 K).norm = 1 := by simp [norm]

theorem norm_pow (a : Fp2 K) (n : ℕ) : (a ^ n).norm = a.norm ^ n := by
  induction n with
  | zero => simp [norm_one]
  | succ n ih => rw [pow_succ, norm_mul, ih, pow_succ]

theorem norm_xi : (xi : Fp2 K).norm = 2 := by simp only [norm, xi]; ring

end Fp2

namespace Fp2

variable {K : Type} [Field K]

instance : Inv (Fp2 K) := ⟨fun a => ⟨a.c0 / a.norm, -a.c1 / a.norm⟩⟩

instance : Nontrivial (Fp2 K) := ⟨0, 1, fun h => zero_ne_one (congrArg Fp2.c0 h)⟩

variable [IsFp K]

theorem norm_eq_zero {a : Fp2 K} : a.norm = 0 ↔ a = 0 := by
  constructor
  · intro h
    by_cases h1 : a.c1 = 0
    · have h0 : a.c0 = 0 := by
        simp only [norm, h1, mul_zero, add_zero] at h
        exact mul_self_eq_zero.1 h
      ext <;> simp [h0, h1]
    · exfalso
      apply IsFp.neg_one_not_sq (a.c0 / a.c1)
      simp only [norm] at h
      field_simp
      linear_combination h
  · rintro rfl; simp [norm]

instance : Field (Fp2 K) where
  mul_inv_cancel a h := by
    have h0 : a.norm ≠ 0 := fun h' => h (norm_eq_zero.1 h')
    have e : a.c0 * a.c0 + a.c1 * a.c1 = a.norm := rfl
    ext
    · change a.c0 * (a.c0 / a.norm) - a.c1 * (-a.c1 / a.norm) = 1
      field_simp
      linear_combination e
    · change a.c0 * (-a.c1 / a.norm) + a.c1 * (a.c0 / a.norm) = 0
      field_simp
      ring
  inv_zero := by
    change (⟨(0 : Fp2 K).c0 / _, _⟩ : Fp2 K) = 0
    ext <;> simp
  nnqsmul := _
  nnqsmul_def := fun _ _ => rfl
  qsmul := _
  qsmul_def := fun _ _ => rfl

theorem inv_def (a : Fp2 K) : a⁻¹ = ⟨a.c0 / a.norm, -a.c1 / a.norm⟩ := rfl

theorem xi_not_cube (a : Fp2 K) : a ^ 3 ≠ xi := fun h =>
  IsFp.two_not_cube a.norm (by rw [← norm_pow, h, norm_xi])

theorem xi_not_sq (a : Fp2 K) : a ^ 2 ≠ xi := fun h =>
  IsFp.two_not_sq a.norm (by rw [← norm_pow, h, norm_xi])

theorem xi_ne_zero : (xi : Fp2 K) ≠ 0 := fun h => one_ne_zero (congrArg Fp2.c0 h)

end Fp2

namespace Fp6

variable {K : Type} [CommRing K]

/-- Adjugate: `a * adj a = norm a`. -/
def adj (a : Fp6 K) : Fp6 K :=
  ⟨a.c0 ^ 2 - Fp2.xi * (a.c1 * a.c2), Fp2.xi * a.c2 ^ 2 - a.c0 * a.c1, a.c1 ^ 2 - a.c0 * a.c2⟩

/-- Norm to `F_p²`. -/
def norm (a : Fp6 K) : Fp2 K :=
  a.c0 ^ 3 + Fp2.xi * a.c1 ^ 3 + Fp2.xi ^ 2 * a.c2 ^ 3 - 3 * Fp2.xi * (a.c0 * a.c1 * a.c2)

theorem norm_mul (a b : Fp6 K) : (a * b).norm = a.norm * b.norm := by
  simp only [norm, mul_c0, mul_c1, mul_c2]; ring

theorem mul_adj (a : Fp6 K) : a * a.adj = ofFp2 a.norm := by
  ext1 <;> simp only [adj, norm, ofFp2, mul_c0, mul_c1, mul_c2] <;> ring

theorem adj_adj (a : Fp6 K) : a.adj.adj = ofFp2 a.norm * a := by
  ext1 <;> simp only [adj, norm, ofFp2, mul_c0, mul_c1, mul_c2] <;> ring

theorem norm_v : (v : Fp6 K).norm = Fp2.xi := by simp only [norm, v]; ring

end Fp6

namespace Fp6

variable {K : Type} [Field K] [IsFp K]

instance : Inv (Fp6 K) := ⟨fun a => ofFp2 a.norm⁻¹ * a.adj⟩

instance : Nontrivial (Fp6 K) := ⟨0, 1, fun h => zero_ne_one (congrArg Fp6.c0 h)⟩

theorem adj_eq_zero {a : Fp6 K} (h : a.adj = 0) : a = 0 := by
  have h0 := congrArg Fp6.c0 h
  have h1 := congrArg Fp6.c1 h
  have h2 := congrArg Fp6.c2 h
  simp only [adj, zero_c0, zero_c1, zero_c2] at h0 h1 h2
  by_cases hc : a.c2 = 0
  · rw [hc] at h0 h1 h2
    have e1 : a.c1 = 0 := by
      have : a.c1 ^ 2 = 0 := by linear_combination h2
      exact pow_eq_zero_iff (two_ne_zero) |>.1 this
    have e0 : a.c0 = 0 := by
      have : a.c0 ^ 2 = 0 := by linear_combination h0
      exact pow_eq_zero_iff (two_ne_zero) |>.1 this
    ext1 <;> simp [e0, e1, hc]
  · exfalso
    apply Fp2.xi_not_cube (a.c1 / a.c2)
    rw [div_pow, div_eq_iff (pow_ne_zero 3 hc)]
    linear_combination a.c1 * h2 - a.c2 * h1

theorem norm_eq_zero {a : Fp6 K} : a.norm = 0 ↔ a = 0 := by
  constructor
  · intro h
    apply adj_eq_zero
    apply adj_eq_zero
    rw [adj_adj, h]
    ext1 <;> simp [ofFp2]
  · rintro rfl; simp [norm]

instance : Field (Fp6 K) where
  mul_inv_cancel a h := by
    have h0 : a.norm ≠ 0 := fun h' => h (norm_eq_zero.1 h')
    change a * (ofFp2 a.norm⁻¹ * a.adj) = 1
    rw [mul_left_comm, mul_adj]
    ext1 <;> simp [ofFp2, h0]
  inv_zero := by
    change ofFp2 (norm 0)⁻¹ * adj 0 = 0
    have : adj (0 : Fp6 K) = 0 := by ext1 <;> simp [adj]
    rw [this, mul_zero]
  nnqsmul := _
  nnqsmul_def := fun _ _ => rfl
  qsmul := _
  qsmul_def := fun _ _ => rfl

theorem inv_def (a : Fp6 K) : a⁻¹ = ofFp2 a.norm⁻¹ * a.adj := rfl

theorem v_not_sq (a : Fp6 K) : a ^ 2 ≠ v := fun h => Fp2.xi_not_sq a.norm (by
  rw [← norm_v, ← h, sq, sq, norm_mul])

end Fp6

namespace Fp12

variable {K : Type} [CommRing K]

/-- Norm to `F_p⁶`. -/
def norm (a : Fp12 K) : Fp6 K := a.c0 * a.c0 - Fp6.v * (a.c1 * a.c1)

theorem norm_mul (a b : Fp12 K) : (a * b).norm = a.norm * b.norm := by
  simp only [norm, mul_c0, mul_c1]; ring

end Fp12

namespace Fp12

variable {K : Type} [Field K] [IsFp K]

instance : Inv (Fp12 K) := ⟨fun a => ⟨a.c0 / a.norm, -a.c1 / a.norm⟩⟩

instance : Nontrivial (Fp12 K) := ⟨0, 1, fun h => zero_ne_one (congrArg Fp12.c0 h)⟩

theorem norm_eq_zero {a : Fp12 K} : a.norm = 0 ↔ a = 0 := by
  constructor
  · intro h
    by_cases h1 : a.c1 = 0
    · have h0 : a.c0 = 0 := by
        simp only [norm, h1, mul_zero, sub_zero] at h
        exact mul_self_eq_zero.1 h
      ext1 <;> simp [h0, h1]
    · exfalso
      apply Fp6.v_not_sq (a.c0 / a.c1)
      simp only [norm] at h
      rw [div_pow, div_eq_iff (pow_ne_zero 2 h1)]
      linear_combination h
  · rintro rfl; simp [norm]

instance : Field (Fp12 K) where
  mul_inv_cancel a h := by
    have h0 : a.norm ≠ 0 := fun h' => h (norm_eq_zero.1 h')
    have e : a.c0 * a.c0 - Fp6.v * (a.c1 * a.c1) = a.norm := rfl
    ext1
    · change a.c0 * (a.c0 / a.norm) + Fp6.v * (a.c1 * (-a.c1 / a.norm)) = 1
      field_simp
      linear_combination e
    · change a.c0 * (-a.c1 / a.norm) + a.c1 * (a.c0 / a.norm) = 0
      field_simp
      ring
  inv_zero := by
    change (⟨(0 : Fp12 K).c0 / _, _⟩ : Fp12 K) = 0
    ext1 <;> simp
  nnqsmul := _
  nnqsmul_def := fun _ _ => rfl
  qsmul := _
  qsmul_def := fun _ _ => rfl

theorem inv_def (a : Fp12 K) : a⁻¹ = ⟨a.c0 / a.norm, -a.c1 / a.norm⟩ := rfl

end Fp12

end Bls
