import Verif.Spec.Curve
import Mathlib.SetTheory.Cardinal.Finite
import Mathlib.Tactic.LinearCombination
import Mathlib.Tactic.FieldSimp

/-! Coordinates of sums and doubles on a short Weierstrass curve; a trivial bound on the number of points. -/

namespace Bls

open WeierstrassCurve.Affine

variable {K : Type*} [Field K] {a b : K}

theorem equation_iff {x y : K} : (curveAB a b).Equation x y ↔ y ^ 2 = x ^ 3 + a * x + b := by
  rw [WeierstrassCurve.Affine.equation_iff]
  simp [curveAB]

theorem nonsingular_of {x y : K} (h : y ^ 2 = x ^ 3 + a * x + b) (hy : 2 * y ≠ 0) :
    (curveAB a b).Nonsingular x y := by
  rw [nonsingular_iff', equation_iff]
  refine ⟨h, Or.inr ?_⟩
  simpa [curveAB] using hy

@[simp] theorem negY_curve (x y : K) : (curveAB a b).negY x y = -y := by simp [curveAB, negY]

theorem some_congr {x y x' y' : K} {h : (curveAB a b).Nonsingular x y} (hx : x = x') (hy : y = y') :
    ∃ h' : (curveAB a b).Nonsingular x' y', Point.some x y h = Point.some x' y' h' := by
  subst hx hy; exact ⟨h, rfl⟩

variable [DecidableEq K]

theorem add_affine {x₁ y₁ x₂ y₂ l : K} (h₁ : (curveAB a b).Nonsingular x₁ y₁)
    (h₂ : (curveAB a b).Nonsingular x₂ y₂) (hx : x₁ ≠ x₂) (hl : l * (x₁ - x₂) = y₁ - y₂) :
    ∃ h, Point.some x₁ y₁ h₁ + Point.some x₂ y₂ h₂ =
      Point.some (l ^ 2 - x₁ - x₂) (l * (x₁ - (l ^ 2 - x₁ - x₂)) - y₁) h := by
  rw [Point.add_of_X_ne hx]
  have hs : (curveAB a b).slope x₁ x₂ y₁ y₂ = l := by
    rw [slope_of_X_ne hx, div_eq_iff (sub_ne_zero.2 hx)]
    exact hl.symm
  have hX : (curveAB a b).addX x₁ x₂ l = l ^ 2 - x₁ - x₂ := by simp [curveAB, addX]
  refine some_congr (by rw [hs, hX]) ?_
  rw [hs, addY, negAddY, hX, negY_curve]
  ring

theorem dbl_affine {x y l : K} (h : (curveAB a b).Nonsingular x y) (hy : 2 * y ≠ 0)
    (hl : l * (2 * y) = 3 * x ^ 2 + a) :
    ∃ h', Point.some x y h + Point.some x y h =
      Point.some (l ^ 2 - 2 * x) (l * (x - (l ^ 2 - 2 * x)) - y) h' := by
  have hne : y ≠ (curveAB a b).negY x y := by
    rw [negY_curve]
    intro h0
    apply hy
    linear_combination h0
  rw [Point.add_self_of_Y_ne hne]
  have hs : (curveAB a b).slope x x y y = l := by
    rw [slope_of_Y_ne rfl hne, negY_curve]
    have h2 : y - -y = 2 * y := by ring
    rw [h2, div_eq_iff hy, hl]
    simp [curveAB]
  have hX : (curveAB a b).addX x x l = l ^ 2 - 2 * x := by simp [curveAB, addX]; ring
  refine some_congr (by rw [hs, hX]) ?_
  rw [hs, addY, negAddY, hX, negY_curve]
  ring

omit [DecidableEq K] in
/-- At most two points over every abscissa, and the point at infinity. -/
theorem card_points_le [Finite K] : Finite (curveAB a b).Point ∧
    Nat.card (curveAB a b).Point ≤ 2 * Nat.card K + 1 := by
  classical
  let c : K → K := fun x => if h : ∃ y, (curveAB a b).Nonsingular x y then h.choose else 0
  let f : (curveAB a b).Point → Option (K × Bool)
    | .zero => none
    | .some x y _ => some (x, decide (y = c x))
  have hinj : Function.Injective f := by
    intro P Q h
    match P, Q with
    | .zero, .zero => rfl
    | .zero, .some _ _ _ => simp [f] at h
    | .some _ _ _, .zero => simp [f] at h
    | .some x y hP, .some x' y' hQ =>
      simp only [f, Option.some.injEq, Prod.mk.injEq] at h
      obtain ⟨rfl, h⟩ := h
      have hex : ∃ y, (curveAB a b).Nonsingular x y := ⟨y, hP⟩
      have hc : (curveAB a b).Nonsingular x (c x) := by
        simp only [c, dif_pos hex]; exact hex.choose_spec
      have e0 := equation_iff.1 hc.1
      have e1 := equation_iff.1 hP.1
      have e2 := equation_iff.1 hQ.1
      have : y = y' := by
        by_cases h1 : y = c x
        · have h2 : y' = c x := by simpa [h1] using h
          rw [h1, h2]
        · have h2 : y' ≠ c x := by simpa [h1] using h
          have n1 : (y - c x) * (y + c x) = 0 := by linear_combination e1 - e0
          have n2 : (y' - c x) * (y' + c x) = 0 := by linear_combination e2 - e0
          have m1 := (mul_eq_zero.1 n1).resolve_left (sub_ne_zero.2 h1)
          have m2 := (mul_eq_zero.1 n2).resolve_left (sub_ne_zero.2 h2)
          linear_combination m1 - m2
      subst this
      rfl
  refine ⟨Finite.of_injective f hinj, ?_⟩
  refine (Nat.card_le_card_of_injective f hinj).trans ?_
  rw [Finite.card_option, Nat.card_prod]
  simp [mul_comm]

end Bls
