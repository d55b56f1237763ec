import Mathlib.AlgebraicGeometry.EllipticCurve.Affine.Point
import Mathlib.Tactic.LinearCombination

/-!
# Lines through points as elements of the coordinate ring

The divisor of the line through two points, as an identity of ideals, and the consequence that lines form a
symmetric cocycle up to vertical lines and constants.
-/

namespace Bls.Chord

open WeierstrassCurve.Affine CoordinateRing Polynomial Ideal
open scoped Polynomial.Bivariate

variable {F : Type*} [Field F] {W : WeierstrassCurve.Affine F}

/-- The ideal of functions vanishing at a point. -/
noncomputable def ptIdeal : W.Point → Ideal W.CoordinateRing
  | .zero => ⊤
  | .some x y _ => XYIdeal W x (C y)

/-- The vertical line through a point; `1` at infinity. -/
noncomputable def vert : W.Point → W.CoordinateRing
  | .zero => 1
  | .some x _ _ => XClass W x

theorem vert_ne_zero (P : W.Point) : vert P ≠ 0 := by
  cases P with
  | zero => exact one_ne_zero
  | some x y h => exact XClass_ne_zero x

theorem ptIdeal_neg_mul (P : W.Point) : ptIdeal (-P) * ptIdeal P = span {vert P} := by
  cases P with
  | zero =>
    show (⊤ : Ideal W.CoordinateRing) * ⊤ = span {1}
    rw [Ideal.mul_top, Ideal.span_singleton_one]
  | some x y h => exact XYIdeal_neg_mul h

theorem span_cancel {v : W.CoordinateRing} (hv : v ≠ 0) {I J : Ideal W.CoordinateRing}
    (h : span {v} * I = span {v} * J) : I = J := (Ideal.span_singleton_mul_right_inj hv).1 h

theorem ptIdeal_cancel (P : W.Point) {I J : Ideal W.CoordinateRing} (h : I * ptIdeal P = J * ptIdeal P) : I = J := by
  refine span_cancel (vert_ne_zero P) ?_
  rw [← ptIdeal_neg_mul, mul_assoc, mul_assoc, mul_comm (ptIdeal P), mul_comm (ptIdeal P), h]

/-- A unit of the coordinate ring is a constant. -/
theorem unit_const {u : W.CoordinateRing} (hu : IsUnit u) : ∃ c : F, c ≠ 0 ∧ u = mk W (C (C c)) := by
  obtain ⟨a, b, rfl⟩ := exists_smul_basis_eq u
  have h1 : IsUnit (Algebra.norm F[X] (a • (1 : W.CoordinateRing) + b • mk W Y)) := hu.map _
  have h2 := degree_eq_zero_of_isUnit h1
  rw [degree_norm_smul_basis] at h2
  have hb : b = 0 := by
    by_contra hb
    have h3 : (2 • b.degree + 3 : WithBot ℕ) ≤ 0 := h2 ▸ le_max_right _ _
    rw [degree_eq_natDegree hb] at h3
    rw [nsmul_eq_mul] at h3
    have h4 : (2 * b.natDegree + 3 : ℕ) ≤ 0 := by exact_mod_cast h3
    omega
  subst hb
  have ha : a.degree = 0 := by
    have h3 : max (2 • a.degree) (2 • (⊥ : WithBot ℕ) + 3) = 0 := by simpa using h2
    rcases ha : a.degree with _ | n
    · rw [ha] at h3
      exact absurd h3 (by decide)
    · rw [ha] at h3
      have h4 : max (2 • (n : WithBot ℕ)) ⊥ = 0 := h3
      rw [max_bot_right] at h4
      rw [nsmul_eq_mul] at h4
      have h5 : (2 * n : ℕ) = 0 := by exact_mod_cast h4
      have : n = 0 := by omega
      rw [this]; rfl
  obtain ⟨c, rfl⟩ : ∃ c, a = C c := ⟨a.coeff 0, eq_C_of_degree_eq_zero ha⟩
  refine ⟨c, ?_, ?_⟩
  · rintro rfl
    simp at ha
  · rw [zero_smul, add_zero, CoordinateRing.smul, mul_one]

theorem associated {a b : W.CoordinateRing} (h : span {a} = span {b}) : ∃ c : F, c ≠ 0 ∧ a = mk W (C (C c)) * b := by
  obtain ⟨u, hu⟩ := Ideal.span_singleton_eq_span_singleton.1 h.symm
  obtain ⟨c, hc, e⟩ := unit_const u.isUnit
  exact ⟨c, hc, by rw [← e, ← hu, mul_comm]⟩

variable [DecidableEq F]

/-- The line through two points: the vertical line when one of them is at infinity or they are opposite, the tangent
when they are equal. -/
noncomputable def chord : W.Point → W.Point → W.CoordinateRing
  | .zero, Q => vert Q
  | .some x y _, .zero => XClass W x
  | .some x₁ y₁ _, .some x₂ y₂ _ =>
    if x₁ = x₂ ∧ y₁ = W.negY x₂ y₂ then XClass W x₁ else YClass W (linePolynomial x₁ y₁ (W.slope x₁ x₂ y₁ y₂))

/-- The divisor of a line: `(P) + (Q) + (-(P+Q)) - 3(O)`. -/
theorem chord_ideal (P Q : W.Point) :
    ptIdeal P * ptIdeal Q * span {vert (P + Q)} = span {chord P Q} * ptIdeal (P + Q) := by
  match P, Q with
  | .zero, Q =>
    show ⊤ * ptIdeal Q * span {vert (0 + Q)} = span {vert Q} * ptIdeal (0 + Q)
    rw [zero_add, Ideal.top_mul, mul_comm]
  | .some x y h, .zero =>
    show XYIdeal W x (C y) * ⊤ * span {vert (Point.some x y h + 0)} = span {XClass W x} * ptIdeal (Point.some x y h + 0)
    rw [add_zero, Ideal.mul_top, mul_comm]
    rfl
  | .some x₁ y₁ h₁, .some x₂ y₂ h₂ =>
    by_cases hxy : x₁ = x₂ ∧ y₁ = W.negY x₂ y₂
    · rw [Point.add_of_Y_eq hxy.1 hxy.2, chord, if_pos hxy]
      obtain ⟨rfl, rfl⟩ := hxy
      show XYIdeal W x₁ (C (W.negY x₁ y₂)) * XYIdeal W x₁ (C y₂) * span {1} = span {XClass W x₁} * ⊤
      rw [Ideal.span_singleton_one, Ideal.mul_top, Ideal.mul_top, XYIdeal_neg_mul h₂]
      rfl
    · rw [Point.add_some hxy, chord, if_neg hxy]
      have := XYIdeal_mul_XYIdeal h₁.1 h₂.1 hxy
      rw [mul_comm] at this
      exact this

theorem chord_comm (P Q : W.Point) : ∃ c : F, c ≠ 0 ∧ chord P Q = mk W (C (C c)) * chord Q P := by
  refine associated (ptIdeal_cancel (P + Q) ?_)
  rw [← chord_ideal, mul_comm (ptIdeal P), add_comm P Q, ← chord_ideal]

/-- The cocycle identity. -/
theorem chord_cocycle (P Q R : W.Point) : ∃ c : F, c ≠ 0 ∧
    chord P Q * chord (P + Q) R * vert (Q + R) = mk W (C (C c)) * (chord Q R * chord P (Q + R) * vert (P + Q)) := by
  have key : ∀ P Q R : W.Point, span {chord P Q * chord (P + Q) R} * ptIdeal (P + Q + R) =
      ptIdeal P * ptIdeal Q * ptIdeal R * span {vert (P + Q)} * span {vert (P + Q + R)} := by
    intro P Q R
    refine ptIdeal_cancel (P + Q) ?_
    have h1 := chord_ideal P Q
    have h2 := chord_ideal (P + Q) R
    rw [← Ideal.span_singleton_mul_span_singleton]
    calc span {chord P Q} * span {chord (P + Q) R} * ptIdeal (P + Q + R) * ptIdeal (P + Q)
        = (span {chord P Q} * ptIdeal (P + Q)) * (span {chord (P + Q) R} * ptIdeal (P + Q + R)) := by ring
      _ = _ := by rw [← h1, ← h2]; ring
  refine associated (ptIdeal_cancel (P + Q + R) ?_)
  have h1 := key P Q R
  have h2 := key Q R P
  rw [show Q + R + P = P + Q + R by rw [add_comm, add_assoc]] at h2
  have h3 : span {chord (Q + R) P} = span {chord P (Q + R)} := by
    refine ptIdeal_cancel (P + (Q + R)) ?_
    rw [← chord_ideal, mul_comm (ptIdeal P), add_comm P (Q + R), ← chord_ideal]
  rw [← Ideal.span_singleton_mul_span_singleton, h3] at h2
  rw [← Ideal.span_singleton_mul_span_singleton] at h1
  simp only [← Ideal.span_singleton_mul_span_singleton]
  calc span {chord P Q} * span {chord (P + Q) R} * span {vert (Q + R)} * ptIdeal (P + Q + R)
      = span {vert (Q + R)} * (span {chord P Q} * span {chord (P + Q) R} * ptIdeal (P + Q + R)) := by ring
    _ = span {vert (P + Q)} * (span {chord Q R} * span {chord P (Q + R)} * ptIdeal (P + Q + R)) := by
        rw [h1, h2]; ring
    _ = _ := by ring

end Bls.Chord
