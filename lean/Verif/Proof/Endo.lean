import Verif.Proof.Group
import Verif.Proof.Curve

/-! Maps `(x, y) ↦ (u² τ x, u³ τ y)` of `y² = x³ + b` into itself, for a ring endomorphism `τ` with `τ b · u⁶ = b`. -/

namespace Bls

open WeierstrassCurve.Affine

variable {F : Type} [Field F] [DecidableEq F] {b : F}

/-- Data of such a map. -/
structure EndoData (b : F) where
  tau : F →+* F
  u : F
  hu : u ≠ 0
  hb : tau b * u ^ 6 = b

namespace EndoData

variable (D : EndoData b) (hb : GoodCurve b)

omit [DecidableEq F] in
include hb in
theorem map_nonsingular {x y : F} (h : (curve b).Nonsingular x y) :
    (curve b).Nonsingular (D.u ^ 2 * D.tau x) (D.u ^ 3 * D.tau y) := by
  apply hb.nonsingular
  have e := equation_iff.1 h.1
  have e1 := congrArg D.tau e
  simp only [map_pow, map_add, map_mul, map_zero, zero_mul, add_zero] at e1
  have := D.hb
  linear_combination D.u ^ 6 * e1 + this

/-- The map on points. -/
def fn : (curve b).Point → (curve b).Point
  | .zero => .zero
  | .some _ _ h => .some _ _ (D.map_nonsingular hb h)

theorem fn_zero : D.fn hb 0 = 0 := rfl

omit [DecidableEq F] in
theorem tau_ne {x y : F} (h : x ≠ y) : D.tau x ≠ D.tau y := fun h0 => h (D.tau.injective h0)

theorem fn_add (P Q : (curve b).Point) : D.fn hb (P + Q) = D.fn hb P + D.fn hb Q := by
  have hu := D.hu
  match P, Q with
  | .zero, Q =>
    change D.fn hb (0 + Q) = 0 + D.fn hb Q
    rw [zero_add, zero_add]
  | P, .zero =>
    change D.fn hb (P + 0) = D.fn hb P + 0
    rw [add_zero, add_zero]
  | .some x₁ y₁ h₁, .some x₂ y₂ h₂ =>
    by_cases hx : x₁ = x₂
    · subst hx
      by_cases hy : y₁ = -y₂
      · have hy' : y₁ = (curve b).negY x₁ y₂ := by rw [negY_curve]; exact hy
        rw [Point.add_of_Y_eq rfl hy', fn_zero]
        refine (Point.add_of_Y_eq rfl ?_).symm
        rw [negY_curve, hy, map_neg]; ring
      · have hyy : y₁ = y₂ := by
          have e1 := equation_iff.1 h₁.1
          have e2 := equation_iff.1 h₂.1
          have : (y₁ + y₂) * (y₁ - y₂) = 0 := by linear_combination e1 - e2
          rcases mul_eq_zero.1 this with h | h
          · exact absurd (by linear_combination h) hy
          · linear_combination h
        subst hyy
        have h2y : 2 * y₁ ≠ 0 := by
          intro h0
          exact hy (by linear_combination h0)
        have hl : (3 * x₁ ^ 2 / (2 * y₁)) * (2 * y₁) = 3 * x₁ ^ 2 + 0 := by
          rw [div_mul_cancel₀ _ h2y, add_zero]
        generalize 3 * x₁ ^ 2 / (2 * y₁) = l at hl
        have hl' := congrArg D.tau hl
        simp only [map_mul, map_add, map_pow, map_zero, map_ofNat] at hl'
        have h2y' : 2 * (D.u ^ 3 * D.tau y₁) ≠ 0 := by
          have := D.tau_ne h2y
          rw [map_mul, map_zero, map_ofNat] at this
          intro h0
          apply this
          have : D.u ^ 3 * (2 * D.tau y₁) = 0 := by linear_combination h0
          exact (mul_eq_zero.1 this).resolve_left (pow_ne_zero _ hu)
        obtain ⟨n1, k1⟩ := dbl_affine h₁ h2y hl
        obtain ⟨n2, k2⟩ := dbl_affine (D.map_nonsingular hb h₁) (l := D.u * D.tau l) h2y' (by linear_combination D.u ^ 4 * hl')
        rw [k1]
        refine Eq.trans ?_ k2.symm
        change Point.some _ _ _ = _
        congr 1
        · simp only [map_sub, map_pow, map_mul, map_ofNat]; ring
        · simp only [map_sub, map_pow, map_mul, map_ofNat]; ring
    · have hl : ((y₁ - y₂) / (x₁ - x₂)) * (x₁ - x₂) = y₁ - y₂ := div_mul_cancel₀ _ (sub_ne_zero.2 hx)
      generalize (y₁ - y₂) / (x₁ - x₂) = l at hl
      have hl' := congrArg D.tau hl
      simp only [map_mul, map_sub] at hl'
      have hx' : D.u ^ 2 * D.tau x₁ ≠ D.u ^ 2 * D.tau x₂ := fun h0 =>
        D.tau_ne hx (mul_left_cancel₀ (pow_ne_zero _ hu) h0)
      obtain ⟨n1, k1⟩ := add_affine h₁ h₂ hx hl
      obtain ⟨n2, k2⟩ := add_affine (D.map_nonsingular hb h₁) (D.map_nonsingular hb h₂) (l := D.u * D.tau l) hx'
        (by linear_combination D.u ^ 3 * hl')
      rw [k1]
      refine Eq.trans ?_ k2.symm
      change Point.some _ _ _ = _
      congr 1
      · simp only [map_sub, map_pow, map_mul]; ring
      · simp only [map_sub, map_pow, map_mul]; ring

/-- The map as a group homomorphism. -/
def hom : (curve b).Point →+ (curve b).Point where
  toFun := D.fn hb
  map_zero' := D.fn_zero hb
  map_add' := D.fn_add hb

theorem hom_some {x y : F} (h : (curve b).Nonsingular x y) :
    D.hom hb (.some x y h) = .some _ _ (D.map_nonsingular hb h) := rfl

/-- The map on Jacobian coordinates. -/
theorem hom_rep {a : Jac F} {P : (curve b).Point} (h : a.Rep P) :
    (⟨D.u ^ 2 * D.tau a.x, D.u ^ 3 * D.tau a.y, D.tau a.z⟩ : Jac F).Rep (D.hom hb P) := by
  match P, h with
  | .zero, h =>
    change D.tau a.z = 0
    rw [show a.z = 0 from h, map_zero]
  | .some x y hn, h =>
    obtain ⟨h1, h2, h3⟩ := h
    refine ⟨by simpa using h1, ?_, ?_⟩
    · change D.u ^ 2 * D.tau a.x = D.u ^ 2 * D.tau x * D.tau a.z ^ 2
      rw [h2, map_mul, map_pow]; ring
    · change D.u ^ 3 * D.tau a.y = D.u ^ 3 * D.tau y * D.tau a.z ^ 3
      rw [h3, map_mul, map_pow]; ring

end EndoData

/-- For a primitive cube root of unity `w`, the points `(x, y)`, `(wx, y)`, `(w²x, y)` are collinear. -/
theorem cube_root_sum (hb : GoodCurve b) {w : F} (hw : w ^ 2 + w + 1 = 0) (D : EndoData b) (ht : D.tau = RingHom.id F)
    (hu2 : D.u ^ 2 = w) (hu3 : D.u ^ 3 = 1) (P : (curve b).Point) : D.hom hb (D.hom hb P) + D.hom hb P + P = 0 := by
  match P with
  | .zero => rfl
  | .some x y h =>
    rw [D.hom_some, D.hom_some]
    have hy0 : 2 * y ≠ 0 ∨ 2 * y = 0 := by tauto
    have e := equation_iff.1 h.1
    rw [zero_mul, add_zero] at e
    have hx1 : D.u ^ 2 * D.tau x = w * x := by rw [ht, hu2]; rfl
    have hy1 : D.u ^ 3 * D.tau y = y := by rw [ht, hu3, one_mul]; rfl
    have hx2 : D.u ^ 2 * D.tau (D.u ^ 2 * D.tau x) = w ^ 2 * x := by rw [hx1, ht, hu2]; simp; ring
    have hy2 : D.u ^ 3 * D.tau (D.u ^ 3 * D.tau y) = y := by rw [hy1, hy1]
    obtain ⟨n1, k1⟩ := some_congr (h := D.map_nonsingular hb h) hx1 hy1
    obtain ⟨n2, k2⟩ := some_congr (h := D.map_nonsingular hb (D.map_nonsingular hb h)) hx2 hy2
    rw [k1, k2]
    have hw1 : w ≠ 1 := by
      rintro rfl
      exact hb.three (by linear_combination hw)
    by_cases hx : x = 0
    · subst hx
      have hy : 2 * y ≠ 0 := by
        apply mul_ne_zero hb.two
        rintro rfl
        exact hb.const (by linear_combination -e)
      obtain ⟨n3, k3⟩ := some_congr (h := n1) (mul_zero w) (rfl : y = y)
      obtain ⟨n4, k4⟩ := some_congr (h := n2) (mul_zero (w ^ 2)) (rfl : y = y)
      rw [k3, k4]
      obtain ⟨n5, k5⟩ := dbl_affine (l := 0) n4 hy (by ring)
      rw [k5]
      refine Point.add_of_Y_eq (by ring) ?_
      rw [negY_curve]; ring
    · have hne : w ^ 2 * x ≠ w * x := by
        intro h0
        have hw0 : w ≠ 0 := by rintro rfl; exact one_ne_zero (by linear_combination hw : (1 : F) = 0)
        have : w * x * (w - 1) = 0 := by linear_combination h0
        exact hw1 (by linear_combination (mul_eq_zero.1 this).resolve_left (mul_ne_zero hw0 hx))
      obtain ⟨n5, k5⟩ := add_affine (l := 0) n2 n1 hne (by ring)
      rw [k5]
      refine Point.add_of_Y_eq ?_ ?_
      · linear_combination -x * hw
      · rw [negY_curve]; ring

end Bls
