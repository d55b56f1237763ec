import Verif.Proof.Groups
import Verif.Proof.FpV

/-!
# C22-C25: the group operations of `g1` and `g2`

`a.Rep P` (`Spec/Point.lean`): the triple of coordinates `a` stands for the point `P` of Mathlib's group
`WeierstrassCurve.Affine.Point` of `y² = x³ + 4` (`E1`) or `y² = x³ + 4(1+u)` (`E2`). Coordinates are canonical
`fp` values by type (`FpV`).
-/

namespace Bls.Props
open Bls

variable (adx : Bool)

/-! ## C22 -/

/-- C22: addition, doubling, opposite and difference, for every pair of points and every choice of Jacobian
coordinates, on both curves. -/
theorem C22_group_law :
    (∀ (a e : G1 (FpV adx)) (P Q : E1 (FpV adx)), a.Rep P → e.Rep Q →
      (a.add e).Rep (P + Q) ∧ a.dbl.Rep (2 • P) ∧ a.negate.Rep (-P) ∧ (a.subtract e).Rep (P - Q)) ∧
    (∀ (a e : G2 (FpV adx)) (P Q : E2 (FpV adx)), a.Rep P → e.Rep Q →
      (a.add e).Rep (P + Q) ∧ a.dbl.Rep (2 • P) ∧ a.negate.Rep (-P) ∧ (a.subtract e).Rep (P - Q)) := by
  constructor
  · intro a e P Q ha he
    rw [two_nsmul]
    exact ⟨Jac.add_rep (goodCurve1 _) ha he, Jac.dbl_rep ha, Jac.neg_rep ha, Jac.sub_rep (goodCurve1 _) ha he⟩
  · intro a e P Q ha he
    rw [two_nsmul]
    exact ⟨Jac.add_rep (goodCurve2 _) ha he, Jac.dbl_rep ha, Jac.neg_rep ha, Jac.sub_rep (goodCurve2 _) ha he⟩

/-- C22: the constants `zero()` and `one()` are the neutral element and the generators of the standard, and
every point has coordinates. -/
theorem C22_constants :
    (Jac.zero : G1 (FpV adx)).Rep (0 : E1 (FpV adx)) ∧ (Jac.zero : G2 (FpV adx)).Rep (0 : E2 (FpV adx)) ∧
    (G1.one : G1 (FpV adx)).Rep (gen1 (FpV adx)) ∧ (G2.one : G2 (FpV adx)).Rep (gen2 (FpV adx)) ∧
    (∀ P : E1 (FpV adx), ∃ a : G1 (FpV adx), a.Rep P) ∧ (∀ P : E2 (FpV adx), ∃ a : G2 (FpV adx), a.Rep P) :=
  ⟨Jac.zero_rep, Jac.zero_rep, G1.one_rep, G2.one_rep, Jac.exists_rep, Jac.exists_rep⟩

example : ∃ P : E1 (FpV adx), (G1.one : G1 (FpV adx)).Rep P ∧ P ≠ 0 := ⟨gen1 _, G1.one_rep, gen1_ne_zero _⟩
example : ∃ P : E2 (FpV adx), (G2.one : G2 (FpV adx)).Rep P ∧ P ≠ 0 := ⟨gen2 _, G2.one_rep, gen2_ne_zero _⟩

/-! ## C23 -/

/-- C23: `equal` decides equality of the represented points, whatever the coordinates. -/
theorem C23_equal :
    (∀ (a e : G1 (FpV adx)) (P Q : E1 (FpV adx)), a.Rep P → e.Rep Q → (a.equal e = true ↔ P = Q)) ∧
    (∀ (a e : G2 (FpV adx)) (P Q : E2 (FpV adx)), a.Rep P → e.Rep Q → (a.equal e = true ↔ P = Q)) :=
  ⟨fun _ _ _ _ => Jac.equal_iff, fun _ _ _ _ => Jac.equal_iff⟩

/-- C23: `isOnCurve` is true exactly for the triples that stand for a point, and the point is unique. -/
theorem C23_isOnCurve :
    (∀ a : G1 (FpV adx), a.isOnCurve FpC.B = true ↔ ∃! P : E1 (FpV adx), a.Rep P) ∧
    (∀ a : G2 (FpV adx), a.isOnCurve Fp2.B = true ↔ ∃! P : E2 (FpV adx), a.Rep P) := by
  constructor
  · intro a
    rw [FpC.B_eq, Jac.isOnCurve_iff (goodCurve1 _)]
    exact ⟨fun ⟨P, h⟩ => ⟨P, h, fun Q h' => Jac.Rep.unique h' h⟩, fun h => h.exists⟩
  · intro a
    rw [Fp2.B_eq, Jac.isOnCurve_iff (goodCurve2 _)]
    exact ⟨fun ⟨P, h⟩ => ⟨P, h, fun Q h' => Jac.Rep.unique h' h⟩, fun h => h.exists⟩

/-- C23: `affine` stands for the same point; for a finite point `(x, y)` it is the triple `(x, y, 1)`. -/
theorem C23_affine :
    (∀ (a : G1 (FpV adx)) (P : E1 (FpV adx)), a.Rep P → a.affine.Rep P) ∧
    (∀ (a : G2 (FpV adx)) (P : E2 (FpV adx)), a.Rep P → a.affine.Rep P) ∧
    (∀ (a : G1 (FpV adx)) (x y : FpV adx) (h : (curve (4 : FpV adx)).Nonsingular x y),
      a.Rep (.some x y h) → a.affine = ⟨x, y, 1⟩) ∧
    (∀ (a : G2 (FpV adx)) (x y : Fp2 (FpV adx)) (h : (curve (4 * Fp2.xi : Fp2 (FpV adx))).Nonsingular x y),
      a.Rep (.some x y h) → a.affine = ⟨x, y, 1⟩) :=
  ⟨fun _ _ => Jac.affine_rep, fun _ _ => Jac.affine_rep, fun _ _ _ _ => Jac.affine_some,
    fun _ _ _ _ => Jac.affine_some⟩

/-- Different triples for the same finite point: the hypotheses of `C23_equal` hold with `a ≠ e`. -/
example : ∃ (a e : G1 (FpV adx)) (P : E1 (FpV adx)), a ≠ e ∧ P ≠ 0 ∧ a.Rep P ∧ e.Rep P :=
  Jac.two_reps (goodCurve1 _) (gen1 _) (gen1_ne_zero _)

/-! ## C24 -/

/-- C24: `scale` is multiplication by the integer of the word array, of any length. -/
theorem C24_scale :
    (∀ (a : G1 (FpV adx)) (P : E1 (FpV adx)) (s : List UInt64), a.Rep P → (a.scale s).Rep (wordsVal s • P)) ∧
    (∀ (a : G2 (FpV adx)) (P : E2 (FpV adx)) (s : List UInt64), a.Rep P → (a.scale s).Rep (wordsVal s • P)) :=
  ⟨fun _ _ s h => Jac.scale_rep (goodCurve1 _) h s, fun _ _ s h => Jac.scale_rep (goodCurve2 _) h s⟩

example : (G1.one : G1 (FpV adx)).Rep (gen1 (FpV adx)) ∧ wordsVal [0, 0, 0, 0, 3] = 3 * 2 ^ 256 :=
  ⟨G1.one_rep, by decide +kernel⟩

/-! ## C25 -/

/-- C25: `weightedSum` is `Σ eᵢ Pᵢ` over the common prefix of the two lists. -/
theorem C25_weightedSum (scalars : List (List UInt64)) (hs : ∀ s ∈ scalars, s.length = 4) :
    (∀ (points : List (G1 (FpV adx))) (Ps : List (E1 (FpV adx))), List.Forall₂ Jac.Rep points Ps →
      (Jac.weightedSum points scalars).Rep ((Ps.zip scalars).map fun e => wordsVal e.2 • e.1).sum) ∧
    (∀ (points : List (G2 (FpV adx))) (Ps : List (E2 (FpV adx))), List.Forall₂ Jac.Rep points Ps →
      (Jac.weightedSum points scalars).Rep ((Ps.zip scalars).map fun e => wordsVal e.2 • e.1).sum) :=
  ⟨fun _ _ h => Jac.weightedSum_rep (goodCurve1 _) h scalars hs,
    fun _ _ h => Jac.weightedSum_rep (goodCurve2 _) h scalars hs⟩

/-- The generator and infinity with the scalars 3 and `2^192`. -/
example : (Jac.weightedSum [(G1.one : G1 (FpV adx)), Jac.zero] [[3, 0, 0, 0], [0, 0, 0, 1]]).Rep (3 • gen1 (FpV adx)) := by
  have h := (C25_weightedSum (adx := adx) [[3, 0, 0, 0], [0, 0, 0, 1]] (by decide)).1 [G1.one, Jac.zero] [gen1 (FpV adx), 0]
    (.cons G1.one_rep (.cons Jac.zero_rep .nil))
  generalize gen1 (FpV adx) = P at h ⊢
  have e : (([P, 0].zip [[3, 0, 0, 0], [0, 0, 0, 1]]).map fun e => wordsVal e.2 • e.1).sum = 3 • P := by
    rw [List.zip_cons_cons, List.zip_cons_cons, List.zip_nil_left, List.map_cons, List.map_cons, List.map_nil, List.sum_cons,
      List.sum_cons, List.sum_nil, nsmul_zero, add_zero, add_zero]
    rfl
  exact e ▸ h

/-- Bucket indices stay inside the bucket array and the shift count stays below 256, for every window that is
processed. -/
theorem C25_bounds (n j : Nat) (s : List UInt64) (hj : j < 255 / Jac.windowBits n + 1) :
    Jac.windowIndex (Jac.windowBits n) j s ≤ 2 ^ Jac.windowBits n - 1 ∧ Jac.windowBits n * j < 256 ∧
    2 ^ Jac.windowBits n < 2 ^ 31 := by
  have h := Jac.windowIndex_lt (Jac.windowBits_le n) j s
  have h2 := Jac.windowBits_le n
  refine ⟨by omega, ?_, Nat.pow_lt_pow_right (by norm_num) (by omega)⟩
  have h3 := Nat.mul_div_le 255 (Jac.windowBits n)
  have h4 : Jac.windowBits n * j ≤ Jac.windowBits n * (255 / Jac.windowBits n) :=
    Nat.mul_le_mul_left _ (by omega)
  omega

example : List.Forall₂ Jac.Rep [(G1.one : G1 (FpV adx)), G1.one] [gen1 (FpV adx), gen1 (FpV adx)] ∧
    (∀ s ∈ [[1, 2, 3, 4], [5, 6, 7, (8 : UInt64)]], s.length = 4) :=
  ⟨.cons G1.one_rep (.cons G1.one_rep .nil), by simp⟩

end Bls.Props
