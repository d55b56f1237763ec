import Verif.Props.Field
import Verif.Proof.WhichRoot

/-!
# C89: which square root
-/

namespace Bls.Props
open Bls

attribute [local irreducible] p

theorem isSquare_iff' {F : Type} [Mul F] (x : F) : (∃ y, y * y = x) ↔ IsSquare x :=
  ⟨fun ⟨y, e⟩ => ⟨y, e.symm⟩, fun ⟨y, e⟩ => ⟨y, e.symm⟩⟩

/-- C89: `fp::sqrt` succeeds with `c` exactly if `c` is the root of the argument that is itself a square. -/
theorem C89_fp (adx : Bool) (x c : FpV adx) :
    ((FpC.sqrt x).2 = true ∧ (FpC.sqrt x).1 = c) ↔ c * c = x ∧ ∃ y, y * y = c := by
  rw [isSquare_iff']
  exact FpC.sqrt_which x c

/-- C89: of two opposite roots exactly one is a square. -/
theorem C89_fp_one (adx : Bool) (c : FpV adx) (h : c ≠ 0) : (∃ y, y * y = c) ↔ ¬ ∃ y, y * y = -c := by
  rw [isSquare_iff', isSquare_iff']
  refine ⟨FpC.neg_not_square h, fun k => ?_⟩
  by_contra hc
  exact k (FpC.neg_square hc)

/-- C89: when `fp::sqrt` fails it leaves the root of the opposite that is not a square. -/
theorem C89_fp_fails (adx : Bool) (x : FpV adx) (h : (FpC.sqrt x).2 = false) :
    (FpC.sqrt x).1 * (FpC.sqrt x).1 = -x ∧ ¬ ∃ y, y * y = (FpC.sqrt x).1 := by
  rw [isSquare_iff']
  exact FpC.sqrt_fails x h

/-- `2` has no root: what is left is a root of `-2`. -/
example (adx : Bool) : (FpC.sqrt (2 : FpV adx)).1 * (FpC.sqrt (2 : FpV adx)).1 = -2 := by
  refine (C89_fp_fails adx 2 ?_).1
  rw [Bool.eq_false_iff, Ne, (C10_sqrt adx 2).1]
  exact fun ⟨y, h⟩ => IsFp.two_not_sq y (by rw [sq, h])

/-- C89: the root of a product is the product of the roots. -/
theorem C89_fp_mul (adx : Bool) (x y : FpV adx) (hx : (FpC.sqrt x).2 = true) (hy : (FpC.sqrt y).2 = true) :
    (FpC.sqrt (x * y)).2 = true ∧ (FpC.sqrt (x * y)).1 = (FpC.sqrt x).1 * (FpC.sqrt y).1 := by
  obtain ⟨h1, a, ha⟩ := (C89_fp adx x _).1 ⟨hx, rfl⟩
  obtain ⟨h2, b, hb⟩ := (C89_fp adx y _).1 ⟨hy, rfl⟩
  refine (C89_fp adx _ _).2 ⟨?_, a * b, ?_⟩
  · rw [mul_mul_mul_comm, h1, h2]
  · rw [mul_mul_mul_comm, ha, hb]

example (adx : Bool) : (FpC.sqrt ((4 : FpV adx) * 9)).1 = (FpC.sqrt (4 : FpV adx)).1 * (FpC.sqrt (9 : FpV adx)).1 :=
  (C89_fp_mul adx 4 9 ((C10_sqrt adx 4).1.2 ⟨2, by norm_num⟩) ((C10_sqrt adx 9).1.2 ⟨3, by norm_num⟩)).2

/-- C89: `fp2::sqrt` succeeds with `c` exactly if `c` is the root of the argument whose first coordinate that is not zero is not a
square. -/
theorem C89_fp2 (adx : Bool) (x c : Fp2 (FpV adx)) : (x.sqrt.2 = true ∧ x.sqrt.1 = c) ↔ c * c = x ∧ FirstNotSquare c :=
  Fp2.sqrt_which x c

/-- C89: of two opposite roots exactly one has this property. -/
theorem C89_fp2_one (adx : Bool) (c : Fp2 (FpV adx)) (h : c ≠ 0) : FirstNotSquare c ↔ ¬ FirstNotSquare (-c) := by
  constructor
  · intro h1 h2
    have e1 := ((C89_fp2 adx (c * c) c).2 ⟨rfl, h1⟩).2
    have e2 := ((C89_fp2 adx (c * c) (-c)).2 ⟨neg_mul_neg c c, h2⟩).2
    have e3 : c = -c := e1.symm.trans e2
    have z : ∀ a : FpV adx, a = -a → a = 0 := fun a ha => by
      have h3 : (2 : FpV adx) * a = 0 := by linear_combination ha
      rcases mul_eq_zero.1 h3 with h3 | h3
      · exact (IsFp.two_not_sq (0 : FpV adx) (by rw [h3]; ring)).elim
      · exact h3
    exact h (Fp2.ext (z _ (congrArg Fp2.c0 e3)) (z _ (congrArg Fp2.c1 e3)))
  · exact fun k => (Fp2.first_or c).resolve_right k

example (adx : Bool) : FirstNotSquare (1 : Fp2 (FpV adx)) ↔ ¬ FirstNotSquare (-1 : Fp2 (FpV adx)) := C89_fp2_one adx 1 one_ne_zero

/-- C89: when `fp2::sqrt` fails on `x` it leaves a root of `x (α - 1) / (α + 1)` with `α = x^((p-1)/2)`. -/
theorem C89_fp2_fails (adx : Bool) (x : Fp2 (FpV adx)) (h : x.sqrt.2 = false) :
    x ^ ((p - 1) / 2) + 1 ≠ 0 ∧ x.sqrt.1 * x.sqrt.1 = x * (x ^ ((p - 1) / 2) - 1) / (x ^ ((p - 1) / 2) + 1) := by
  obtain ⟨h1, h2⟩ := Fp2.sqrt_fails x h
  exact ⟨h1, eq_div_of_mul_eq h1 h2⟩

/-- Successes and failures: `4 = (-2)²` where `-2` is a square and `2` is not; `-1 = u²`; `2` and `1 + u` have no root. -/
example (adx : Bool) : (FpC.sqrt (4 : FpV adx)).2 = true ∧ (FpC.sqrt (4 : FpV adx)).1 = -2 ∧ (FpC.sqrt (2 : FpV adx)).2 = false := by
  have h2 : ¬ ∃ y : FpV adx, y * y = 2 := fun ⟨y, h⟩ => IsFp.two_not_sq y (by rw [sq, h])
  have h0 : (2 : FpV adx) ≠ 0 := fun e => h2 ⟨0, by rw [e]; ring⟩
  have h3 : ∃ y : FpV adx, y * y = -2 := by
    by_contra hc
    exact h2 ((C89_fp_one adx 2 h0).2 hc)
  obtain ⟨e1, e2⟩ := (C89_fp adx 4 (-2)).2 ⟨by norm_num, h3⟩
  exact ⟨e1, e2, by rw [Bool.eq_false_iff, Ne, (C10_sqrt adx 2).1]; exact h2⟩

example (adx : Bool) : (-1 : Fp2 (FpV adx)).sqrt.2 = true ∧ ((⟨1, 1⟩ : Fp2 (FpV adx)).sqrt.2 = false) := by
  refine ⟨((C18_sqrt adx _).1).2 ⟨⟨0, 1⟩, by ext1 <;> simp⟩, ?_⟩
  rw [Bool.eq_false_iff, Ne, (C18_sqrt adx _).1]
  exact fun ⟨y, h⟩ => Fp2.xi_not_sq y (by rw [sq, h]; rfl)

end Bls.Props
