import Verif.Spec.Params
import Mathlib.Data.ZMod.Basic
import Mathlib.Algebra.Polynomial.Eval.Defs

/-!
# Polynomial commitments

The polynomial with given coefficients over the integers modulo the group order, and what it means that a value is the one of the
polynomial at a place. Independent of the model.
-/

namespace Bls.Kzg
open Polynomial

/-- The polynomial with the coefficients `a 0, …, a (n - 1)`. -/
noncomputable def poly {n : ℕ} (a : Fin n → ℕ) : (ZMod q)[X] := ∑ k, C (a k : ZMod q) * X ^ (k : ℕ)

/-- `y` is the value of the polynomial at `x`. -/
def HasValue {n : ℕ} (a : Fin n → ℕ) (x y : ℕ) : Prop := (poly a).eval (x : ZMod q) = y

/-- `b` are the coefficients of `(f - f(x)) / (X - x)`. -/
def IsQuotient {n m : ℕ} (a : Fin n → ℕ) (x y : ℕ) (b : Fin m → ℕ) : Prop :=
  poly a - C (y : ZMod q) = (X - C (x : ZMod q)) * poly b

end Bls.Kzg
