import Verif.Spec.Params
import Mathlib.Data.ZMod.Basic
import Mathlib.Algebra.Field.ZMod
import Mathlib.Algebra.Polynomial.Eval.Defs
import Mathlib.Algebra.Polynomial.Degree.Defs

/-!
# Shared keys (Shamir's scheme, threshold signatures)
-/

namespace Bls.Shamir
open Polynomial

/-- `sk` is the share at `x` of the polynomial `f`. -/
def IsShare (f : (ZMod q)[X]) (x : ZMod q) (sk : ℕ) : Prop := (sk : ZMod q) = f.eval x

variable [Fact q.Prime]

/-- The factor of the share at `x i` when the shares at `x 0, …, x (n-1)` are put together. -/
noncomputable def weight {n : ℕ} (x : Fin n → ZMod q) (i : Fin n) : ZMod q :=
  ∏ j ∈ Finset.univ.erase i, x j / (x j - x i)

end Bls.Shamir
