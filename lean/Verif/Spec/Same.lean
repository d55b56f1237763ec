import Verif.Spec.Groups
import Verif.Spec.Point

/-! # Two triples for one point -/

namespace Bls

/-- `a` and `a'` are Jacobian coordinates of the same point of `y² = x³ + 4`. -/
def Same1 {K : Type} [Field K] (a a' : Jac K) : Prop := ∃ P : E1 K, a.Rep P ∧ a'.Rep P

/-- `a` and `a'` are Jacobian coordinates of the same point of `y² = x³ + 4(1+u)`. -/
def Same2 {K : Type} [Field K] [IsFp K] (a a' : Jac (Fp2 K)) : Prop := ∃ P : E2 K, a.Rep P ∧ a'.Rep P

end Bls
