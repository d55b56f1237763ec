import Verif.Model.Group
import Verif.Spec.Curve
import Mathlib.Algebra.BigOperators.Group.List.Basic

/-!
# Points

What a triple of coordinates stands for: Jacobian coordinates of a point of Mathlib's Weierstrass curve
`y² = x³ + b`.
-/

namespace Bls

/-- The triple `a` represents the point `P`: the point at infinity is any triple with `z = 0`; the affine point
`(x, y)` is any triple `(x z², y z³, z)` with `z ≠ 0`. -/
def Jac.Rep {F : Type} [Field F] {b : F} (a : Jac F) : (curve b).Point → Prop
  | .zero => a.z = 0
  | .some x y _ => a.z ≠ 0 ∧ a.x = x * a.z ^ 2 ∧ a.y = y * a.z ^ 3

/-- The curve constant and the characteristic are such that `y² = x³ + b` is an elliptic curve. -/
structure GoodCurve {F : Type} [Field F] (b : F) : Prop where
  two : (2 : F) ≠ 0
  three : (3 : F) ≠ 0
  const : b ≠ 0

end Bls
