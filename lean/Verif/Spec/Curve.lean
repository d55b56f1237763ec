import Mathlib.AlgebraicGeometry.EllipticCurve.Affine.Point

/-!
# The curves of the specification

Mathlib's group of nonsingular points of a short Weierstrass curve.
-/

namespace Bls

/-- `y² = x³ + a x + b`. -/
def curveAB {K : Type*} [Field K] (a b : K) : WeierstrassCurve.Affine K := ⟨0, 0, 0, a, b⟩

/-- `y² = x³ + b`. -/
abbrev curve {K : Type*} [Field K] (b : K) : WeierstrassCurve.Affine K := curveAB 0 b

end Bls
