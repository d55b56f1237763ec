import Verif.Spec.GroupCodec

/-!
# A lenient reading of the compressed format

As `IsCompressed1` and `IsCompressed2`, but every string with both top bits set means infinity, and the coordinate that
shares its bytes with the flags may be any number of 381 bits.
-/

namespace Bls

open WeierstrassCurve.Affine

/-- `bs` may be read as the point `P` of `y² = x³ + 4`. -/
def Lenient1 {K : Type} [Field K] (P : E1 K) (bs : List UInt8) : Prop :=
  bs.length = 48 ∧
  match P with
  | .zero => 2 ^ 383 + 2 ^ 382 ≤ beVal bs
  | .some x y _ => ∃ nx ny : ℕ, nx < 2 ^ 381 ∧ ny < p ∧ x = (nx : K) ∧ y = (ny : K) ∧
      beVal bs = 2 ^ 383 + (if larger ny then 2 ^ 381 else 0) + nx

/-- `bs` may be read as the point `P` of `y² = x³ + 4(1+u)`. -/
def Lenient2 {K : Type} [Field K] [IsFp K] (P : E2 K) (bs : List UInt8) : Prop :=
  bs.length = 96 ∧
  match P with
  | .zero => (2 ^ 383 + 2 ^ 382) * 2 ^ 384 ≤ beVal bs
  | .some x y _ => ∃ x0 x1 y0 y1 : ℕ, x0 < p ∧ x1 < 2 ^ 381 ∧ y0 < p ∧ y1 < p ∧
      x = ⟨(x0 : K), (x1 : K)⟩ ∧ y = ⟨(y0 : K), (y1 : K)⟩ ∧
      beVal bs = (2 ^ 383 + (if larger2 y0 y1 then 2 ^ 381 else 0) + x1) * 2 ^ 384 + x0

end Bls
