import Verif.Spec.Groups
import Verif.Spec.Point
import Verif.Spec.Bytes

/-!
# The compressed point format

The format of the BLS12-381 standards (zcash, IETF): the big-endian `x` coordinate; the top bit of the string is
set; the next bit marks infinity; the third bit marks the larger of the two possible `y`. The three bits lie above
`x < p < 2^381`, so a string can be described by the number it spells.
-/

namespace Bls

open WeierstrassCurve.Affine

/-- `(p-1)/2 < y`: of `y` and `p - y`, `y` is the larger number. -/
def larger (y : ℕ) : Bool := decide ((p - 1) / 2 < y)

/-- The same order on pairs, the coefficient of `u` first. -/
def larger2 (y0 y1 : ℕ) : Bool := if y1 = 0 then larger y0 else larger y1

/-- `bs` is the compressed form of the point `P` of `y² = x³ + 4`. -/
def IsCompressed1 {K : Type} [Field K] (P : E1 K) (bs : List UInt8) : Prop :=
  bs.length = 48 ∧
  match P with
  | .zero => beVal bs = 2 ^ 383 + 2 ^ 382
  | .some x y _ => ∃ nx ny : ℕ, nx < p ∧ ny < p ∧ x = (nx : K) ∧ y = (ny : K) ∧
      beVal bs = 2 ^ 383 + (if larger ny then 2 ^ 381 else 0) + nx

/-- `bs` is the compressed form of the point `P` of `y² = x³ + 4(1+u)`; the coefficient of `u` comes first. -/
def IsCompressed2 {K : Type} [Field K] [IsFp K] (P : E2 K) (bs : List UInt8) : Prop :=
  bs.length = 96 ∧
  match P with
  | .zero => beVal bs = (2 ^ 383 + 2 ^ 382) * 2 ^ 384
  | .some x y _ => ∃ x0 x1 y0 y1 : ℕ, x0 < p ∧ x1 < p ∧ y0 < p ∧ y1 < p ∧
      x = ⟨(x0 : K), (x1 : K)⟩ ∧ y = ⟨(y0 : K), (y1 : K)⟩ ∧
      beVal bs = (2 ^ 383 + (if larger2 y0 y1 then 2 ^ 381 else 0) + x1) * 2 ^ 384 + x0

/-- The field element meant by the number in the bytes: the residue itself, or the residue whose Montgomery form
it is. -/
noncomputable def coord {K : Type} [Field K] (mont : Bool) (n : ℕ) : K :=
  if mont then (n : K) else (n : K) * ((2 : K) ^ 384)⁻¹

/-- An affine codec for the curve `y² = x³ + b`. `ok` says that the coordinates in a string are canonical and
`cx bs`, `cy bs` are the coordinates; the string of zeros stands for the point at infinity. -/
structure IsAffineCodec {F : Type} [Field F] (b : F) (n : ℕ) (dec : List UInt8 → Option (Jac F))
    (enc : Jac F → List UInt8) (ok : List UInt8 → Prop) (cx cy : List UInt8 → F) : Prop where
  accept : ∀ bs, bs.length = n →
    ((dec bs).isSome ↔ ok bs ∧ ((cx bs = 0 ∧ cy bs = 0) ∨ cy bs ^ 2 = cx bs ^ 3 + b))
  meaning : ∀ bs a, bs.length = n → dec bs = some a → ∃ P : (curve b).Point, a.Rep P ∧
    (P = 0 ↔ cx bs = 0 ∧ cy bs = 0) ∧ (∀ x y h, P = .some x y h → x = cx bs ∧ y = cy bs)
  enc_dec : ∀ bs a, bs.length = n → dec bs = some a → enc a = bs
  dec_enc : ∀ a (P : (curve b).Point), a.Rep P → (enc a).length = n ∧ ∃ a', dec (enc a) = some a' ∧ a'.Rep P

end Bls
