import Verif.Spec.MapToCurve
import Verif.Spec.Bytes
import Verif.Spec.Subgroup
import Verif.Proof.Groups

/-!
# The precompiled contracts of EIP-2537

Seven functions from byte strings to byte strings, as relations between input and output; an input that is related to no
output is an error. Field elements are 64 big-endian bytes, elements of the quadratic extension have the coefficient of `1`
first, points are two coordinates, and the point at infinity is written as zeros.
-/

namespace Bls.Eip2537

variable {K : Type} [Field K]

/-- The `n` bytes from byte `i` on. -/
def part (bs : List UInt8) (i n : ℕ) : List UInt8 := (bs.drop i).take n

/-- "Field element encoding": 64 bytes, big-endian, below the prime. -/
def IsField (bs : List UInt8) (x : K) : Prop := bs.length = 64 ∧ beVal bs < p ∧ x = (beVal bs : K)

/-- "For elements of the quadratic extension field encoding is byte concatenation of individual encodings of the
coefficients `encode(c0) || encode(c1)`." -/
def IsField2 (bs : List UInt8) (x : Fp2 K) : Prop :=
  bs.length = 128 ∧ IsField (part bs 0 64) x.c0 ∧ IsField (part bs 64 64) x.c1

/-- "G1 point encoding": 128 bytes, `x` and `y`; zeros for the point at infinity. -/
def IsPoint1 (bs : List UInt8) : E1 K → Prop
  | .zero => bs = List.replicate 128 0
  | .some x y _ => bs.length = 128 ∧ IsField (part bs 0 64) x ∧ IsField (part bs 64 64) y

/-- "G2 point encoding": 256 bytes. -/
def IsPoint2 [IsFp K] (bs : List UInt8) : E2 K → Prop
  | .zero => bs = List.replicate 256 0
  | .some x y _ => bs.length = 256 ∧ IsField2 (part bs 0 128) x ∧ IsField2 (part bs 128 128) y

variable (K) [DecidableEq K]

/-- `BLS12_G1ADD`: two points of the curve, no subgroup check; their sum. -/
def IsG1Add (inp out : List UInt8) : Prop :=
  inp.length = 256 ∧ ∃ P Q : E1 K, IsPoint1 (part inp 0 128) P ∧ IsPoint1 (part inp 128 128) Q ∧ IsPoint1 out (P + Q)

/-- `BLS12_G2ADD`. -/
def IsG2Add [IsFp K] (inp out : List UInt8) : Prop :=
  inp.length = 512 ∧ ∃ P Q : E2 K, IsPoint2 (part inp 0 256) P ∧ IsPoint2 (part inp 256 256) Q ∧ IsPoint2 out (P + Q)

/-- `BLS12_G1MSM`: at least one point of the subgroup, each with a scalar of 32 big-endian bytes, which may exceed the group
order; the sum of the multiples. -/
def IsG1Msm (inp out : List UInt8) : Prop :=
  ∃ k > 0, inp.length = 160 * k ∧ ∃ P : ℕ → E1 K,
    (∀ i < k, IsPoint1 (part inp (160 * i) 128) (P i) ∧ q • P i = 0) ∧
    IsPoint1 out ((List.range k).map fun i => beVal (part inp (160 * i + 128) 32) • P i).sum

/-- `BLS12_G2MSM`. -/
def IsG2Msm [IsFp K] (inp out : List UInt8) : Prop :=
  ∃ k > 0, inp.length = 288 * k ∧ ∃ P : ℕ → E2 K,
    (∀ i < k, IsPoint2 (part inp (288 * i) 256) (P i) ∧ q • P i = 0) ∧
    IsPoint2 out ((List.range k).map fun i => beVal (part inp (288 * i + 256) 32) • P i).sum

/-- `BLS12_PAIRING_CHECK`: at least one pair of points of the two subgroups; 32 bytes for the number 1 if the product of the
pairings is one, and for the number 0 if not. The points of the subgroups are the multiples of the generators, and for
every pairing of the subgroups the product is one exactly if the order divides the sum of the products of the multiples. -/
def IsPairingCheck [IsFp K] (inp out : List UInt8) : Prop :=
  ∃ k > 0, inp.length = 384 * k ∧ ∃ a b : ℕ → ℕ,
    (∀ i < k, IsPoint1 (part inp (384 * i) 128) (a i • gen1 K) ∧ IsPoint2 (part inp (384 * i + 128) 256) (b i • gen2 K)) ∧
    out.length = 32 ∧ beVal out = if q ∣ ((List.range k).map fun i => a i * b i).sum then 1 else 0

/-- `BLS12_MAP_FP_TO_G1`: the map of RFC 9380 to the curve and into the subgroup. -/
def IsMapFpToG1 (inp out : List UInt8) : Prop :=
  ∃ (u : K) (P : E1 K), IsField inp u ∧ Rfc.IsMap1 u P ∧ IsPoint1 out (hEff1 • P)

/-- `BLS12_MAP_FP2_TO_G2`. -/
def IsMapFp2ToG2 [IsFp K] (inp out : List UInt8) : Prop :=
  ∃ (u : Fp2 K) (P : E2 K), IsField2 inp u ∧ Rfc.IsMap2 u P ∧ IsPoint2 out (hEff2 • P)

end Bls.Eip2537
