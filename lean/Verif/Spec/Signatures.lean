import Verif.Spec.MapToCurve
import Verif.Spec.Hash
import Verif.Spec.Subgroup
import Verif.Spec.Codec

/-!
# Hashing to the second group (RFC 9380, sections 3 and 5.2, suite BLS12381G2_XMD:SHA-256_SSWU_RO_)
-/

namespace Bls.Rfc

variable {K : Type} [Field K]

/-- Section 5.2: component `j` of the elements of `hash_to_field`, counted through (`L = 64`, `m = 2`): the bytes
`64 j … 64 j + 63` as a big-endian number. -/
def fieldComponent (uniform : List UInt8) (j : ℕ) : K := (beVal ((uniform.drop (64 * j)).take 64) : K)

/-- Sections 3 and 5.2: `P` is `hash_to_curve` of the message with the tag `dst`. -/
def IsHash [IsFp K] [DecidableEq K] (H : List UInt8 → List UInt8) (msg dst : List UInt8) (P : E2 K) : Prop :=
  ∃ u, expandMessageXmd H msg dst 256 = some u ∧ ∃ Q0 Q1 : E2 K,
    IsMap2 ⟨fieldComponent u 0, fieldComponent u 1⟩ Q0 ∧ IsMap2 ⟨fieldComponent u 2, fieldComponent u 3⟩ Q1 ∧
    P = hEff2 • (Q0 + Q1)

/-- The ASCII codes of `BLS_SIG_BLS12381G2_XMD:SHA-256_SSWU_RO_NUL_`, the tag of the basic scheme
(draft-irtf-cfrg-bls-signature, section 4.2.1). -/
def sigTag : List UInt8 :=
  [66, 76, 83, 95, 83, 73, 71, 95, 66, 76, 83, 49, 50, 51, 56, 49, 71, 50, 95, 88, 77, 68, 58, 83, 72, 65,
   45, 50, 53, 54, 95, 83, 83, 87, 85, 95, 82, 79, 95, 78, 85, 76, 95]

/-- The ASCII codes of `BLS_POP_BLS12381G2_XMD:SHA-256_SSWU_RO_POP_`, the tag of proofs of possession (section 4.2.3). -/
def popTag : List UInt8 :=
  [66, 76, 83, 95, 80, 79, 80, 95, 66, 76, 83, 49, 50, 51, 56, 49, 71, 50, 95, 88, 77, 68, 58, 83, 72, 65,
   45, 50, 53, 54, 95, 83, 83, 87, 85, 95, 82, 79, 95, 80, 79, 80, 95]

/-- `bs` is `x` and then `y`, each as the 48 little-endian bytes of a number below `p`; zeros for infinity. -/
def IsAffineLE (P : E1 K) (bs : List UInt8) : Prop :=
  bs.length = 96 ∧
  match P with
  | .zero => bs = List.replicate 96 0
  | .some x y _ => CanonicalLE 2 bs ∧ (leVal (chunk bs 0) : K) = x ∧ (leVal (chunk bs 1) : K) = y

end Bls.Rfc
