import Verif.Props.GroupCodec

/-!
# C26: the decoders without the on-curve check, in the other byte order and for `g2`

`C26_unchecked` (`Props/GroupCodec.lean`) is about `g1` and big-endian strings.
-/

namespace Bls.Props
open Bls

variable (adx : Bool)

/-- C26, without the check, little-endian `g1`: canonical coordinates are taken over as they are, other strings are
rejected. -/
theorem C26_unchecked_le (mont : Bool) (bs : List UInt8) :
    (bs.length = 144 → Jac.fromJacobianBytes 48 (FpV.fromBytesLE adx mont) FpC.B false bs =
      if leVal (chunk bs 0) < p ∧ leVal (chunk bs 1) < p ∧ leVal (chunk bs 2) < p then
        some ⟨coord mont (leVal (chunk bs 0)), coord mont (leVal (chunk bs 1)), coord mont (leVal (chunk bs 2))⟩
      else none) ∧
    (bs.length = 96 → Jac.fromAffineBytes 48 (FpV.fromBytesLE adx mont) FpC.B false bs =
      if leVal (chunk bs 0) < p ∧ leVal (chunk bs 1) < p then
        if coord mont (leVal (chunk bs 0)) = (0 : FpV adx) ∧ coord mont (leVal (chunk bs 1)) = (0 : FpV adx) then
          some ⟨0, 1, 0⟩
        else some ⟨coord mont (leVal (chunk bs 0)), coord mont (leVal (chunk bs 1)), 1⟩
      else none) :=
  ⟨fun hl => (coord1LE mont).jacobian_unchecked _ bs hl, fun hl => (coord1LE mont).affine_unchecked _ bs hl⟩

/-- The point `(1, 0)`, which is not on the curve, is accepted. -/
example (mont : Bool) : Jac.fromAffineBytes 48 (FpV.fromBytesLE adx mont) FpC.B false (1 :: List.replicate 95 0) =
    some ⟨coord mont 1, coord mont 0, 1⟩ := by
  have h0 : leVal (chunk ((1 : UInt8) :: List.replicate 95 0) 0) = 1 := by decide +kernel
  have h1 : leVal (chunk ((1 : UInt8) :: List.replicate 95 0) 1) = 0 := by decide +kernel
  rw [(C26_unchecked_le adx mont _).2 rfl, h0, h1, if_pos ⟨by decide +kernel, by decide +kernel⟩, if_neg]
  rintro ⟨h, -⟩
  cases mont with
  | true => exact one_ne_zero ((Nat.cast_one (R := FpV adx)).symm.trans h)
  | false =>
    have h : ((1 : ℕ) : FpV adx) * ((2 : FpV adx) ^ 384)⁻¹ = 0 := h
    rw [Nat.cast_one, one_mul, inv_eq_zero] at h
    exact (goodCurve1 (FpV adx)).two (pow_eq_zero_iff (by decide) |>.1 h)

/-- C26, without the check, Jacobian `g2`. -/
theorem C26_unchecked_jacobian_g2 (mont : Bool) (bs : List UInt8) (hl : bs.length = 288) :
    (CanonicalBE 6 bs → Jac.fromJacobianBytes 96 (Fp2.fromBytesBE (FpV.fromBytesBE adx mont)) Fp2.B false bs = some
      ⟨⟨coord mont (beVal (chunk bs 1)), coord mont (beVal (chunk bs 0))⟩,
       ⟨coord mont (beVal (chunk bs 3)), coord mont (beVal (chunk bs 2))⟩,
       ⟨coord mont (beVal (chunk bs 5)), coord mont (beVal (chunk bs 4))⟩⟩) ∧
    (¬ CanonicalBE 6 bs → Jac.fromJacobianBytes 96 (Fp2.fromBytesBE (FpV.fromBytesBE adx mont)) Fp2.B false bs = none) ∧
    (CanonicalLE 6 bs → Jac.fromJacobianBytes 96 (Fp2.fromBytesLE (FpV.fromBytesLE adx mont)) Fp2.B false bs = some
      ⟨⟨coord mont (leVal (chunk bs 0)), coord mont (leVal (chunk bs 1))⟩,
       ⟨coord mont (leVal (chunk bs 2)), coord mont (leVal (chunk bs 3))⟩,
       ⟨coord mont (leVal (chunk bs 4)), coord mont (leVal (chunk bs 5))⟩⟩) ∧
    (¬ CanonicalLE 6 bs → Jac.fromJacobianBytes 96 (Fp2.fromBytesLE (FpV.fromBytesLE adx mont)) Fp2.B false bs = none) := by
  classical
  have h := (coord2BE (adx := adx) mont).jacobian_unchecked Fp2.B bs hl
  have h' := (coord2LE (adx := adx) mont).jacobian_unchecked Fp2.B bs hl
  refine ⟨fun hc => ?_, fun hc => ?_, fun hc => ?_, fun hc => ?_⟩
  · refine (h.trans (if_pos (canonical_six.1 hc))).trans ?_
    simp only [Nat.reduceMul, pos0, pos0', pos1, pos1', pos2, pos2']
  · exact h.trans (if_neg fun hh => hc (canonical_six.2 hh))
  · refine (h'.trans (if_pos (canonical_six.1 hc))).trans ?_
    simp only [Nat.reduceMul, pos0, pos0', pos1, pos1', pos2, pos2']
  · exact h'.trans (if_neg fun hh => hc (canonical_six.2 hh))

/-- C26, without the check, affine `g2`. -/
theorem C26_unchecked_affine_g2 (mont : Bool) (bs : List UInt8) (hl : bs.length = 192) :
    (CanonicalBE 4 bs → Jac.fromAffineBytes 96 (Fp2.fromBytesBE (FpV.fromBytesBE adx mont)) Fp2.B false bs =
      if (⟨coord mont (beVal (chunk bs 1)), coord mont (beVal (chunk bs 0))⟩ : Fp2 (FpV adx)) = 0 ∧
          (⟨coord mont (beVal (chunk bs 3)), coord mont (beVal (chunk bs 2))⟩ : Fp2 (FpV adx)) = 0 then some ⟨0, 1, 0⟩
      else some ⟨⟨coord mont (beVal (chunk bs 1)), coord mont (beVal (chunk bs 0))⟩,
        ⟨coord mont (beVal (chunk bs 3)), coord mont (beVal (chunk bs 2))⟩, 1⟩) ∧
    (¬ CanonicalBE 4 bs → Jac.fromAffineBytes 96 (Fp2.fromBytesBE (FpV.fromBytesBE adx mont)) Fp2.B false bs = none) ∧
    (CanonicalLE 4 bs → Jac.fromAffineBytes 96 (Fp2.fromBytesLE (FpV.fromBytesLE adx mont)) Fp2.B false bs =
      if (⟨coord mont (leVal (chunk bs 0)), coord mont (leVal (chunk bs 1))⟩ : Fp2 (FpV adx)) = 0 ∧
          (⟨coord mont (leVal (chunk bs 2)), coord mont (leVal (chunk bs 3))⟩ : Fp2 (FpV adx)) = 0 then some ⟨0, 1, 0⟩
      else some ⟨⟨coord mont (leVal (chunk bs 0)), coord mont (leVal (chunk bs 1))⟩,
        ⟨coord mont (leVal (chunk bs 2)), coord mont (leVal (chunk bs 3))⟩, 1⟩) ∧
    (¬ CanonicalLE 4 bs → Jac.fromAffineBytes 96 (Fp2.fromBytesLE (FpV.fromBytesLE adx mont)) Fp2.B false bs = none) := by
  have h := fun i1 i2 => @CoordCodec.affine_unchecked _ _ _ _ _ _ _ _ _ (coord2BE (adx := adx) mont) Fp2.B bs hl i1 i2
  have h' := fun i1 i2 => @CoordCodec.affine_unchecked _ _ _ _ _ _ _ _ _ (coord2LE (adx := adx) mont) Fp2.B bs hl i1 i2
  simp only [pos0, pos0', pos1, pos1'] at h h'
  refine ⟨fun hc => ?_, fun hc => ?_, fun hc => ?_, fun hc => ?_⟩
  · exact (h (Classical.dec _) inferInstance).trans (if_pos (canonical_four.1 hc))
  · exact (h (Classical.dec _) inferInstance).trans (if_neg fun hh => hc (canonical_four.2 hh))
  · exact (h' (Classical.dec _) inferInstance).trans (if_pos (canonical_four.1 hc))
  · exact (h' (Classical.dec _) inferInstance).trans (if_neg fun hh => hc (canonical_four.2 hh))

/-- Canonical strings: all bytes zero; not canonical: all bytes `0xff`. -/
example : CanonicalBE 6 (List.replicate 288 0) ∧ CanonicalLE 4 (List.replicate 192 0) ∧
    ¬ CanonicalBE 4 (List.replicate 192 0xff) ∧ ¬ CanonicalLE 6 (List.replicate 288 0xff) := by
  unfold CanonicalBE CanonicalLE
  decide +kernel

end Bls.Props
