import Verif.Proof.Counts
import Verif.Props.GroupCodec
import Verif.Props.Same
import Verif.Props.Subgroup

/-!
# C101: how many byte strings the checked decoders accept

The numbers of points of the two curves are those of `C29_orders`.
-/

namespace Bls.Props
open Bls

set_option exponentiation.threshold 1000

attribute [local irreducible] p q

variable (adx : Bool)

private instance : Finite (E1 (FpV adx)) := E1_finite _
private instance : Finite (E2 (FpV adx)) := E2_finite _
private instance : Finite (Fp2 (FpV adx)) := Fp2.finite _

/-- C101: a finite point of `g1` has exactly `p - 1` accepted Jacobian strings and infinity has `p²`, in each byte order. -/
theorem C101_jacobian_g1 (mont : Bool) (P : E1 (FpV adx)) :
    {bs | bs.length = 144 ∧ ∃ a : G1 (FpV adx),
      Jac.fromJacobianBytes 48 (FpV.fromBytesBE adx mont) FpC.B true bs = some a ∧ a.Rep P}.ncard =
        (if P = 0 then p * p else p - 1) ∧
    {bs | bs.length = 144 ∧ ∃ a : G1 (FpV adx),
      Jac.fromJacobianBytes 48 (FpV.fromBytesLE adx mont) FpC.B true bs = some a ∧ a.Rep P}.ncard =
        (if P = 0 then p * p else p - 1) := by
  have e : {a : G1 (FpV adx) | (∃ Q : E1 (FpV adx), a.Rep Q) ∧ a.Rep P}.ncard = if P = 0 then p * p else p - 1 := by
    rw [show {a : G1 (FpV adx) | (∃ Q : E1 (FpV adx), a.Rep Q) ∧ a.Rep P} = {a | a.Rep P} from
      Set.ext fun a => ⟨fun h => h.2, fun h => ⟨⟨P, h⟩, h⟩⟩]
    split_ifs with h
    · subst h
      exact ncard_rep_zero.trans (by rw [IsFp.card])
    · exact (ncard_rep h).trans (by rw [IsFp.card])
  exact ⟨((C26_jacobian_g1 adx mont).1.ncard _).trans e, ((C26_jacobian_g1 adx mont).2.ncard _).trans e⟩

/-- C101: a finite point of `g2` has exactly `p² - 1` accepted Jacobian strings and infinity has `p⁴`. -/
theorem C101_jacobian_g2 (mont : Bool) (P : E2 (FpV adx)) :
    {bs | bs.length = 288 ∧ ∃ a : G2 (FpV adx),
      Jac.fromJacobianBytes 96 (Fp2.fromBytesBE (FpV.fromBytesBE adx mont)) Fp2.B true bs = some a ∧ a.Rep P}.ncard =
        (if P = 0 then p * p * (p * p) else p * p - 1) ∧
    {bs | bs.length = 288 ∧ ∃ a : G2 (FpV adx),
      Jac.fromJacobianBytes 96 (Fp2.fromBytesLE (FpV.fromBytesLE adx mont)) Fp2.B true bs = some a ∧ a.Rep P}.ncard =
        (if P = 0 then p * p * (p * p) else p * p - 1) := by
  have e : {a : G2 (FpV adx) | (∃ Q : E2 (FpV adx), a.Rep Q) ∧ a.Rep P}.ncard =
      if P = 0 then p * p * (p * p) else p * p - 1 := by
    rw [show {a : G2 (FpV adx) | (∃ Q : E2 (FpV adx), a.Rep Q) ∧ a.Rep P} = {a | a.Rep P} from
      Set.ext fun a => ⟨fun h => h.2, fun h => ⟨⟨P, h⟩, h⟩⟩]
    split_ifs with h
    · subst h
      exact ncard_rep_zero.trans (by rw [Fp2.card])
    · exact (ncard_rep h).trans (by rw [Fp2.card])
  exact ⟨((C26_jacobian_g2 adx mont).1.ncard _).trans e, ((C26_jacobian_g2 adx mont).2.ncard _).trans e⟩

/-- A finite point, with more than one string. -/
example (mont : Bool) : gen1 (FpV adx) ≠ 0 ∧ {bs | bs.length = 144 ∧ ∃ a : G1 (FpV adx),
      Jac.fromJacobianBytes 48 (FpV.fromBytesBE adx mont) FpC.B true bs = some a ∧ a.Rep (gen1 (FpV adx))}.ncard = p - 1 ∧
    1 < p - 1 :=
  ⟨gen1_ne_zero _, by rw [(C101_jacobian_g1 adx mont _).1, if_neg (gen1_ne_zero _)], by decide +kernel⟩

/-- C101: all accepted Jacobian strings. -/
theorem C101_jacobian_all (mont : Bool) :
    {bs | bs.length = 144 ∧ (Jac.fromJacobianBytes 48 (FpV.fromBytesBE adx mont) FpC.B true bs).isSome}.ncard =
      (p + 0xd201000000010000 - 1) * (p - 1) + p * p ∧
    {bs | bs.length = 144 ∧ (Jac.fromJacobianBytes 48 (FpV.fromBytesLE adx mont) FpC.B true bs).isSome}.ncard =
      (p + 0xd201000000010000 - 1) * (p - 1) + p * p ∧
    {bs | bs.length = 288 ∧ (Jac.fromJacobianBytes 96 (Fp2.fromBytesBE (FpV.fromBytesBE adx mont)) Fp2.B true bs).isSome}.ncard =
      (0x5d543a95414e7f1091d50792876a202cd91de4547085abaa68a205b2e5a7ddfa628f1cb4d9e82ef21537e293a6691ae1616ec6e786f0c70cf1c38e31c7238e5 * q - 1) *
        (p * p - 1) + p * p * (p * p) ∧
    {bs | bs.length = 288 ∧ (Jac.fromJacobianBytes 96 (Fp2.fromBytesLE (FpV.fromBytesLE adx mont)) Fp2.B true bs).isSome}.ncard =
      (0x5d543a95414e7f1091d50792876a202cd91de4547085abaa68a205b2e5a7ddfa628f1cb4d9e82ef21537e293a6691ae1616ec6e786f0c70cf1c38e31c7238e5 * q - 1) *
        (p * p - 1) + p * p * (p * p) := by
  have h1 : {a : G1 (FpV adx) | ∃ Q : E1 (FpV adx), a.Rep Q}.ncard = _ := ncard_on_curve
  have h2 : {a : G2 (FpV adx) | ∃ Q : E2 (FpV adx), a.Rep Q}.ncard = _ := ncard_on_curve
  have c1 : Nat.card (curve (4 : FpV adx)).Point = _ := (C29_orders adx).1
  have c2 : Nat.card (curve (4 * Fp2.xi : Fp2 (FpV adx))).Point = _ := (C29_orders adx).2
  rw [c1, IsFp.card] at h1
  rw [c2, Fp2.card] at h2
  have s : ∀ {F : Type} {n : ℕ} {dec : List UInt8 → Option F} {enc V ok}, IsCodec n dec enc V ok →
      {bs | bs.length = n ∧ (dec bs).isSome}.ncard = {a | V a}.ncard := by
    intro F n dec enc V ok h
    have := h.ncard fun _ => True
    simp only [and_true] at this
    rw [← this]
    simp only [Option.isSome_iff_exists]
  exact ⟨(s (C26_jacobian_g1 adx mont).1).trans h1, (s (C26_jacobian_g1 adx mont).2).trans h1,
    (s (C26_jacobian_g2 adx mont).1).trans h2, (s (C26_jacobian_g2 adx mont).2).trans h2⟩

/-- C101: exactly one affine string for each point, so as many strings as the curve has points, infinity included. -/
theorem C101_affine (mont : Bool) :
    {bs | bs.length = 96 ∧ (Jac.fromAffineBytes 48 (FpV.fromBytesBE adx mont) FpC.B true bs).isSome}.ncard =
      p + 0xd201000000010000 ∧
    {bs | bs.length = 96 ∧ (Jac.fromAffineBytes 48 (FpV.fromBytesLE adx mont) FpC.B true bs).isSome}.ncard =
      p + 0xd201000000010000 ∧
    {bs | bs.length = 192 ∧ (Jac.fromAffineBytes 96 (Fp2.fromBytesBE (FpV.fromBytesBE adx mont)) Fp2.B true bs).isSome}.ncard =
      0x5d543a95414e7f1091d50792876a202cd91de4547085abaa68a205b2e5a7ddfa628f1cb4d9e82ef21537e293a6691ae1616ec6e786f0c70cf1c38e31c7238e5 * q ∧
    {bs | bs.length = 192 ∧ (Jac.fromAffineBytes 96 (Fp2.fromBytesLE (FpV.fromBytesLE adx mont)) Fp2.B true bs).isSome}.ncard =
      0x5d543a95414e7f1091d50792876a202cd91de4547085abaa68a205b2e5a7ddfa628f1cb4d9e82ef21537e293a6691ae1616ec6e786f0c70cf1c38e31c7238e5 * q := by
  have c1 := (C29_orders adx).1
  have c2 := (C29_orders adx).2
  refine ⟨((C26_affine_g1 adx mont).1.ncard fun a a' P h h' => ?_).trans c1,
    ((C26_affine_g1 adx mont).2.ncard fun a a' P h h' => ?_).trans c1,
    ((C26_affine_g2 adx mont).1.ncard fun a a' P h h' => ?_).trans c2,
    ((C26_affine_g2 adx mont).2.ncard fun a a' P h h' => ?_).trans c2⟩
  · exact ((C58_encodings (adx := adx) mont).1 a a' ⟨P, h, h'⟩).1
  · exact ((C58_encodings (adx := adx) mont).1 a a' ⟨P, h, h'⟩).2.1
  · exact ((C58_encodings (adx := adx) mont).2 a a' ⟨P, h, h'⟩).1
  · exact ((C58_encodings (adx := adx) mont).2 a a' ⟨P, h, h'⟩).2.1

/-- C101: the compressed decoders take `2^382` and `2^766` strings for infinity. -/
theorem C101_compressed_infinity :
    {bs | bs.length = 48 ∧ ∃ a : G1 (FpV adx), G1.fromCompressedBytesBE bs = some a ∧ a.Rep (0 : E1 (FpV adx))}.ncard = 2 ^ 382 ∧
    {bs | bs.length = 96 ∧ ∃ a : G2 (FpV adx), G2.fromCompressedBytesBE bs = some a ∧ a.Rep (0 : E2 (FpV adx))}.ncard = 2 ^ 766 := by
  constructor
  · rw [show {bs | bs.length = 48 ∧ ∃ a : G1 (FpV adx), G1.fromCompressedBytesBE bs = some a ∧ a.Rep (0 : E1 (FpV adx))} =
      {bs | bs.length = 48 ∧ 2 ^ 383 + 2 ^ 382 ≤ beVal bs} from Set.ext fun bs =>
        and_congr_right fun hl => ((C28_exact adx bs).1 hl 0).trans ⟨fun h => h.2, fun h => ⟨hl, h⟩⟩, strings_from]
    decide +kernel
  · rw [show {bs | bs.length = 96 ∧ ∃ a : G2 (FpV adx), G2.fromCompressedBytesBE bs = some a ∧ a.Rep (0 : E2 (FpV adx))} =
      {bs | bs.length = 96 ∧ (2 ^ 383 + 2 ^ 382) * 2 ^ 384 ≤ beVal bs} from Set.ext fun bs =>
        and_congr_right fun hl => ((C28_exact adx bs).2 hl 0).trans ⟨fun h => h.2, fun h => ⟨hl, h⟩⟩, strings_from]
    decide +kernel

end Bls.Props
