import Verif.Spec.Point
import Verif.Proof.TowerField

/-!
# The two curves of BLS12-381

`E1`: `y² = x³ + 4` over `F_p`; `E2`: `y² = x³ + 4(1+u)` over `F_p²`. Their points form Mathlib's groups
`WeierstrassCurve.Affine.Point`. The generators are the ones of the standard.
-/

namespace Bls

variable (K : Type) [Field K]

/-- `y² = x³ + 4` over `F_p`. -/
abbrev E1 := (curve (4 : K)).Point

/-- `y² = x³ + 4(1+u)` over `F_p²`. -/
abbrev E2 [IsFp K] := (curve (4 * Fp2.xi : Fp2 K)).Point

/-- Abscissa of the standard generator of the first group. -/
def gen1X : ℕ :=
  0x17f1d3a73197d7942695638c4fa9ac0fc3688c4f9774b905a14e3a3f171bac586c55e83ff97a1aeffb3af00adb22c6bb

/-- Ordinate of the standard generator of the first group. -/
def gen1Y : ℕ :=
  0x8b3f481e3aaa0f1a09e30ed741d8ae4fcf5e095d5d00af600db18cb2c04b3edd03cc744a2888ae40caa232946c5e7e1

/-- Abscissa of the standard generator of the second group: `gen2X0 + gen2X1 u`. -/
def gen2X0 : ℕ :=
  0x24aa2b2f08f0a91260805272dc51051c6e47ad4fa403b02b4510b647ae3d1770bac0326a805bbefd48056c8c121bdb8
@[inherit_doc gen2X0] def gen2X1 : ℕ :=
  0x13e02b6052719f607dacd3a088274f65596bd0d09920b61ab5da61bbdc7f5049334cf11213945d57e5ac7d055d042b7e

/-- Ordinate of the standard generator of the second group: `gen2Y0 + gen2Y1 u`. -/
def gen2Y0 : ℕ :=
  0xce5d527727d6e118cc9cdc6da2e351aadfd9baa8cbdd3a76d429a695160d12c923ac9cc3baca289e193548608b82801
@[inherit_doc gen2Y0] def gen2Y1 : ℕ :=
  0x606c4a02ea734cc32acd2b02bc28b99cb3e287e85a763af267492ab572e99ab3f370d275cec1da1aaa9075ff05f79be

end Bls
