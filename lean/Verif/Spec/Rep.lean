import Verif.Spec.Params
import Mathlib.Data.ZMod.Basic

/-!
# What a limb array represents

Montgomery form: the residue `a` is stored as `a * 2^384 mod p`.
-/

namespace Bls

/-- `x` is canonical and represents the residue `a`. -/
def Fp.Rep (x : Fp) (a : ZMod p) : Prop := x.val < p ∧ (x.val : ZMod p) = a * 2 ^ 384

end Bls
