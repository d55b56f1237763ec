import Verif.Spec.Rep

/-!
# Six words that need not be below `p`

`Fp.Rep` asks for a canonical array. `Fp.Means` drops that: the same residue is meant by up to ten arrays.
-/

namespace Bls

/-- `x`, canonical or not, stands for the residue `a` (Montgomery form). -/
def Fp.Means (x : Fp) (a : ZMod p) : Prop := (x.val : ZMod p) = a * 2 ^ 384

end Bls
