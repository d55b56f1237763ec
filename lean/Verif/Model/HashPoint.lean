import Verif.Model.Signatures

/-!
# The second half of `fromMessage`: from the 256 bytes to the point
-/

namespace Bls.Sig

variable {K : Type} [FpOps K] [DecidableEq K]

/-- `fromMessage` after the call of `xmd_sh256` (`src/signatures.cpp:505-526`), as a function of the content of `buf`. -/
def hashPoint (buf : List UInt8) : Option (G2 K) :=
  (fieldElement buf 0).bind fun c0 =>
  (fieldElement buf 64).bind fun c1 =>
  let p := mapPoint ⟨c0, c1⟩
  (fieldElement buf 128).bind fun c0 =>
  (fieldElement buf 192).bind fun c1 =>
  let q := mapPoint ⟨c0, c1⟩
  some (G2.clearCofactor (p.add q))

end Bls.Sig
