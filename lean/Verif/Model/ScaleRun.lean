import Verif.Model.Group
import Verif.Model.Signatures

/-!
# The calls made by `scale`

`scale` written as in `Model/Group.lean`, with the list of the member functions of the point class it has called.
-/

namespace Bls

/-- The member functions called in the loop of `scale` (`include/bls12-381/scalar.hpp:340`, `:342`). -/
inductive PointCall
  | add
  | dbl
deriving DecidableEq

namespace Jac

variable {F : Type} [Ops F]

/-- The loop of `scale` (`include/bls12-381/scalar.hpp:336-343`, `:353-360`): the value of `q` and the calls so far. -/
def scaleRunLoop (s : List UInt64) : Nat → Nat → Jac F → Jac F → List PointCall → Jac F × List PointCall
  | 0, _, q, _, calls => (q, calls)
  | n + 1, i, q, a, calls =>
    let r := if Scalar.bit s i then (q.add a, calls ++ [.add]) else (q, calls)
    scaleRunLoop s n (i + 1) r.1 a.dbl (r.2 ++ [.dbl])

/-- `g1::scale` (`include/bls12-381/scalar.hpp:330-345`), `g2::scale` (`include/bls12-381/scalar.hpp:347-362`) with its
calls. -/
def scaleRun (a : Jac F) (s : List UInt64) : Jac F × List PointCall :=
  scaleRunLoop s (Scalar.bitLength s) 0 ⟨Ops.zero, Ops.zero, Ops.zero⟩ a []

end Jac

variable {K : Type} [FpOps K]

/-- `public_key` (`src/signatures.cpp:438-441`) with the calls of its `scale`. -/
def Keys.publicKeyRun (sk : List UInt64) : G1 K × List PointCall :=
  let r := (G1.one : G1 K).scaleRun sk
  (r.1.affine, r.2)

/-- `sign` (`src/signatures.cpp:529-536`) with the calls of its `scale`. -/
def Sig.signRun (sk : List UInt64) (msg : List UInt8) : Option (G2 K × List PointCall) :=
  (Sig.fromMessage msg Sig.ciphersuiteId).map fun p => p.scaleRun sk

end Bls
