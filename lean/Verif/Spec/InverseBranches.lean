import Verif.Model.InverseBranches
import Verif.Spec.Kaliski

/-!
# The branches of the Montgomery inverse, forwards and backwards
-/

namespace Bls.Kaliski
open Fp (InvBranch)

/-- The case of `step` that applies. -/
def branch (t : State) : InvBranch :=
  if t.u % 2 = 0 then .uEven
  else if t.v % 2 = 0 then .vEven
  else if t.v < t.u then .uLarger
  else .vLarger

/-- The cases of the first `k` rounds for the number `a`. -/
def branches (a k : ℕ) : List InvBranch := (List.range k).map fun i => branch (state a i)

/-- `u` and `v` before a round from those after it. -/
def undo : InvBranch → ℕ × ℕ → ℕ × ℕ
  | .uEven, (u, v) => (2 * u, v)
  | .vEven, (u, v) => (u, 2 * v)
  | .uLarger, (u, v) => (2 * u + v, v)
  | .vLarger, (u, v) => (u, 2 * v + u)

/-- `u` and `v` at the beginning, from the list of the branches: at the end they are 1 and 0. -/
def rebuild (l : List InvBranch) : ℕ × ℕ := l.foldr undo (1, 0)

end Bls.Kaliski
