import Verif.Model.InverseRun

/-!
# The branches that `fp::inverse` takes
-/

namespace Bls.Fp

/-- The four branches in the loop (`src/fp.cpp:249-272`). -/
inductive InvBranch
  | uEven
  | vEven
  | uLarger
  | vLarger
deriving DecidableEq, Repr

/-- The branch of one round (`src/fp.cpp:249`, `:254`, `:259`, `:266`); `u.cmp(v) > 0` is `v.lt u`. -/
def invBranch (t : InvVars) : InvBranch :=
  if t.u.isEven then .uEven
  else if t.v.isEven then .vEven
  else if t.v.lt t.u then .uLarger
  else .vLarger

/-- The branches of the loop (`src/fp.cpp:242-274`), run with the remaining iterations as fuel. -/
def invBranchesLoop : Nat → InvVars → List InvBranch
  | 0, _ => []
  | fuel + 1, t => if t.v.isZero then [] else invBranch t :: invBranchesLoop fuel (invStep t)

/-- The branches that `fp::inverse` takes in phase 1 (`src/fp.cpp:223-274`). -/
def inverseBranches (x : Fp) : List InvBranch :=
  if x.isZero then [] else invBranchesLoop 768 (invStart x)

end Bls.Fp
