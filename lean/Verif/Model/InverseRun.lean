import Verif.Model.Fp

/-!
# The variables of `fp::inverse` in phase 1 (`src/fp.cpp:227-279`)
-/

namespace Bls.Fp

/-- The variables `u`, `v`, `s`, `r` of `fp::inverse` (`src/fp.cpp:227-230`). -/
structure InvVars where
  u : Fp
  v : Fp
  s : Fp
  r : Fp

/-- Their first values (`src/fp.cpp:227-230`). -/
def invStart (x : Fp) : InvVars := ⟨MODULUS, x, ⟨1, 0, 0, 0, 0, 0⟩, ⟨0, 0, 0, 0, 0, 0⟩⟩

/-- The body of the loop without the test `v.isZero()` and the counter (`src/fp.cpp:249-272`). -/
def invStep (t : InvVars) : InvVars :=
  if t.u.isEven then ⟨t.u.div2 0, t.v, t.s.mul2, t.r⟩
  else if t.v.isEven then ⟨t.u, t.v.div2 0, t.s, t.r.mul2⟩
  else if t.v.lt t.u then ⟨(X86.lsub t.u t.v).div2 0, t.v, t.s.mul2, X86.ladd t.r t.s⟩
  else ⟨t.u, (X86.lsub t.v t.u).div2 0, X86.ladd t.s t.r, t.r.mul2⟩

/-- How often the body of the loop runs before `fp::inverse` leaves it (`src/fp.cpp:242-274`): the value of `k` after the loop,
`none` for zero (no loop) and for a loop that ends with `found == false`. -/
def invRounds (x : Fp) : Option Nat :=
  if x.isZero then none
  else (invLoop 768 MODULUS x ⟨1, 0, 0, 0, 0, 0⟩ ⟨0, 0, 0, 0, 0, 0⟩ 0).map (·.2)

end Bls.Fp
