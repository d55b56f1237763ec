import Verif.Spec.Params
import Mathlib.Data.Nat.Notation
import Mathlib.Logic.Function.Iterate

/-!
# Phase 1 of the Montgomery inverse (Kaliski 1995), on integers of any size
-/

namespace Bls.Kaliski

/-- The four variables. -/
structure State where
  u : ℕ
  v : ℕ
  s : ℕ
  r : ℕ

/-- One round. -/
def step (t : State) : State :=
  if t.u % 2 = 0 then ⟨t.u / 2, t.v, 2 * t.s, t.r⟩
  else if t.v % 2 = 0 then ⟨t.u, t.v / 2, t.s, 2 * t.r⟩
  else if t.v < t.u then ⟨(t.u - t.v) / 2, t.v, 2 * t.s, t.r + t.s⟩
  else ⟨t.u, (t.v - t.u) / 2, t.s + t.r, 2 * t.r⟩

/-- The state after `i` rounds, for the modulus `p` and the number `a`. -/
def state (a i : ℕ) : State := step^[i] ⟨p, a, 1, 0⟩

/-- For the number `a` the algorithm stops after `k` rounds. -/
def StopsAt (a k : ℕ) : Prop := (state a k).v = 0 ∧ ∀ i < k, (state a i).v ≠ 0

end Bls.Kaliski
