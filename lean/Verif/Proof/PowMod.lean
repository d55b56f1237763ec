import Mathlib.Data.ZMod.Basic
import Mathlib.Tactic.Ring

/-! Kernel-friendly modular exponentiation. -/

namespace Bls

/-- `b^e * acc mod m` by repeated squaring, for `e < 2^fuel`. -/
def powModAux (m : Nat) : Nat → Nat → Nat → Nat → Nat
  | 0, _, _, acc => acc % m
  | f + 1, b, e, acc => powModAux m f (b * b % m) (e / 2) (if e % 2 = 1 then acc * b % m else acc)

theorem powModAux_eq (m : Nat) : ∀ (f b e acc : Nat), e < 2 ^ f →
    (powModAux m f b e acc : ZMod m) = (b : ZMod m) ^ e * acc
  | 0, b, e, acc, h => by
    have : e = 0 := by simpa using h
    simp [powModAux, this]
  | f + 1, b, e, acc, h => by
    have h2 : e / 2 < 2 ^ f := by rw [pow_succ] at h; omega
    rw [powModAux, powModAux_eq m f _ _ _ h2]
    have hb : ((b * b % m : Nat) : ZMod m) = (b : ZMod m) ^ 2 := by simp [sq]
    rw [hb, ← pow_mul]
    split_ifs with h1
    · have : e = 2 * (e / 2) + 1 := by omega
      conv_rhs => rw [this]
      rw [pow_succ, ZMod.natCast_mod, Nat.cast_mul]
      ring
    · have : 2 * (e / 2) = e := by omega
      rw [this]

/-- `b^e mod m`. -/
def powMod (m b e : Nat) : Nat := powModAux m (e.log2 + 1) b e 1

theorem powMod_eq (m b e : Nat) : (powMod m b e : ZMod m) = (b : ZMod m) ^ e := by
  rw [powMod, powModAux_eq _ _ _ _ _ Nat.lt_log2_self]
  simp

end Bls
