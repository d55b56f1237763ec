import Verif.Spec.Tower

/-! Which of two square roots. -/

namespace Bls

/-- The first coordinate that is not zero is not a square. Of `c` and `-c`, not zero, exactly one has this property. -/
def FirstNotSquare {K : Type} [Field K] (c : Fp2 K) : Prop :=
  (c.c0 ≠ 0 → ¬ ∃ y, y * y = c.c0) ∧ (c.c0 = 0 → c.c1 ≠ 0 → ¬ ∃ y, y * y = c.c1)

end Bls
