import Verif.Proof.SquareLoss
import Verif.Props.BuildsExact

/-!
# C03, C64: on which operands the portable `_square` is right
-/

namespace Bls.Props
open Bls Bls.Portable

set_option exponentiation.threshold 1000
set_option maxRecDepth 100000

attribute [local irreducible] p

variable {adx : Bool}

/-- `_square` is right on a valid operand if and only if in the row by row squaring of the integer no sum of a doubled product
of two of the lower five words, the word above it and the carry from the words below has a carry out of 128 bits that the
doubled product does not have by itself. -/
theorem C03_square_exact (x : Fp) (hx : x.Valid) :
    IsMontProduct x x (Portable.square x) ↔ ∀ i j, i < j → j < 5 → ¬ Sq.Loses x.val i j := by
  obtain ⟨_, _, _, _, _, _, _, _, _, _, -, -, -, -, -, -, -, -, -, -, h, -⟩ := square_loss x hx
  rw [← square_exact x hx]
  exact ⟨And.right, fun e => ⟨h, e⟩⟩

/-- The square of 1. -/
example : IsMontProduct ⟨1, 0, 0, 0, 0, 0⟩ ⟨1, 0, 0, 0, 0, 0⟩ (Portable.square ⟨1, 0, 0, 0, 0, 0⟩) := by
  refine (C03_square_exact _ (by decide +kernel)).2 fun i j hi hj => ?_
  have h : ∀ j < 5, ∀ i < j, ¬ Sq.Loses (⟨1, 0, 0, 0, 0, 0⟩ : Fp).val i j := by unfold Sq.Loses Sq.LosesIn; decide +kernel
  exact h j hj i hi

/-- C64 for squares: on canonical operands the same words in both builds if and only if no carry is lost. -/
theorem C64_square_exact (x : FpV adx) :
    Ops.sqr (F := FpP) x.1 = (Ops.sqr x).1 ↔ ∀ i j, i < j → j < 5 → ¬ Sq.Loses x.1.val i j := by
  rw [← C03_square_exact x.1 x.2]
  have hr := X86.rep_sqr x.rep
  have hm := X86.rep_mul (adx := adx) x.rep x.rep
  have e : X86.sqr x.1 = X86.mul adx x.1 x.1 := Fp.Rep.inj hr hm
  obtain ⟨l2, e2⟩ := X86.redc_spec (Fp.mul_bound x.1 x.2)
  rw [← X86.mul_val adx, ← e] at l2 e2
  change Portable.square x.1 = X86.sqr x.1 ↔ _
  constructor
  · intro h
    rw [h]
    exact ⟨l2, e2⟩
  · rintro ⟨l1, e1⟩
    exact Fp.val_inj (Nat.ModEq.eq_of_lt_of_lt (Nat.ModEq.cancel_left_of_coprime coprime_R (Nat.ModEq.trans e1 e2.symm)) l1 l2)

/-- A carry that is lost (the operand of `C03_square_false`). -/
example : Sq.Loses (2 ^ 128 - 1 + 2 ^ 191) 0 2 := by unfold Sq.Loses Sq.LosesIn; decide +kernel

/-- No carry is lost in the squares of 1 and `p-1`. -/
example : (∀ i j, i < j → j < 5 → ¬ Sq.Loses 1 i j) ∧ ∀ i j, i < j → j < 5 → ¬ Sq.Loses (p - 1) i j := by
  have h : ∀ j < 5, ∀ i < j, ¬ Sq.Loses 1 i j ∧ ¬ Sq.Loses (p - 1) i j := by unfold Sq.Loses Sq.LosesIn; decide +kernel
  exact ⟨fun i j hi hj => (h j hj i hi).1, fun i j hi hj => (h j hj i hi).2⟩

end Bls.Props
