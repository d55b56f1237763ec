import Verif.Proof.Order
import Verif.Props.Group

/-!
# C54: the comparison operators
-/

namespace Bls.Props
open Bls

variable {adx : Bool}

/-- C54: `<=>` and `==` are a strict total order and equality of the stored words, for all contents (canonical or not). -/
theorem C54_order : IsStrongOrder Fp.cmp Fp.eqOp ∧ IsStrongOrder (Fp2.cmp Fp.cmp) (Fp2.eqOp Fp.eqOp) ∧
    IsStrongOrder (Jac.cmp Fp.cmp) (Jac.eqOp Fp.eqOp) ∧
    IsStrongOrder (Jac.cmp (Fp2.cmp Fp.cmp)) (Jac.eqOp (Fp2.eqOp Fp.eqOp)) :=
  ⟨Fp.strongOrder, Fp2.strongOrder Fp.strongOrder, Jac.strongOrder Fp.strongOrder, Jac.strongOrder (Fp2.strongOrder Fp.strongOrder)⟩

/-- C54: `fp` is compared as a number of 384 bits, `fp2` lexicographically with the constant coefficient first, points
lexicographically by `x`, `y`, `z`. -/
theorem C54_meaning : (∀ x y : Fp, x.cmp y = compare x.val y.val) ∧
    (∀ x y : Fp2 Fp, Fp2.cmp Fp.cmp x y = .lt ↔ x.c0.val < y.c0.val ∨ x.c0.val = y.c0.val ∧ x.c1.val < y.c1.val) ∧
    (∀ a b : G1 Fp, Jac.cmp Fp.cmp a b = .lt ↔ a.x.val < b.x.val ∨ a.x.val = b.x.val ∧ (a.y.val < b.y.val ∨
      a.y.val = b.y.val ∧ a.z.val < b.z.val)) := by
  refine ⟨Fp.cmp_eq, fun x y => ?_, fun a b => ?_⟩
  · rw [Fp2.cmp, cmpMember_lt, Fp.cmp_eq, Fp.cmp_eq, Nat.compare_eq_lt, Nat.compare_eq_eq, Nat.compare_eq_lt]
  · rw [Jac.cmp, cmpMember_lt, cmpMember_lt, Fp.cmp_eq, Fp.cmp_eq, Fp.cmp_eq, Nat.compare_eq_lt, Nat.compare_eq_eq,
      Nat.compare_eq_lt, Nat.compare_eq_eq, Nat.compare_eq_lt]

example : Fp.cmp ⟨0, 0, 0, 0, 0, 1⟩ ⟨9, 9, 9, 9, 9, 0⟩ = .gt := by decide

theorem equal_self {F : Type} [Field F] [Ops F] [LawfulOps F] (a : Jac F) : a.equal a = true := by
  unfold Jac.equal
  cases h : a.isZero
  · rw [if_neg (by decide), if_neg (by decide)]
    dsimp only
    rw [(LawfulOps.equal_iff _ _).2 rfl, (LawfulOps.equal_iff _ _).2 rfl]
    rfl
  · rw [if_pos rfl]

/-- C54: on canonical values `==` is `equal` for `fp` and `fp2`; for points it implies `equal`. -/
theorem C54_equal : (∀ x y : FpV adx, FpV.eqOp x y = Ops.equal x y) ∧
    (∀ x y : Fp2 (FpV adx), Fp2.eqOp FpV.eqOp x y = x.equal y) ∧
    (∀ a b : G1 (FpV adx), Jac.eqOp FpV.eqOp a b = true → a.equal b = true) ∧
    (∀ a b : G2 (FpV adx), Jac.eqOp (Fp2.eqOp FpV.eqOp) a b = true → a.equal b = true) := by
  refine ⟨fun x y => ?_, fun x y => ?_, fun a b h => ?_, fun a b h => ?_⟩
  · rw [Bool.eq_iff_iff, FpV.strongOrder.eqOp, LawfulOps.equal_iff]
  · rw [Bool.eq_iff_iff, (Fp2.strongOrder FpV.strongOrder).eqOp]
    exact (Fp2.equal_iff x y).symm
  · rw [(Jac.strongOrder FpV.strongOrder).eqOp] at h
    rw [h]; exact equal_self b
  · rw [(Jac.strongOrder (Fp2.strongOrder FpV.strongOrder)).eqOp] at h
    rw [h]; exact equal_self b

theorem rep_scale {F : Type} [Field F] {b : F} {a : Jac F} {P : (curve b).Point} (h : a.Rep P) {c : F} (hc : c ≠ 0) :
    Jac.Rep ⟨a.x * c ^ 2, a.y * c ^ 3, a.z * c⟩ P := by
  match P, h with
  | .zero, h =>
    have h : a.z = 0 := h
    show a.z * c = 0
    rw [h, zero_mul]
  | .some x y _, h =>
    obtain ⟨h0, h1, h2⟩ := h
    refine ⟨mul_ne_zero h0 hc, ?_, ?_⟩
    · show a.x * c ^ 2 = x * (a.z * c) ^ 2
      rw [h1]; ring
    · show a.y * c ^ 3 = y * (a.z * c) ^ 3
      rw [h2]; ring

theorem scale_ne {F : Type} [Field F] {a : Jac F} (h : a.z ≠ 0) : a ≠ ⟨a.x * 2 ^ 2, a.y * 2 ^ 3, a.z * 2⟩ := fun e => by
  have h3 : a.z = a.z * 2 := congrArg Jac.z e
  exact h (by linear_combination -h3)

/-- C54: the converse fails for points: one point has several triples, a set can contain all of them. -/
theorem C54_points_false (adx : Bool) : ∃ a b : G1 (FpV adx), a.equal b = true ∧ Jac.eqOp FpV.eqOp a b = false ∧
    a.Rep (gen1 (FpV adx)) ∧ b.Rep (gen1 (FpV adx)) := by
  have h1 : (G1.one : G1 (FpV adx)).Rep (gen1 (FpV adx)) := G1.one_rep
  have h0 : gen1 (FpV adx) ≠ 0 := gen1_ne_zero _
  revert h0 h1
  generalize (G1.one : G1 (FpV adx)) = a
  generalize gen1 (FpV adx) = P
  intro h1 h0
  have h4 : a.z ≠ 0 := Jac.isZero_false.1 (Bool.eq_false_iff.2 fun h => h0 (h1.isZero_iff.1 h))
  have h2 := rep_scale h1 (IsFp.two_ne_zero (K := FpV adx))
  refine ⟨_, _, (Jac.equal_iff h1 h2).2 rfl, ?_, h1, h2⟩
  rw [Bool.eq_false_iff, Ne, (Jac.strongOrder FpV.strongOrder).eqOp]
  exact scale_ne h4

theorem residues_aux : (X86.dbl Fp.R1).cmp Fp.R1 = .lt := by decide +kernel

section
attribute [local irreducible] X86.dbl Fp.R1 Fp.cmp

/-- C54: the order of `fp` is not the order of the residues: the stored form of 2 is smaller than that of 1. -/
theorem C54_residues_false (adx : Bool) : FpV.cmp (2 : FpV adx) (1 : FpV adx) = .lt := by
  have h1 : (1 : FpV adx) = Ops.one := LawfulOps.one_eq.symm
  have h2 : (2 : FpV adx) = Ops.dbl (Ops.one : FpV adx) := by
    rw [LawfulOps.dbl_eq, LawfulOps.one_eq]; norm_num
  rw [h1, h2]
  exact residues_aux

end

end Bls.Props
