import Verif.Proof.Subgroup
import Verif.Proof.FpV

/-!
# C29, C30: subgroup membership and clearing of cofactors

`a.Rep P`: the triple `a` stands for the point `P` of the curve (`Spec/Point.lean`); by `C23_isOnCurve` the triples
that stand for a point are the ones `isOnCurve` accepts. No counting result is assumed: the numbers of points of
both curves are proved (`C29_orders`).
-/

namespace Bls.Props
open Bls

variable (adx : Bool)

/-! ## C29 -/

/-- C29: the membership test accepts a point exactly when `q` times the point is the point at infinity, for every
point of the curve and every choice of Jacobian coordinates. -/
theorem C29_inCorrectSubgroup :
    (∀ (a : G1 (FpV adx)) (P : E1 (FpV adx)), a.Rep P → (a.inCorrectSubgroup = true ↔ q • P = 0)) ∧
    (∀ (a : G2 (FpV adx)) (P : E2 (FpV adx)), a.Rep P → (a.inCorrectSubgroup = true ↔ q • P = 0)) :=
  ⟨fun _ _ => G1.inCorrectSubgroup_iff, fun _ _ => G2.inCorrectSubgroup_iff⟩

/-- C29: the accepted points are the multiples of the standard generator, `q` of them. -/
theorem C29_multiples :
    (∀ (a : G1 (FpV adx)) (P : E1 (FpV adx)), a.Rep P →
      (a.inCorrectSubgroup = true ↔ ∃ k < q, P = k • gen1 (FpV adx))) ∧
    (∀ (a : G2 (FpV adx)) (P : E2 (FpV adx)), a.Rep P →
      (a.inCorrectSubgroup = true ↔ ∃ k < q, P = k • gen2 (FpV adx))) :=
  ⟨fun _ _ h => G1.inCorrectSubgroup_iff_gen h, fun _ _ h => G2.inCorrectSubgroup_iff_gen h⟩

/-- The numbers of points of the two curves: `p + 1 - t` with trace `t = z + 1`, and `h₂ q`. -/
theorem C29_orders :
    Nat.card (E1 (FpV adx)) = p + 0xd201000000010000 ∧
    Nat.card (E2 (FpV adx)) =
      0x5d543a95414e7f1091d50792876a202cd91de4547085abaa68a205b2e5a7ddfa628f1cb4d9e82ef21537e293a6691ae1616ec6e786f0c70cf1c38e31c7238e5 * q :=
  ⟨E1_card _, (E2_card _).trans (by decide +kernel)⟩

/-- The test rejects points of the curve outside the subgroup: points of order 3 and 13. -/
example : ∃ (a : G1 (FpV adx)) (P : E1 (FpV adx)), a.Rep P ∧ P ≠ 0 ∧ q • P ≠ 0 := out1 _
example : ∃ (a : G2 (FpV adx)) (P : E2 (FpV adx)), a.Rep P ∧ P ≠ 0 ∧ q • P ≠ 0 := out2 _
example : (G1.one : G1 (FpV adx)).inCorrectSubgroup = true ∧ (G2.one : G2 (FpV adx)).inCorrectSubgroup = true :=
  one_in _

/-! ## C30 -/

/-- C30: `clearCofactor` multiplies every point of the curve by the effective cofactor of RFC 9380. -/
theorem C30_clearCofactor :
    (∀ (a : G1 (FpV adx)) (P : E1 (FpV adx)), a.Rep P → a.clearCofactor.Rep (hEff1 • P)) ∧
    (∀ (a : G2 (FpV adx)) (P : E2 (FpV adx)), a.Rep P → a.clearCofactor.Rep (hEff2 • P)) :=
  clear_rep_eff

/-- C30: the result passes the curve test and the subgroup test, and `q` times it is the point at infinity. -/
theorem C30_in_subgroup :
    (∀ (a : G1 (FpV adx)), a.isOnCurve FpC.B = true →
      a.clearCofactor.isOnCurve FpC.B = true ∧ a.clearCofactor.inCorrectSubgroup = true) ∧
    (∀ (a : G2 (FpV adx)), a.isOnCurve Fp2.B = true →
      a.clearCofactor.isOnCurve Fp2.B = true ∧ a.clearCofactor.inCorrectSubgroup = true) ∧
    (∀ P : E1 (FpV adx), q • (hEff1 • P) = 0) ∧ (∀ P : E2 (FpV adx), q • (hEff2 • P) = 0) :=
  ⟨fun _ h => G1.clear_valid h, fun _ h => G2.clear_valid h, clear_order⟩

/-- C30: `clearCofactor` is a homomorphism: the result on a sum is `equal` to the sum of the results. -/
theorem C30_homomorphism :
    (∀ (a e : G1 (FpV adx)), a.isOnCurve FpC.B = true → e.isOnCurve FpC.B = true →
      (G1.clearCofactor (a.add e)).equal (a.clearCofactor.add e.clearCofactor) = true) ∧
    (∀ (a e : G2 (FpV adx)), a.isOnCurve Fp2.B = true → e.isOnCurve Fp2.B = true →
      (G2.clearCofactor (a.add e)).equal (a.clearCofactor.add e.clearCofactor) = true) :=
  ⟨fun _ _ h h' => G1.clear_hom h h', fun _ _ h h' => G2.clear_hom h h'⟩

/-- Nothing collapses: the generators are not sent to the point at infinity. -/
theorem C30_nontrivial : hEff1 • gen1 (FpV adx) ≠ 0 ∧ hEff2 • gen2 (FpV adx) ≠ 0 := hEff_gen _

example : ∃ a : G1 (FpV adx), a.isOnCurve FpC.B = true ∧ a.inCorrectSubgroup = false := out1' _
example : ∃ a : G2 (FpV adx), a.isOnCurve Fp2.B = true ∧ a.inCorrectSubgroup = false := out2' _

end Bls.Props
