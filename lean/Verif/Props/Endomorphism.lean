import Verif.Proof.Endomorphism
import Verif.Proof.FpV

/-!
# C62: the endomorphisms `glvEndomorphism`, `psi` and `frobeniusMap` of the groups
-/

namespace Bls.Props
open Bls WeierstrassCurve.Affine

variable (adx : Bool)

/-- C62: `g1::glvEndomorphism` computes an endomorphism `σ` of the curve, `(x, y) ↦ (β x, y)` with a primitive cube root
of unity `β`. It satisfies `σ² + σ + 1 = 0`, and it is multiplication by `z² - 1` on the points of order `q` and on no
others. -/
theorem C62_glv : ∃ (s : E1 (FpV adx) →+ E1 (FpV adx)) (β : FpV adx), β ^ 2 + β + 1 = 0 ∧
    (∀ (a : G1 (FpV adx)) (P : E1 (FpV adx)), a.Rep P → a.glvEndomorphism.Rep (s P)) ∧
    (∀ x y h, ∃ h', s (.some x y h) = .some (β * x) y h') ∧
    (∀ P, s (s P) + s P + P = 0) ∧
    (∀ P, s P = (0xd201000000010000 ^ 2 - 1) • P ↔ q • P = 0) :=
  ⟨sigma _, (betaN : FpV adx), beta_sum _, fun _ _ h => glvEndomorphism_rep h, fun _ _ h => sigma_some h, sigma_sum _,
    sigma_eigen_iff _ (sigma_sum _) (fun _ => sigma_of_order _)⟩

/-- C62: `g2::psi` computes an endomorphism `ψ` of the curve,
`(x, y) ↦ (x̄ / ξ^((p-1)/3), ȳ / ξ^((p-1)/2))` with `ξ = 1 + u`: the Frobenius map of the curve over `F_p` moved to the
twist. It satisfies the characteristic equation `ψ² - t ψ + p = 0` with the trace `t = z + 1` on all points, it is
multiplication by `z` on the points of order `q` and on no others, and so also multiplication by `p` there. -/
theorem C62_psi : ∃ (s : E2 (FpV adx) →+ E2 (FpV adx)) (g h : Fp2 (FpV adx)),
    g * Fp2.xi ^ ((p - 1) / 3) = 1 ∧ h * Fp2.xi ^ ((p - 1) / 2) = 1 ∧
    (∀ (a : G2 (FpV adx)) (P : E2 (FpV adx)), a.Rep P → a.psi.Rep (s P)) ∧
    (∀ x y n, ∃ n', s (.some x y n) = .some (g * x.conj) (h * y.conj) n') ∧
    (∀ P, s (s P) + (0xd201000000010000 - 1) • s P + p • P = 0) ∧
    (∀ P, s P = -(0xd201000000010000 • P) ↔ q • P = 0) ∧
    (∀ P, q • P = 0 → s P = p • P) ∧
    (∀ (a : G2 (FpV adx)) (P : E2 (FpV adx)) (n : ℕ), a.Rep P → (a.frobeniusMap n).Rep (s^[n] P)) ∧
    (∀ P, s^[12] P = P) :=
  ⟨psiHom _, _, _, psiX_xi, psiY_xi, fun _ _ h => psi_rep h, fun _ _ h => psi_some h, psi_char, psi_eigen_iff,
    fun _ h => psi_eq_p h, fun _ _ n h => frobeniusMap_iterate h n, iterate_twelve _ (psi_quartic _)⟩

/-- C62: as a statement about the functions: the endomorphisms respect `add`, and the membership tests could be replaced
by a comparison with one multiplication. -/
theorem C62_tests :
    (∀ a e : G1 (FpV adx), a.isOnCurve FpC.B = true → e.isOnCurve FpC.B = true →
      (G1.glvEndomorphism (a.add e)).equal (a.glvEndomorphism.add e.glvEndomorphism) = true) ∧
    (∀ a e : G2 (FpV adx), a.isOnCurve Fp2.B = true → e.isOnCurve Fp2.B = true →
      (G2.psi (a.add e)).equal (a.psi.add e.psi) = true ∧ (a.frobeniusMap 1).equal a.psi = true ∧
      (a.frobeniusMap 12).equal a = true) ∧
    (∀ a : G1 (FpV adx), a.isOnCurve FpC.B = true →
      a.inCorrectSubgroup = a.glvEndomorphism.equal (a.scale [0x00000000ffffffff, 0xac45a4010001a402])) ∧
    (∀ a : G2 (FpV adx), a.isOnCurve Fp2.B = true →
      a.inCorrectSubgroup = a.psi.equal (a.scale [0xd201000000010000]).negate) := by
  refine ⟨fun a e ha he => ?_, fun a e ha he => ⟨?_, ?_, ?_⟩, fun a ha => ?_, fun a ha => ?_⟩
  · obtain ⟨P, hP⟩ := G1.onCurve_iff.1 ha
    obtain ⟨Q, hQ⟩ := G1.onCurve_iff.1 he
    exact (Jac.equal_iff (glvEndomorphism_rep (Jac.add_rep (goodCurve1 _) hP hQ))
      (Jac.add_rep (goodCurve1 _) (glvEndomorphism_rep hP) (glvEndomorphism_rep hQ))).2 (map_add _ _ _)
  · obtain ⟨P, hP⟩ := G2.onCurve_iff.1 ha
    obtain ⟨Q, hQ⟩ := G2.onCurve_iff.1 he
    exact (Jac.equal_iff (psi_rep (Jac.add_rep (goodCurve2 _) hP hQ))
      (Jac.add_rep (goodCurve2 _) (psi_rep hP) (psi_rep hQ))).2 (map_add _ _ _)
  · obtain ⟨P, hP⟩ := G2.onCurve_iff.1 ha
    exact (Jac.equal_iff (frobeniusMap_rep hP) (psi_rep hP)).2 rfl
  · obtain ⟨P, hP⟩ := G2.onCurve_iff.1 ha
    exact (Jac.equal_iff (frobeniusMap_iterate hP 12) hP).2 (iterate_twelve _ (psi_quartic _) P)
  · obtain ⟨P, hP⟩ := G1.onCurve_iff.1 ha
    rw [Bool.eq_iff_iff, G1.inCorrectSubgroup_iff hP, ← sigma_eigen_iff _ (sigma_sum _) (fun _ => sigma_of_order _),
      Jac.equal_iff (glvEndomorphism_rep hP) (Jac.scale_rep (goodCurve1 _) hP _),
      show wordsVal [0x00000000ffffffff, 0xac45a4010001a402] = zabs ^ 2 - 1 by decide +kernel]
  · obtain ⟨P, hP⟩ := G2.onCurve_iff.1 ha
    rw [Bool.eq_iff_iff, G2.inCorrectSubgroup_iff hP, ← psi_eigen_iff,
      Jac.equal_iff (psi_rep hP) (Jac.neg_rep (Jac.scale_rep (goodCurve2 _) hP _)),
      show wordsVal [0xd201000000010000] = zabs by decide +kernel]

/-- Points in and outside of the subgroups exist on both curves, so both sides of the equivalences occur. -/
example : (∃ P : E1 (FpV adx), P ≠ 0 ∧ q • P = 0) ∧ (∃ P : E1 (FpV adx), q • P ≠ 0) ∧
    (∃ P : E2 (FpV adx), P ≠ 0 ∧ q • P = 0) ∧ ∃ P : E2 (FpV adx), q • P ≠ 0 := by
  obtain ⟨_, P1, _, _, h1⟩ := out1 (FpV adx)
  obtain ⟨_, P2, _, _, h2⟩ := out2 (FpV adx)
  exact ⟨⟨_, gen1_ne_zero _, q_smul_gen1 _⟩, ⟨P1, h1⟩, ⟨_, gen2_ne_zero _, q_smul_gen2 _⟩, ⟨P2, h2⟩⟩

end Bls.Props
