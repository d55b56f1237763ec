import Verif.Proof.Subgroup
import Verif.Proof.Frobenius

/-! The endomorphisms of the two curves: coordinates, equations and eigenvalues. -/

namespace Bls

open WeierstrassCurve.Affine

section
variable {G : Type*} [AddCommGroup G]

/-- From the relation in `Z[ψ²]` to the characteristic equation. -/
theorem psi_char_of (s : G →+ G) (hs : ∀ P, s (s (s (s P))) - s (s P) + P = 0)
    (hr : ∀ P, s P + psiA • P = psiB • s (s P)) (P : G) : s (s P) + (zabs - 1) • s P + p • P = 0 := by
  have e1 := hs P
  have e2 := hr P
  have e3 := congrArg s e2
  have e4 := congrArg s e3
  rw [map_add, map_nsmul, map_nsmul] at e3
  rw [map_add, map_add, map_nsmul, map_nsmul, map_nsmul, map_nsmul] at e4
  have hz : (zabs - 1) • s P = (zabs - 1 : ℤ) • s P := by
    rw [← natCast_zsmul, show ((zabs - 1 : ℕ) : ℤ) = (zabs : ℤ) - 1 by decide +kernel]
  rw [hz]
  generalize s (s (s (s P))) = P4 at *
  generalize s (s (s P)) = P3 at *
  generalize s (s P) = P2 at *
  generalize s P = P1 at *
  have f1 : ((zabs - 1) * psiB + 1 - (2 * psiA * psiB - psiB * psiB + 1) : ℤ) • P2 = 0 := by
    rw [show ((zabs - 1) * psiB + 1 - (2 * psiA * psiB - psiB * psiB + 1) : ℤ) = 0 by decide +kernel, zero_smul]
  have f2 : (p - (zabs - 1) * psiA - (psiB * psiB - psiA * psiA) : ℤ) • P = 0 := by
    rw [show (p - (zabs - 1) * psiA - (psiB * psiB - psiA * psiA) : ℤ) = 0 by decide +kernel, zero_smul]
  generalize zabs = Z at *
  generalize psiA = A at *
  generalize psiB = B at *
  generalize p = N at *
  linear_combination (norm := module) (Z - 1 - A : ℤ) • e2 + e3 + (B : ℤ) • e4 + (B * B : ℤ) • e1 + f1 + f2

theorem sigma_eigen_iff (s : G →+ G) (hs : ∀ P, s (s P) + s P + P = 0) (ho : ∀ P, q • P = 0 → s P = (zabs ^ 2 - 1) • P)
    (P : G) : s P = (zabs ^ 2 - 1) • P ↔ q • P = 0 := by
  refine ⟨fun h => ?_, ho P⟩
  have := hs P
  rw [h, map_nsmul, h] at this
  have e : (zabs ^ 2 - 1) • (zabs ^ 2 - 1) • P + (zabs ^ 2 - 1) • P + P = q • P := by
    rw [show q = (zabs ^ 2 - 1) * (zabs ^ 2 - 1) + (zabs ^ 2 - 1) + 1 by decide +kernel, add_smul, add_smul, one_smul, mul_smul]
  rw [← e, this]

theorem iterate_twelve (s : G →+ G) (hs : ∀ P, s (s (s (s P))) - s (s P) + P = 0) (P : G) : s^[12] P = P := by
  have h6 : ∀ P, s (s (s (s (s (s P))))) = -P := fun P => by
    have e1 := hs P
    have e2 := congrArg s (congrArg s e1)
    rw [map_add, map_add, map_sub, map_sub, map_zero, map_zero] at e2
    generalize s (s (s (s (s (s P))))) = P6 at *
    generalize s (s (s (s P))) = P4 at *
    generalize s (s P) = P2 at *
    linear_combination (norm := module) e1 + e2
  change s (s (s (s (s (s (s (s (s (s (s (s P))))))))))) = P
  rw [h6, h6, neg_neg]

end

section
variable {K : Type} [Field K] [FpOps K] [LawfulFp K] [DecidableEq K]

/-- `g1::glvEndomorphism` on points. -/
theorem sigma_some {x y : K} (h : (curve (4 : K)).Nonsingular x y) :
    ∃ h', sigma K (.some x y h) = (.some ((betaN : K) * x) y h' : E1 K) := by
  have e : sigma K (.some x y h) = .some _ _ ((sigmaData K).map_nonsingular (goodCurve1 K) h) := rfl
  obtain ⟨h1, h2⟩ := some_congr (h := (sigmaData K).map_nonsingular (goodCurve1 K) h)
    (x' := (betaN : K) * x) (y' := y) (by rw [sigma_u2]; rfl) (by rw [sigma_u3, one_mul]; rfl)
  exact ⟨h1, e.trans h2⟩

theorem psiX_xi : N2.cast K psiXN * Fp2.xi ^ ((p - 1) / 3) = 1 := by
  rw [← cast_xi, ← N2.to_pow, ← N2.to_mul, ← N2.to_one]
  exact N2.to_eq (by decide +kernel)

theorem psiY_xi : N2.cast K psiYN * Fp2.xi ^ ((p - 1) / 2) = 1 := by
  rw [← cast_xi, ← N2.to_pow, ← N2.to_mul, ← N2.to_one]
  exact N2.to_eq (by decide +kernel)

theorem psi_some {x y : Fp2 K} (h : (curve (4 * Fp2.xi : Fp2 K)).Nonsingular x y) :
    ∃ h', psiHom K (.some x y h) = (.some (N2.cast K psiXN * x.conj) (N2.cast K psiYN * y.conj) h' : E2 K) := by
  have e : psiHom K (.some x y h) = .some _ _ ((psiData K).map_nonsingular (goodCurve2 K) h) := rfl
  obtain ⟨h1, h2⟩ := some_congr (h := (psiData K).map_nonsingular (goodCurve2 K) h)
    (x' := N2.cast K psiXN * x.conj) (y' := N2.cast K psiYN * y.conj)
    (by rw [show (psiData K).u ^ 2 = N2.cast K psiXN from psi_u2 K]; rfl)
    (by rw [show (psiData K).u ^ 3 = N2.cast K psiYN from psi_u3 K]; rfl)
  exact ⟨h1, e.trans h2⟩

theorem psi_eigen_iff (P : E2 K) : psiHom K P = -(zabs • P) ↔ q • P = 0 :=
  ⟨psi_sound _ (psi_quartic K), psi_of_order K⟩

theorem psi_char (P : E2 K) : psiHom K (psiHom K P) + (zabs - 1) • psiHom K P + p • P = 0 :=
  psi_char_of _ (psi_quartic K) (psi_relation K) P

theorem psi_eq_p {P : E2 K} (h : q • P = 0) : psiHom K P = p • P := by
  rw [psi_of_order K h, eq_comm, ← sub_eq_zero, sub_neg_eq_add, ← add_smul]
  obtain ⟨k, hk⟩ : q ∣ p + zabs := ⟨(p + zabs) / q, by decide +kernel⟩
  rw [hk, mul_comm q k, mul_smul, h, nsmul_zero]

theorem frobeniusMap_iterate {a : G2 K} {P : E2 K} (h : a.Rep P) (n : ℕ) : (G2.frobeniusMap a n).Rep ((psiHom K)^[n] P) := by
  induction n generalizing a P with
  | zero => exact h
  | succ n ih =>
    have e : G2.frobeniusMap a (n + 1) = G2.frobeniusMap (G2.frobeniusMap a 1) n := rfl
    rw [e, Function.iterate_succ_apply]
    exact ih (frobeniusMap_rep h)

end

end Bls
