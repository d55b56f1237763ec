import Verif.Proof.Subgroup2
import Verif.Proof.Keys

/-! Consequences of the membership tests. -/

namespace Bls

attribute [local irreducible] zabs q hEff1 hEff2

theorem exists_lt_smul {G : Type*} [AddCommGroup G] {g P : G} (hg : q • g = 0) (h : P ∈ AddSubgroup.zmultiples g) :
    ∃ k < q, P = k • g := by
  obtain ⟨k, rfl⟩ := AddSubgroup.mem_zmultiples_iff.1 h
  have hq : (0 : ℤ) < q := by exact_mod_cast q_prime.pos
  refine ⟨(k % q).toNat, ?_, ?_⟩
  · have h1 := Int.emod_lt_of_pos k hq
    have h2 := Int.emod_nonneg k hq.ne'
    generalize q = Q at *
    omega
  · rw [← natCast_zsmul, Int.toNat_of_nonneg (Int.emod_nonneg k hq.ne'), Int.emod_def, sub_smul, mul_comm (q : ℤ), mul_smul,
      natCast_zsmul, hg, smul_zero, sub_zero]

theorem smul_smul_zero {G : Type*} [AddCommGroup G] {g : G} (hg : q • g = 0) (k : ℕ) : q • (k • g) = 0 := by
  rw [smul_comm, hg, smul_zero]

variable {K : Type} [Field K] [FpOps K] [LawfulFp K] [DecidableEq K]

theorem G1.inCorrectSubgroup_iff_gen {a : G1 K} {P : E1 K} (h : a.Rep P) :
    a.inCorrectSubgroup = true ↔ ∃ k < q, P = k • gen1 K := by
  rw [G1.inCorrectSubgroup_iff h]
  exact ⟨fun hq => exists_lt_smul (q_smul_gen1 K) (mem_gen1 K hq), fun ⟨k, _, e⟩ => e ▸ smul_smul_zero (q_smul_gen1 K) k⟩

theorem G2.inCorrectSubgroup_iff_gen {a : G2 K} {P : E2 K} (h : a.Rep P) :
    a.inCorrectSubgroup = true ↔ ∃ k < q, P = k • gen2 K := by
  rw [G2.inCorrectSubgroup_iff h]
  exact ⟨fun hq => exists_lt_smul (q_smul_gen2 K) (mem_gen2 K hq), fun ⟨k, _, e⟩ => e ▸ smul_smul_zero (q_smul_gen2 K) k⟩

variable (K) in
theorem one_in : (G1.one : G1 K).inCorrectSubgroup = true ∧ (G2.one : G2 K).inCorrectSubgroup = true :=
  ⟨(G1.inCorrectSubgroup_iff G1.one_rep).2 (q_smul_gen1 _), (G2.inCorrectSubgroup_iff G2.one_rep).2 (q_smul_gen2 _)⟩

variable (K) in
theorem out1 : ∃ (a : G1 K) (P : E1 K), a.Rep P ∧ P ≠ 0 ∧ q • P ≠ 0 :=
  ⟨_, _, pt1_rep K 0 2 (by decide +kernel), pt1_ne_zero K,
    smul_ne_zero_of (goodCurve1 K) (pt1_rep K _ _ _) (by decide +kernel)⟩

variable (K) in
theorem out2 : ∃ (a : G2 K) (P : E2 K), a.Rep P ∧ P ≠ 0 ∧ q • P ≠ 0 :=
  ⟨_, _, pt2_rep K s13x s13y (by decide +kernel), pt2_ne_zero K,
    smul_ne_zero_of (goodCurve2 K) (pt2_rep K _ _ _) (by decide +kernel)⟩

theorem G1.onCurve_iff {a : G1 K} : a.isOnCurve FpC.B = true ↔ ∃ P : E1 K, a.Rep P := by
  rw [FpC.B_eq, Jac.isOnCurve_iff (goodCurve1 K)]

theorem G2.onCurve_iff {a : G2 K} : a.isOnCurve Fp2.B = true ↔ ∃ P : E2 K, a.Rep P := by
  rw [Fp2.B_eq, Jac.isOnCurve_iff (goodCurve2 K)]

theorem G1.clear_valid {a : G1 K} (h : a.isOnCurve FpC.B = true) :
    a.clearCofactor.isOnCurve FpC.B = true ∧ a.clearCofactor.inCorrectSubgroup = true := by
  obtain ⟨P, hP⟩ := G1.onCurve_iff.1 h
  have := G1.clearCofactor_rep hP
  exact ⟨G1.onCurve_iff.2 ⟨_, this⟩, (G1.inCorrectSubgroup_iff this).2 (clear1_order P)⟩

theorem G2.clear_valid {a : G2 K} (h : a.isOnCurve Fp2.B = true) :
    a.clearCofactor.isOnCurve Fp2.B = true ∧ a.clearCofactor.inCorrectSubgroup = true := by
  obtain ⟨P, hP⟩ := G2.onCurve_iff.1 h
  have := G2.clearCofactor_rep hP
  exact ⟨G2.onCurve_iff.2 ⟨_, this⟩, (G2.inCorrectSubgroup_iff this).2 (clear2_order P)⟩

theorem hEff1_eq : hEff1 = zabs + 1 := by decide +kernel

theorem clear_rep_eff :
    (∀ (a : G1 K) (P : E1 K), a.Rep P → a.clearCofactor.Rep (hEff1 • P)) ∧
    (∀ (a : G2 K) (P : E2 K), a.Rep P → a.clearCofactor.Rep (hEff2 • P)) := by
  refine ⟨fun a P h => ?_, fun a P h => ?_⟩
  · rw [hEff1_eq]; exact G1.clearCofactor_rep h
  · rw [← clear2_eq]; exact G2.clearCofactor_rep h

theorem clear_order : (∀ P : E1 K, q • (hEff1 • P) = 0) ∧ (∀ P : E2 K, q • (hEff2 • P) = 0) := by
  refine ⟨fun P => ?_, fun P => ?_⟩
  · rw [hEff1_eq]; exact clear1_order P
  · rw [← clear2_eq]; exact clear2_order P

theorem G1.clear_hom {a e : G1 K} (h : a.isOnCurve FpC.B = true) (h' : e.isOnCurve FpC.B = true) :
    (G1.clearCofactor (a.add e)).equal (a.clearCofactor.add e.clearCofactor) = true := by
  obtain ⟨P, hP⟩ := G1.onCurve_iff.1 h
  obtain ⟨Q, hQ⟩ := G1.onCurve_iff.1 h'
  refine (Jac.equal_iff (G1.clearCofactor_rep (Jac.add_rep (goodCurve1 K) hP hQ))
    (Jac.add_rep (goodCurve1 K) (G1.clearCofactor_rep hP) (G1.clearCofactor_rep hQ))).2 ?_
  exact nsmul_add _ _ _

theorem G2.clear_hom {a e : G2 K} (h : a.isOnCurve Fp2.B = true) (h' : e.isOnCurve Fp2.B = true) :
    (G2.clearCofactor (a.add e)).equal (a.clearCofactor.add e.clearCofactor) = true := by
  obtain ⟨P, hP⟩ := G2.onCurve_iff.1 h
  obtain ⟨Q, hQ⟩ := G2.onCurve_iff.1 h'
  exact (Jac.equal_iff (G2.clearCofactor_rep (Jac.add_rep (goodCurve2 K) hP hQ))
    (Jac.add_rep (goodCurve2 K) (G2.clearCofactor_rep hP) (G2.clearCofactor_rep hQ))).2 (clear2_add _ _ _)

variable (K) in
theorem hEff_gen : hEff1 • gen1 K ≠ 0 ∧ hEff2 • gen2 K ≠ 0 := by
  constructor
  · rw [Ne, Keys.smul_gen1_eq_zero_iff]; decide +kernel
  · rw [Ne, ← addOrderOf_dvd_iff_nsmul_eq_zero, Keys.order_gen2]; decide +kernel

variable (K) in
theorem out1' : ∃ a : G1 K, a.isOnCurve FpC.B = true ∧ a.inCorrectSubgroup = false := by
  obtain ⟨a, P, h, _, hq⟩ := out1 K
  exact ⟨a, G1.onCurve_iff.2 ⟨P, h⟩, by rw [← Bool.not_eq_true, G1.inCorrectSubgroup_iff h]; exact hq⟩

variable (K) in
theorem out2' : ∃ a : G2 K, a.isOnCurve Fp2.B = true ∧ a.inCorrectSubgroup = false := by
  obtain ⟨a, P, h, _, hq⟩ := out2 K
  exact ⟨a, G2.onCurve_iff.2 ⟨P, h⟩, by rw [← Bool.not_eq_true, G2.inCorrectSubgroup_iff h]; exact hq⟩

end Bls
