import Verif.Proof.Nondeg
import Verif.Proof.Subgroup
import Verif.Proof.Keys

/-! The pairing of two subgroup points is one only if one of them is the point at infinity. -/

namespace Bls.Pairing

section
variable (K : Type) [Field K] [FpOps K] [LawfulFp K] [DecidableEq K]

attribute [local irreducible] p q finalExp genVal

theorem jac1_map : (jac1 gen1X gen1Y).map (NatP.cast K) = ⟨(gen1X : K), (gen1Y : K), 1⟩ := by
  have e : NatP.cast K (1 : ℕ) = 1 := Nat.cast_one
  simp only [jac1, Jac.map, e]
  rfl

theorem jac2_map (x y : N2) : (jac2 x y).map (Fp2.map (NatP.cast K)) = ⟨x.cast K, y.cast K, 1⟩ := by
  have e : Fp2.map (NatP.cast K) ⟨(1 : ℕ), (0 : ℕ)⟩ = 1 := by
    ext
    · exact Nat.cast_one
    · exact Nat.cast_zero
  simp only [jac2, Jac.map, e]
  rfl

theorem pairVal_gen (P : G1 NatP) (tp : G2 NatP) (h : (tp.map (Fp2.map (NatP.cast K)) : G2 K).isZero = false) :
    pairVal (P.map (NatP.cast K) : G1 K) (tp.map (Fp2.map (NatP.cast K)) : G2 K) =
      (powS 4400 finalExp Fp12.one (millerS P tp 63 tp Fp12.one).conjugate).map (NatP.cast K) := by
  have hm := millerS_eq (NatP.cast K) P tp 63 0 tp Fp12.one
    (fun k => lineVal (P.map (NatP.cast K) : G1 K) (entry (preCompute (tp.map (Fp2.map (NatP.cast K)) : G2 K)) k))
    (fun j _ => by
      rw [zero_add, preCompute, h]
      rfl)
  rw [powS_eq _ _ _ _ _ (by unfold finalExp p q; decide +kernel), Fp12.map_one, Fp12.one_eq, one_mul,
    Fp12.map_conjugate, Fp12.conjugate_eq, ← hm, Fp12.map_one, Fp12.one_eq]
  rfl

theorem eps_gen_map : eps (gen1 K) (gen2 K) = genVal.map (NatP.cast K) := by
  have h : eps (gen1 K) (gen2 K) = pairVal (⟨(gen1X : K), (gen1Y : K), 1⟩ : G1 K)
      ⟨N2.cast K ⟨gen2X0, gen2X1⟩, N2.cast K ⟨gen2Y0, gen2Y1⟩, 1⟩ := rfl
  rw [h, ← jac1_map, ← jac2_map, pairVal_gen, genVal]
  rw [jac2_map]
  exact Jac.isZero_false.2 one_ne_zero

theorem map_equal_aux {v w : Fp12 NatP} (h : v.equal w = true) : v.map (NatP.cast K) = w.map (NatP.cast K) := by
  have e : ∀ x y : NatP, Ops.equal x y = true → NatP.cast K x = NatP.cast K y := fun x y h => by
    rw [← OpsHom.h_equal (f := NatP.cast K)] at h
    exact (LawfulOps.equal_iff (F := K) _ _).1 h
  simp only [Fp12.equal, Fp6.equal, Fp2.equal, Bool.and_eq_true] at h
  obtain ⟨⟨⟨⟨h1, h2⟩, h3, h4⟩, h5, h6⟩, ⟨⟨h7, h8⟩, h9, h10⟩, h11, h12⟩ := h
  simp only [Fp12.map, Fp6.map, Fp2.map, e _ _ h1, e _ _ h2, e _ _ h3, e _ _ h4, e _ _ h5, e _ _ h6, e _ _ h7,
    e _ _ h8, e _ _ h9, e _ _ h10, e _ _ h11, e _ _ h12]

/-- The pairing of the generators. -/
theorem eps_gen : eps (gen1 K) (gen2 K) = gtGen fun n => (n : K) := by
  have h := genVal_eq
  rw [Strict.force_eq] at h
  rw [eps_gen_map, map_equal_aux K h]
  rfl

theorem eps_gen_ne : eps (gen1 K) (gen2 K) ≠ 1 := by
  rw [eps_gen]
  intro h
  have h1 := congrArg (fun v : Fp12 K => v.c0.c0.c0) h
  have h2 := (IsFp.natCast_eq_iff (K := K) (b := 1)).1 (h1.trans Nat.cast_one.symm)
  revert h2
  unfold p
  decide +kernel

variable {K}

theorem eps_order (P : E1 K) (Q : E2 K) (hP : q • P = 0) (hQ : q • Q = 0) : eps P Q ^ q = 1 := by
  rw [← eps_smul_left hP hQ, hP, eps_zero_left]

/-- Nondegeneracy. -/
theorem eps_eq_one_iff {P : E1 K} {Q : E2 K} (hP : q • P = 0) (hQ : q • Q = 0) : eps P Q = 1 ↔ P = 0 ∨ Q = 0 := by
  constructor
  · intro h
    obtain ⟨m, _, rfl⟩ := exists_lt_smul (q_smul_gen1 K) (mem_gen1 K hP)
    obtain ⟨n, _, rfl⟩ := exists_lt_smul (q_smul_gen2 K) (mem_gen2 K hQ)
    rw [eps_smul_left (q_smul_gen1 K) hQ, eps_smul_right (q_smul_gen1 K) (q_smul_gen2 K), ← pow_mul] at h
    have hord : orderOf (eps (gen1 K) (gen2 K)) = q := by
      have := Fact.mk q_prime
      exact orderOf_eq_prime (eps_order _ _ (q_smul_gen1 K) (q_smul_gen2 K)) (eps_gen_ne K)
    rw [← orderOf_dvd_iff_pow_eq_one, hord, q_prime.dvd_mul] at h
    rcases h with h | h
    · exact .inr ((addOrderOf_dvd_iff_nsmul_eq_zero.1 ((Keys.order_gen2 (K := K)).symm ▸ h)))
    · exact .inl ((addOrderOf_dvd_iff_nsmul_eq_zero.1 ((Keys.order_gen1 (K := K)).symm ▸ h)))
  · rintro (rfl | rfl)
    · exact eps_zero_left _
    · exact eps_zero_right _

/-- Injectivity in the second argument, for a generator. -/
theorem eps_inj_right {P : E1 K} {Q R : E2 K} (hP : q • P = 0) (hP0 : P ≠ 0) (hQ : q • Q = 0) (hR : q • R = 0)
    (h : eps P Q = eps P R) : Q = R := by
  have hn : q • (-R) = 0 := by rw [neg_nsmul, hR, neg_zero]
  have h0 : eps P (R + -R) = 1 := by rw [add_neg_cancel, eps_zero_right]
  have h1 : eps P (Q + -R) = 1 := by
    rw [eps_add_right hP hQ hn, h, ← eps_add_right hP hR hn, h0]
  rcases (eps_eq_one_iff hP (order_add hQ hn)).1 h1 with h2 | h2
  · exact absurd h2 hP0
  · rwa [← sub_eq_add_neg, sub_eq_zero] at h2

variable {σ : Type}

/-- `add_pair` and `calculate` on points. -/
theorem calc_eps {a : G1 K} {e : G2 K} {P : E1 K} {Q : E2 K} (h : a.Rep P) (h' : e.Rep Q) (y : Option (σ → σ)) (s : σ) :
    (calculate (addPair [] a e) y s).map Prod.fst = some (eps P Q) := by
  rw [calculate_eq, Option.map_some, addPair_eps h h', List.map_nil, List.prod_nil, one_mul]

theorem valid1 {a : G1 K} (h : a.isOnCurve FpC.B = true ∧ a.inCorrectSubgroup = true) :
    ∃ P : E1 K, a.Rep P ∧ q • P = 0 := by
  obtain ⟨P, hP⟩ := G1.onCurve_iff.1 h.1
  exact ⟨P, hP, (G1.inCorrectSubgroup_iff hP).1 h.2⟩

theorem valid2 {a : G2 K} (h : a.isOnCurve Fp2.B = true ∧ a.inCorrectSubgroup = true) :
    ∃ P : E2 K, a.Rep P ∧ q • P = 0 := by
  obtain ⟨P, hP⟩ := G2.onCurve_iff.1 h.1
  exact ⟨P, hP, (G2.inCorrectSubgroup_iff hP).1 h.2⟩

end

end Bls.Pairing
