import Verif.Proof.Exc1
import Verif.Proof.Map2
import Verif.Proof.FpV

/-!
# C31: maps to the curves

The maps are compared with `map_to_curve` of RFC 9380 (`Spec/MapToCurve.lean`). The statement of C31 is false for `g1`:
16 inputs (`Spec/Exceptions.lean`) reach a vanishing denominator of the isogeny and the function returns the triple
`(0, 0, 1)`, which is not on the curve.
-/

namespace Bls.Props
open Bls Rfc

attribute [local irreducible] p q hEff1 hEff2

variable {adx : Bool}

/-- C31 for `g2`: every element of `fp2` is mapped to a point of the curve in the prime-order subgroup. -/
theorem C31_g2 (e : Fp2 (FpV adx)) :
    (G2.mapToCurve e).isOnCurve Fp2.B = true ∧ (G2.mapToCurve e).inCorrectSubgroup = true := by
  obtain ⟨P, -, hP⟩ := map2 e
  exact G2.clear_valid (G2.onCurve_iff.2 ⟨P, hP⟩)

/-- C31 for `g2`: the point is the one of RFC 9380. -/
theorem C31_g2_rfc (e : Fp2 (FpV adx)) : ∃ P, IsMap2 e P ∧ (G2.mapToCurve e).Rep (hEff2 • P) := by
  obtain ⟨P, h, hP⟩ := map2 e
  refine ⟨P, h, ?_⟩
  unfold G2.mapToCurve
  exact clear_rep_eff.2 _ _ hP

/-- The specification determines the point, for both groups. -/
theorem C31_rfc_unique :
    (∀ (e : FpV adx) (P P' : E1 (FpV adx)), IsMap1 e P → IsMap1 e P' → P = P') ∧
    (∀ (e : Fp2 (FpV adx)) (P P' : E2 (FpV adx)), IsMap2 e P → IsMap2 e P' → P = P') := by
  refine ⟨?_, fun _ _ _ => map2_unique⟩
  rintro e P P' ⟨x, y, h1, h2⟩ ⟨x', y', k1, k2⟩
  obtain ⟨rfl, rfl⟩ := sswu_unique cubic1_ne_zero odd1_neg h1 k1
  exact iso_unique h2 k2

/-- C31 for `g1`, in part: every element of `fp` outside the list of exceptions is mapped to a point of the curve in the
prime-order subgroup, the one of RFC 9380. Missing: the 16 elements of the list, for which it is false
(`C31_g1_exceptions`). -/
theorem C31_g1_partial (e : FpV adx) (h : ∀ n ∈ exceptions1, e ≠ (n : FpV adx)) :
    (G1.mapToCurve e).isOnCurve FpC.B = true ∧ (G1.mapToCurve e).inCorrectSubgroup = true ∧
    ∃ P, IsMap1 e P ∧ (G1.mapToCurve e).Rep (hEff1 • P) := by
  have hk : ker1 (G1.swuMapG1 e).1 ≠ 0 := fun h0 =>
    let ⟨n, hn, he⟩ := (Exc.kernel_iff e).1 h0
    h n hn he
  obtain ⟨P, hP, a, ha, e1⟩ := map1 hk
  rw [e1]
  obtain ⟨h1, h2⟩ := G1.clear_valid (G1.onCurve_iff.2 ⟨P, ha⟩)
  exact ⟨h1, h2, P, hP, clear_rep_eff.1 _ _ ha⟩

/-- The negation of C31 for `g1`: on each listed element the function returns `(0, 0, 1)`, which is not on the curve. -/
theorem C31_g1_exceptions (n : ℕ) (h : n ∈ exceptions1) :
    G1.mapToCurve (n : FpV adx) = ⟨0, 0, 1⟩ ∧ (G1.mapToCurve (n : FpV adx)).isOnCurve FpC.B = false := by
  have := Exc.map_bad (Exc.kernel_of_exc (K := FpV adx) h)
  exact ⟨this, by rw [this]; exact Exc.bad_offCurve⟩

/-- The exceptions are 16 different residues. -/
theorem C31_g1_exceptions_list : exceptions1.length = 16 ∧ exceptions1.Nodup ∧ ∀ n ∈ exceptions1, n < p := by
  unfold p
  decide +kernel

/-- RFC 9380 sends the exceptions to the point at infinity. -/
theorem C31_g1_exceptions_rfc (n : ℕ) (h : n ∈ exceptions1) : IsMap1 (n : FpV adx) 0 :=
  ⟨_, _, swu1 _, Or.inl ⟨Or.inl (by rw [xDen1_val, Exc.kernel_of_exc h]; exact zero_pow (by decide)), rfl⟩⟩

/-- `0` and `1` are not exceptional. -/
theorem map_case : ∀ n ∈ exceptions1, (0 : FpV adx) ≠ (n : FpV adx) ∧ (1 : FpV adx) ≠ (n : FpV adx) := by
  intro n hn
  have h : ∀ n ∈ exceptions1, n % p ≠ 0 ∧ n % p ≠ 1 % p := by unfold p; decide +kernel
  refine ⟨fun e => (h n hn).1 (IsFp.natCast_eq_zero_iff.1 e.symm), fun e => (h n hn).2 ?_⟩
  rw [← Nat.cast_one] at e
  exact (IsFp.natCast_eq_iff.1 e).symm

/-- So they are mapped to the subgroup, and the first exception is not mapped to the curve. -/
example : (G1.mapToCurve (0 : FpV adx)).inCorrectSubgroup = true ∧ (G1.mapToCurve (1 : FpV adx)).inCorrectSubgroup = true ∧
    ∃ n ∈ exceptions1, (G1.mapToCurve (n : FpV adx)).isOnCurve FpC.B = false := by
  refine ⟨(C31_g1_partial _ fun n hn => (map_case n hn).1).2.1, (C31_g1_partial _ fun n hn => (map_case n hn).2).2.1, ?_⟩
  obtain ⟨n, hn⟩ := List.exists_mem_of_length_pos (l := exceptions1) (by decide)
  exact ⟨n, hn, (C31_g1_exceptions n hn).2⟩

end Bls.Props
