import Verif.Proof.Target
import Verif.Props.Bilinear

/-!
# C72: the target group is the set of the pairing values

`pairing`, `Member1` and `Member2` as in C34.
-/

namespace Bls.Props
open Bls Pairing
attribute [local irreducible] p q

variable {adx : Bool} {σ : Type}

/-- C72: with a first argument other than infinity, every value that `isGtValid` accepts is the pairing with a second
argument, and with one only. -/
theorem C72_second (a : G1 (FpV adx)) (ha : Member1 a) (h0 : a.isZero = false) (v : Fp12 (FpV adx)) (hv : v.isGtValid = true)
    (y : Option (σ → σ)) (s : σ) :
    ∃ b, Member2 b ∧ pairing a b y s = some v ∧ ∀ b', Member2 b' → pairing a b' y s = some v → b'.equal b = true := by
  obtain ⟨P, hP, oP⟩ := valid1 ha
  have hP0 : P ≠ 0 := fun e => by
    rw [hP.isZero_iff.2 e] at h0
    exact Bool.noConfusion h0
  obtain ⟨Q, oQ, hQ⟩ := eps_onto_right oP hP0 ((isGtValid_iff v).1 hv)
  obtain ⟨b, hb⟩ := Jac.exists_rep Q
  refine ⟨b, ⟨G2.onCurve_iff.2 ⟨Q, hb⟩, (G2.inCorrectSubgroup_iff hb).2 oQ⟩, (calc_eps hP hb y s).trans (congrArg some hQ), ?_⟩
  intro b' hb' h
  obtain ⟨Q', hQ', oQ'⟩ := valid2 hb'
  have e := Option.some.inj ((calc_eps hP hQ' y s).symm.trans h)
  exact (Jac.equal_iff hQ' hb).2 (eps_inj_right oP hP0 oQ' oQ (e.trans hQ.symm))

example (y : Option (σ → σ)) (s : σ) : ∃ b, Member2 b ∧ pairing (G1.one : G1 (FpV adx)) b y s = some (gtGen fun n => (n : FpV adx)) := by
  obtain ⟨b, h, e, -⟩ := C72_second (G1.one : G1 (FpV adx)) valid_one.1 (Jac.isZero_false.2 G1.one_rep.1) (gtGen fun n => (n : FpV adx))
    (by rw [isGtValid_iff, ← eps_gen]; exact eps_order _ _ (q_smul_gen1 _) (q_smul_gen2 _)) y s
  exact ⟨b, h, e⟩

/-- C72: the same with a second argument other than infinity. -/
theorem C72_first (b : G2 (FpV adx)) (hb : Member2 b) (h0 : b.isZero = false) (v : Fp12 (FpV adx)) (hv : v.isGtValid = true)
    (y : Option (σ → σ)) (s : σ) :
    ∃ a, Member1 a ∧ pairing a b y s = some v ∧ ∀ a', Member1 a' → pairing a' b y s = some v → a'.equal a = true := by
  obtain ⟨Q, hQ, oQ⟩ := valid2 hb
  have hQ0 : Q ≠ 0 := fun e => by
    rw [hQ.isZero_iff.2 e] at h0
    exact Bool.noConfusion h0
  obtain ⟨P, oP, hP⟩ := eps_onto_left oQ hQ0 ((isGtValid_iff v).1 hv)
  obtain ⟨a, ha⟩ := Jac.exists_rep P
  refine ⟨a, ⟨G1.onCurve_iff.2 ⟨P, ha⟩, (G1.inCorrectSubgroup_iff ha).2 oP⟩, (calc_eps ha hQ y s).trans (congrArg some hP), ?_⟩
  intro a' ha' h
  obtain ⟨P', hP', oP'⟩ := valid1 ha'
  have e := Option.some.inj ((calc_eps hP' hQ y s).symm.trans h)
  exact (Jac.equal_iff hP' ha).2 (eps_inj_left oP' oP oQ hQ0 (e.trans hP.symm))

example (y : Option (σ → σ)) (s : σ) : ∃ a, Member1 a ∧ pairing a (G2.one : G2 (FpV adx)) y s = some (gtGen fun n => (n : FpV adx)) := by
  obtain ⟨a, h, e, -⟩ := C72_first (G2.one : G2 (FpV adx)) valid_one.2 (Jac.isZero_false.2 G2.one_rep.1) (gtGen fun n => (n : FpV adx))
    (by rw [isGtValid_iff, ← eps_gen]; exact eps_order _ _ (q_smul_gen1 _) (q_smul_gen2 _)) y s
  exact ⟨a, h, e⟩

/-- C72: every pairing value of members is accepted by `isGtValid`, which accepts exactly `q` values. -/
theorem C72_size :
    (∀ (a : G1 (FpV adx)) (b : G2 (FpV adx)) (y : Option (σ → σ)) (s : σ), Member1 a → Member2 b →
      ∃ v, pairing a b y s = some v ∧ v.isGtValid = true) ∧
    Nat.card {v : Fp12 (FpV adx) // v.isGtValid = true} = q := by
  constructor
  · intro a b y s ha hb
    obtain ⟨P, hP, oP⟩ := valid1 ha
    obtain ⟨Q, hQ, oQ⟩ := valid2 hb
    exact ⟨_, calc_eps hP hQ y s, (isGtValid_iff _).2 (eps_order P Q oP oQ)⟩
  · rw [← card_roots (K := FpV adx)]
    exact Nat.card_congr (Equiv.subtypeEquivRight fun v => isGtValid_iff v)

/-- C72: `final_exponentiation` reaches every value that `isGtValid` accepts, and gives one exactly at the `q`-th powers of
the nonzero elements. -/
theorem C72_final :
    (∀ v : Fp12 (FpV adx), v.isGtValid = true → ∃ f ≠ 0, finalExponentiation f = some v) ∧
    (∀ f : Fp12 (FpV adx), finalExponentiation f = some 1 ↔ ∃ g ≠ 0, f = g ^ q) :=
  ⟨fun v hv => final_onto ((isGtValid_iff v).1 hv), final_kernel⟩

/-- Hypotheses met: the generators are members other than infinity, and the published value is accepted and is not one. -/
example : Member1 (G1.one : G1 (FpV adx)) ∧ (G1.one : G1 (FpV adx)).isZero = false ∧
    Member2 (G2.one : G2 (FpV adx)) ∧ (G2.one : G2 (FpV adx)).isZero = false ∧
    (gtGen fun n => (n : FpV adx)).isGtValid = true ∧ (gtGen fun n => (n : FpV adx)) ≠ 1 := by
  refine ⟨valid_one.1, Jac.isZero_false.2 G1.one_rep.1, valid_one.2, Jac.isZero_false.2 G2.one_rep.1, ?_, ?_⟩
  · rw [isGtValid_iff, ← eps_gen]
    exact eps_order _ _ (q_smul_gen1 _) (q_smul_gen2 _)
  · rw [← eps_gen]
    exact eps_gen_ne _

end Bls.Props
