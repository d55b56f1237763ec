import Verif.Proof.Binding
import Verif.Proof.PrimeQ
import Verif.Spec.Threshold
import Mathlib.LinearAlgebra.Lagrange

/-! Linear combinations of keys and signatures. -/

namespace Bls.Sig
open Bls Rfc Pairing

attribute [local irreducible] p q hEff2 eps pairVal

section
variable {G : Type*} [AddCommGroup G]

theorem smul_congr {P : G} (o : q • P = 0) {a b : ℕ} (h : (a : ZMod q) = b) : a • P = b • P := by
  have h := (ZMod.natCast_eq_natCast_iff' a b q).1 h
  rw [← smul_mod o a, h, smul_mod o]

theorem zip_ofFn {α β : Type*} {n : ℕ} (f : Fin n → α) (g : Fin n → β) :
    (List.ofFn f).zip (List.ofFn g) = List.ofFn fun i => (f i, g i) := by
  apply List.ext_getElem
  · simp
  · intro i h1 h2; simp

theorem forall₂_ofFn {α β : Type*} {R : α → β → Prop} {n : ℕ} {f : Fin n → α} {g : Fin n → β} (h : ∀ i, R (f i) (g i)) :
    List.Forall₂ R (List.ofFn f) (List.ofFn g) := by
  rw [List.forall₂_iff_get]
  refine ⟨by simp, fun i h1 h2 => ?_⟩
  simpa using h _

theorem sum_zip {n : ℕ} (P : Fin n → G) (w : Fin n → List UInt64) :
    (((List.ofFn P).zip (List.ofFn w)).map fun e => wordsVal e.2 • e.1).sum = ∑ i, wordsVal (w i) • P i := by
  rw [zip_ofFn, List.map_ofFn, List.sum_ofFn]
  rfl

theorem sum_smul_smul {n : ℕ} {P : G} (o : q • P = 0) (w sk : Fin n → ℕ) {c : ℕ}
    (hc : (c : ZMod q) = ∑ i, (w i : ZMod q) * sk i) : ∑ i, w i • sk i • P = c • P := by
  have h : (c : ZMod q) = ((∑ i, w i * sk i : ℕ) : ZMod q) := by rw [hc]; push_cast; rfl
  rw [smul_congr o h, ← Finset.sum_nsmul_assoc]
  refine Finset.sum_congr rfl fun i _ => ?_
  rw [mul_comm, mul_nsmul]
end

variable {K : Type} [Field K] [FpOps K] [LawfulFp K] [DecidableEq K]

theorem weightedSum1_ofFn {n : ℕ} {a : Fin n → G1 K} {P : Fin n → E1 K} (h : ∀ i, (a i).Rep (P i)) (w : Fin n → List UInt64)
    (hw : ∀ i, (w i).length = 4) : (Jac.weightedSum (List.ofFn a) (List.ofFn w)).Rep (∑ i, wordsVal (w i) • P i) := by
  rw [← sum_zip]
  exact Jac.weightedSum_rep (goodCurve1 K) (forall₂_ofFn h) _ (by simpa [List.mem_ofFn] using hw)

theorem weightedSum2_ofFn {n : ℕ} {a : Fin n → G2 K} {P : Fin n → E2 K} (h : ∀ i, (a i).Rep (P i)) (w : Fin n → List UInt64)
    (hw : ∀ i, (w i).length = 4) : (Jac.weightedSum (List.ofFn a) (List.ofFn w)).Rep (∑ i, wordsVal (w i) • P i) := by
  rw [← sum_zip]
  exact Jac.weightedSum_rep (goodCurve2 K) (forall₂_ofFn h) _ (by simpa [List.mem_ofFn] using hw)

theorem sign_rep' {sk : List UInt64} {m : List UInt8} {e s : G2 K} (he : fromMessage m ciphersuiteId = some e)
    (h : sign sk m = some s) {P : E2 K} (r : e.Rep P) : s.Rep (wordsVal sk • P) := by
  rw [sign, he, Option.map_some] at h
  obtain rfl := Option.some.inj h
  exact Jac.scale_rep (goodCurve2 K) r sk

/-- The weighted sum of public keys. -/
theorem combine_keys {n : ℕ} (w sk : Fin n → List UInt64) (hw : ∀ i, (w i).length = 4) {c : List UInt64}
    (hc : (wordsVal c : ZMod q) = ∑ i, (wordsVal (w i) : ZMod q) * wordsVal (sk i)) :
    (Jac.weightedSum (List.ofFn fun i => (Keys.publicKey (sk i) : G1 K)) (List.ofFn w)).equal (Keys.publicKey c) = true := by
  have h := weightedSum1_ofFn (fun i => Keys.publicKey_rep (K := K) (sk i)) w hw
  rw [sum_smul_smul (q_smul_gen1 K) _ _ hc] at h
  rw [Jac.equal_iff h (Keys.publicKey_rep c)]

theorem combine_rep {n : ℕ} (w sk : Fin n → List UInt64) (hw : ∀ i, (w i).length = 4) {c : List UInt64}
    (hc : (wordsVal c : ZMod q) = ∑ i, (wordsVal (w i) : ZMod q) * wordsVal (sk i)) {m : List UInt8} {e : G2 K}
    (he : fromMessage m ciphersuiteId = some e) {P : E2 K} (r : e.Rep P) (o : q • P = 0) {s : Fin n → G2 K}
    (hs : ∀ i, sign (sk i) m = some (s i)) :
    (Jac.weightedSum (List.ofFn s) (List.ofFn w)).Rep (wordsVal c • P) := by
  have h := weightedSum2_ofFn (fun i => sign_rep' he (hs i) r) w hw
  rwa [sum_smul_smul o _ _ hc] at h

/-- The weighted sum of signatures. -/
theorem combine_signatures {n : ℕ} (w sk : Fin n → List UInt64) (hw : ∀ i, (w i).length = 4) {c : List UInt64}
    (hc : (wordsVal c : ZMod q) = ∑ i, (wordsVal (w i) : ZMod q) * wordsVal (sk i)) {m : List UInt8} {t : G2 K}
    (ht : sign c m = some t) {s : Fin n → G2 K} (hs : ∀ i, sign (sk i) m = some (s i)) :
    (Jac.weightedSum (List.ofFn s) (List.ofFn w)).equal t = true ∧
      verify (Keys.publicKey c) m (Jac.weightedSum (List.ofFn s) (List.ofFn w)) = some true := by
  cases e : (fromMessage m ciphersuiteId : Option (G2 K)) with
  | none => rw [sign, e] at ht; exact absurd ht (by simp)
  | some a =>
    obtain ⟨P, r, o⟩ := fromMessage_some id_length.1 e
    have h := combine_rep w sk hw hc e r o hs
    refine ⟨(Jac.equal_iff h (sign_rep' e ht r)).2 rfl, ?_⟩
    rw [verify_eq, e, Option.bind_some]
    obtain ⟨b, e1, hb⟩ := core_iff (Keys.publicKey c) (Jac.weightedSum (List.ofFn s) (List.ofFn w)) r o
    rw [e1, hb.2]
    refine ⟨wordsVal c % q, Nat.mod_lt _ q_prime.pos, ?_, ?_⟩
    · rw [smul_mod (q_smul_gen1 _)]; exact Keys.publicKey_rep c
    · rw [smul_mod o]; exact h

/-- One wrong share. -/
theorem combine_wrong {n : ℕ} (w sk : Fin n → List UInt64) (hw : ∀ i, (w i).length = 4) {c : List UInt64}
    (hc : (wordsVal c : ZMod q) = ∑ i, (wordsVal (w i) : ZMod q) * wordsVal (sk i)) {m : List UInt8}
    {s : Fin n → G2 K} (hs : ∀ i, sign (sk i) m = some (s i)) (k : Fin n) (hk : (wordsVal (w k) : ZMod q) ≠ 0) {t : G2 K}
    (ht : t.isOnCurve Fp2.B = true ∧ t.inCorrectSubgroup = true) (hne : t.equal (s k) = false) :
    verify (Keys.publicKey c) m (Jac.weightedSum (List.ofFn (Function.update s k t)) (List.ofFn w)) = some false := by
  cases e : (fromMessage m ciphersuiteId : Option (G2 K)) with
  | none => have := hs k; rw [sign, e] at this; exact absurd this (by simp)
  | some a =>
    obtain ⟨P, r, o⟩ := fromMessage_some id_length.1 e
    obtain ⟨T, rT, oT⟩ := member2.1 ht
    have rS := sign_rep' e (hs k) r
    have hTS : T ≠ wordsVal (sk k) • P := fun h => by
      rw [Bool.eq_false_iff] at hne
      exact hne ((Jac.equal_iff rT rS).2 h)
    let Q : Fin n → E2 K := Function.update (fun i => wordsVal (sk i) • P) k T
    have hQ : ∀ i, (Function.update s k t i).Rep (Q i) := by
      intro i
      by_cases hi : i = k
      · subst hi; simpa [Q] using rT
      · simpa [Q, hi] using sign_rep' e (hs i) r
    have h := weightedSum2_ofFn hQ w hw
    have hsum : ∑ i, wordsVal (w i) • Q i = wordsVal c • P + wordsVal (w k) • (T - wordsVal (sk k) • P) := by
      rw [← sum_smul_smul o (fun i => wordsVal (w i)) (fun i => wordsVal (sk i)) hc,
        ← Finset.add_sum_erase _ _ (Finset.mem_univ k),
        ← Finset.add_sum_erase (a := k) _ (fun i => wordsVal (w i) • wordsVal (sk i) • P) (Finset.mem_univ k)]
      have : ∀ i ∈ Finset.univ.erase k, wordsVal (w i) • Q i = wordsVal (w i) • wordsVal (sk i) • P := fun i hi => by
        simp [Q, Finset.ne_of_mem_erase hi]
      rw [Finset.sum_congr rfl this, nsmul_sub]
      have hk' : Q k = T := by simp [Q]
      rw [hk']; abel
    rw [hsum] at h
    rw [verify_eq, e, Option.bind_some]
    obtain ⟨b, e1, hb⟩ := core_iff (Keys.publicKey c) (Jac.weightedSum (List.ofFn (Function.update s k t)) (List.ofFn w)) r o
    rw [e1]
    cases b with
    | false => rfl
    | true =>
      exfalso
      obtain ⟨v, hv, h1, h2⟩ := hb.1 rfl
      have e2 := (Keys.smul_gen1_eq_iff (K := K) v (wordsVal c)).1 (h1.unique (Keys.publicKey_rep c))
      have e3 := h2.unique h
      have e4 : v • P = wordsVal c • P := by rw [← smul_mod o, e2, smul_mod o]
      rw [e4] at e3
      have e5 : wordsVal (w k) • (T - wordsVal (sk k) • P) = 0 := by
        have := e3.symm
        rwa [add_eq_left] at this
      rw [nsmul_sub, sub_eq_zero] at e5
      refine hTS (smul_cancel oT ?_ ?_ e5)
      · exact smul_smul_zero o _
      · rwa [← ZMod.natCast_eq_zero_iff]

open Polynomial in
/-- Lagrange interpolation at zero. -/
theorem shares_sum {n : ℕ} (f : (ZMod q)[X]) (hf : f.degree < n) (x : Fin n → ZMod q) (hx : Function.Injective x) :
    f.eval 0 = ∑ i, Shamir.weight x i * f.eval (x i) := by
  have h := Lagrange.eq_interpolate (s := Finset.univ) (f := f) (v := x) hx.injOn (by simpa using hf)
  have h := congrArg (Polynomial.eval 0) h
  rw [Lagrange.interpolate_apply, Polynomial.eval_finset_sum] at h
  rw [h]
  refine Finset.sum_congr rfl fun i _ => ?_
  rw [Polynomial.eval_mul, Polynomial.eval_C, mul_comm, Lagrange.basis, Polynomial.eval_prod]
  congr 1
  refine Finset.prod_congr rfl fun j _ => ?_
  rw [Lagrange.basisDivisor, Polynomial.eval_mul, Polynomial.eval_C, Polynomial.eval_sub, Polynomial.eval_X, Polynomial.eval_C,
    zero_sub, div_eq_mul_inv, mul_comm, ← neg_sub (x j) (x i), inv_neg]
  ring

end Bls.Sig
