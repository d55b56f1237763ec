import Verif.Proof.Threshold
import Verif.Proof.HashValues
import Verif.Props.Signatures

/-!
# C67: keys that are shared out

`weightedSum` puts together public keys and signatures of shares. `Shamir.IsShare`, `Shamir.weight`: `Spec/Threshold.lean`.
-/

namespace Bls.Props
open Bls Sig Polynomial

attribute [local irreducible] p q hEff2

variable {adx : Bool} {n : ℕ}

/-- C67: `public_key` and `sign` are linear: for keys `sk i` and factors `w i` with `c = Σ w i * sk i` modulo `q`, the weighted
sum of the public keys is the public key of `c`, and the weighted sum of the signatures on a message is the signature of `c`. -/
theorem C67_linear (w sk : Fin n → List UInt64) (hw : ∀ i, (w i).length = 4) (c : List UInt64)
    (hc : wordsVal c % q = (∑ i, wordsVal (w i) * wordsVal (sk i)) % q) :
    (Jac.weightedSum (List.ofFn fun i => (Keys.publicKey (sk i) : G1 (FpV adx))) (List.ofFn w)).equal (Keys.publicKey c) = true ∧
    ∀ (m : List UInt8) (s : Fin n → G2 (FpV adx)) (t : G2 (FpV adx)), (∀ i, sign (sk i) m = some (s i)) → sign c m = some t →
      (Jac.weightedSum (List.ofFn s) (List.ofFn w)).equal t = true ∧
      verify (Keys.publicKey c) m (Jac.weightedSum (List.ofFn s) (List.ofFn w)) = some true := by
  have hc' : (wordsVal c : ZMod q) = ∑ i, (wordsVal (w i) : ZMod q) * wordsVal (sk i) := by
    rw [(ZMod.natCast_eq_natCast_iff' _ _ q).2 hc]; push_cast; rfl
  exact ⟨combine_keys w sk hw hc', fun m s t hs ht => combine_signatures w sk hw hc' ht hs⟩

/-- C67: `n` shares of a polynomial of degree below `n` make the public key and, on every message, the signature of its value
at zero. So every set of `n` share holders produces the same signature, and it is accepted under the common public key. -/
theorem C67_threshold (f : (ZMod q)[X]) (hf : f.degree < n) (x : Fin n → ZMod q) (hx : Function.Injective x)
    (w sk : Fin n → List UInt64) (hl : ∀ i, (w i).length = 4) (hsk : ∀ i, Shamir.IsShare f (x i) (wordsVal (sk i)))
    (hw : ∀ i, (wordsVal (w i) : ZMod q) = Shamir.weight x i) (c : List UInt64) (hc : Shamir.IsShare f 0 (wordsVal c)) :
    (Jac.weightedSum (List.ofFn fun i => (Keys.publicKey (sk i) : G1 (FpV adx))) (List.ofFn w)).equal (Keys.publicKey c) = true ∧
    ∀ (m : List UInt8) (s : Fin n → G2 (FpV adx)) (t : G2 (FpV adx)), (∀ i, sign (sk i) m = some (s i)) → sign c m = some t →
      (Jac.weightedSum (List.ofFn s) (List.ofFn w)).equal t = true ∧
      verify (Keys.publicKey c) m (Jac.weightedSum (List.ofFn s) (List.ofFn w)) = some true := by
  have hc' : (wordsVal c : ZMod q) = ∑ i, (wordsVal (w i) : ZMod q) * wordsVal (sk i) := by
    rw [hc, shares_sum f hf x hx]
    exact Finset.sum_congr rfl fun i _ => by rw [hw i, hsk i]
  exact ⟨combine_keys w sk hl hc', fun m s t hs ht => combine_signatures w sk hl hc' ht hs⟩

/-- C67: one wrong part is noticed: if one of the signatures is replaced by another point of the group and its factor is not zero
modulo `q`, the sum is rejected. -/
theorem C67_wrong_part (w sk : Fin n → List UInt64) (hw : ∀ i, (w i).length = 4) (c : List UInt64)
    (hc : wordsVal c % q = (∑ i, wordsVal (w i) * wordsVal (sk i)) % q) (m : List UInt8) (s : Fin n → G2 (FpV adx))
    (hs : ∀ i, sign (sk i) m = some (s i)) (k : Fin n) (hk : ¬ q ∣ wordsVal (w k)) (t : G2 (FpV adx)) (ht : Member2 t)
    (hne : t.equal (s k) = false) :
    verify (Keys.publicKey c) m (Jac.weightedSum (List.ofFn (Function.update s k t)) (List.ofFn w)) = some false := by
  have hc' : (wordsVal c : ZMod q) = ∑ i, (wordsVal (w i) : ZMod q) * wordsVal (sk i) := by
    rw [(ZMod.natCast_eq_natCast_iff' _ _ q).2 hc]; push_cast; rfl
  exact combine_wrong w sk hw hc' hs k (by rwa [Ne, ZMod.natCast_eq_zero_iff]) ht hne

/-- The key 7 shared out by `7 + 5 X`: the shares 12 at 1 and 17 at 2, put together with the factors 2 and -1. -/
theorem shared_case : (Polynomial.C 7 + Polynomial.C 5 * X : (ZMod q)[X]).degree < 2 ∧
    Function.Injective ![(1 : ZMod q), 2] ∧
    (∀ i, Shamir.IsShare (Polynomial.C 7 + Polynomial.C 5 * X) (![(1 : ZMod q), 2] i) (wordsVal (![[12, 0, 0, 0], [17, 0, 0, 0]] i))) ∧
    (∀ i, (wordsVal (![[2, 0, 0, 0], [0xffffffff00000000, 0x53bda402fffe5bfe, 0x3339d80809a1d805, 0x73eda753299d7d48]] i) : ZMod q)
      = Shamir.weight ![(1 : ZMod q), 2] i) ∧
    Shamir.IsShare (Polynomial.C 7 + Polynomial.C 5 * X) 0 (wordsVal [7, 0, 0, 0]) := by
  have h21 : (2 : ZMod q) - 1 = 1 := by norm_num
  have h12 : (1 : ZMod q) - 2 = -1 := by norm_num
  refine ⟨?_, ?_, ?_, ?_, ?_⟩
  · refine lt_of_le_of_lt (Polynomial.degree_add_le _ _) (max_lt ?_ ?_)
    · exact lt_of_le_of_lt Polynomial.degree_C_le (by norm_num)
    · exact lt_of_le_of_lt (Polynomial.degree_C_mul_X_le _) (by norm_num)
  · intro i j h
    have h1 : (1 : ZMod q) ≠ 2 := fun h => by rw [← h, sub_self] at h21; exact zero_ne_one h21
    fin_cases i <;> fin_cases j <;> first | rfl | exact absurd h h1 | exact absurd h.symm h1
  · intro i
    fin_cases i
    · show ((wordsVal [12, 0, 0, 0] : ℕ) : ZMod q) = _
      rw [show wordsVal [12, 0, 0, 0] = 12 by decide +kernel]
      simp; norm_num
    · show ((wordsVal [17, 0, 0, 0] : ℕ) : ZMod q) = _
      rw [show wordsVal [17, 0, 0, 0] = 17 by decide +kernel]
      simp; norm_num
  · intro i
    fin_cases i
    · show ((wordsVal [2, 0, 0, 0] : ℕ) : ZMod q) = _
      rw [show wordsVal [2, 0, 0, 0] = 2 by decide +kernel, Shamir.weight, show (Finset.univ.erase (⟨0, by norm_num⟩ : Fin 2)) = {1} by decide,
        Finset.prod_singleton]
      show ((2 : ℕ) : ZMod q) = 2 / (2 - 1)
      rw [h21, div_one]; rfl
    · show ((wordsVal [0xffffffff00000000, 0x53bda402fffe5bfe, 0x3339d80809a1d805, 0x73eda753299d7d48] : ℕ) : ZMod q) = _
      rw [Shamir.weight, show (Finset.univ.erase (⟨1, by norm_num⟩ : Fin 2)) = {0} by decide, Finset.prod_singleton]
      show _ = (1 : ZMod q) / (1 - 2)
      rw [h12, div_neg, div_one, eq_neg_iff_add_eq_zero]
      have : ((wordsVal [0xffffffff00000000, 0x53bda402fffe5bfe, 0x3339d80809a1d805, 0x73eda753299d7d48] + 1 : ℕ) : ZMod q) = 0 := by
        rw [ZMod.natCast_eq_zero_iff]; decide +kernel
      rw [← this, Nat.cast_add, Nat.cast_one]
  · show ((wordsVal [7, 0, 0, 0] : ℕ) : ZMod q) = _
    rw [show wordsVal [7, 0, 0, 0] = 7 by decide +kernel]
    simp

/-- So any holder of the two shares makes the public key of 7. -/
example : (Jac.weightedSum (List.ofFn fun i => (Keys.publicKey (![[12, 0, 0, 0], [17, 0, 0, 0]] i) : G1 (FpV adx)))
    (List.ofFn ![[2, 0, 0, 0], [0xffffffff00000000, 0x53bda402fffe5bfe, 0x3339d80809a1d805, 0x73eda753299d7d48]])).equal
      (Keys.publicKey [7, 0, 0, 0]) = true := by
  obtain ⟨h1, h2, h3, h4, h5⟩ := shared_case
  exact (C67_threshold _ h1 _ h2 _ _ (by decide) h3 h4 _ h5).1

/-- The key 7 in parts 3 and 2 with the factors 1 and 2; then the second part is replaced by infinity. -/
example : ∃ s t : G2 (FpV adx), verify (Keys.publicKey [7, 0, 0, 0]) [97, 98, 99] (Jac.weightedSum (List.ofFn ![s, t])
    (List.ofFn ![[1, 0, 0, 0], [2, 0, 0, 0]])) = some true ∧ verify (Keys.publicKey [7, 0, 0, 0]) [97, 98, 99]
    (Jac.weightedSum (List.ofFn (Function.update ![s, t] 1 Jac.zero)) (List.ofFn ![[1, 0, 0, 0], [2, 0, 0, 0]])) = some false := by
  obtain ⟨s, hs⟩ := C45_sign_defined (adx := adx) [3, 0, 0, 0] [97, 98, 99] (by decide)
  obtain ⟨t, ht⟩ := C45_sign_defined (adx := adx) [2, 0, 0, 0] [97, 98, 99] (by decide)
  obtain ⟨u, hu⟩ := C45_sign_defined (adx := adx) [7, 0, 0, 0] [97, 98, 99] (by decide)
  obtain ⟨e, he, h0⟩ := hash_abc_ne (FpV adx)
  have hl : ∀ i, (![[1, 0, 0, 0], [2, 0, 0, (0 : UInt64)]] i).length = 4 := by decide
  have hc : wordsVal [7, 0, 0, 0] % q = (∑ i, wordsVal (![[1, 0, 0, 0], [2, 0, 0, 0]] i) *
      wordsVal (![[3, 0, 0, 0], [2, 0, 0, 0]] i)) % q := by
    rw [Fin.sum_univ_two]; decide +kernel
  have hst : ∀ i, sign (![[3, 0, 0, 0], [2, 0, 0, 0]] i) [97, 98, 99] = some (![s, t] i) := by
    intro i; fin_cases i
    · exact hs
    · exact ht
  have hz : t.isZero = false := by
    rw [Bool.eq_false_iff, Ne, sign_zero_iff he ht, h0]
    decide +kernel
  refine ⟨s, t, ((C67_linear _ _ hl _ hc).2 _ _ u hst hu).2, C67_wrong_part _ _ hl _ hc _ _ hst 1 ?_ _ ?_ ?_⟩
  · show ¬ q ∣ wordsVal [2, 0, 0, 0]
    decide +kernel
  · exact member2.2 ⟨0, Jac.zero_rep, nsmul_zero _⟩
  · show (Jac.zero : G2 (FpV adx)).equal t = false
    obtain ⟨P, r, _⟩ := fromMessage_some id_length.1 he
    have rt := sign_rep' he ht r
    rw [Bool.eq_false_iff, Ne, Jac.equal_iff Jac.zero_rep rt]
    rw [Bool.eq_false_iff, Ne, rt.isZero_iff] at hz
    exact fun h => hz h.symm

end Bls.Props
