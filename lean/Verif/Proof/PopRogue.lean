import Verif.Proof.Binding

/-! Proofs of possession for keys made from the key of somebody else. -/

namespace Bls.Sig
open Bls Rfc Pairing

attribute [local irreducible] p q hEff2 eps pairVal

variable {K : Type} [Field K] [FpOps K] [LawfulFp K] [DecidableEq K]

theorem popVerify_rep {pk : G1 K} {e s : G2 K} (he : fromMessage (keyBytes pk) popCiphersuiteId = some e)
    (h : popVerify pk s = some true) :
    ∃ (P : E2 K) (k : ℕ), e.Rep P ∧ q • P = 0 ∧ pk.Rep (k • gen1 K) ∧ s.Rep (k • P) := by
  obtain ⟨P, r, o⟩ := fromMessage_some id_length.2 he
  rw [popVerify_eq, he, Option.bind_some, some_true_iff (core_iff pk s r o)] at h
  obtain ⟨k, -, h1, h2⟩ := h
  exact ⟨P, k, r, o, h1, h2⟩

theorem smul_of_gen {P : E2 K} (o : q • P = 0) {m n : ℕ} (h : m • gen1 K = n • gen1 K) : m • P = n • P := by
  rw [Keys.smul_gen1_eq_iff] at h
  rw [← smul_mod o, h, smul_mod o]

/-- The proof for a key `u G + a pk` contains the proof of the victim for it. -/
theorem pop_extract {pk pk' : G1 K} {u a sk : List UInt64} {e s : G2 K}
    (hsk : pk.Rep (wordsVal sk • gen1 K))
    (hrel : pk'.equal ((Keys.publicKey u : G1 K).add (pk.scale a)) = true)
    (he : fromMessage (keyBytes pk') popCiphersuiteId = some e) (h : popVerify pk' s = some true) :
    ∃ P : E2 K, e.Rep P ∧ q • P = 0 ∧ (s.subtract (e.scale u)).Rep (wordsVal a • wordsVal sk • P) := by
  obtain ⟨P, k, r, o, h1, h2⟩ := popVerify_rep he h
  have h3 : ((Keys.publicKey u : G1 K).add (pk.scale a)).Rep (wordsVal u • gen1 K + wordsVal a • wordsVal sk • gen1 K) :=
    Jac.add_rep (goodCurve1 K) (Keys.publicKey_rep u) (Jac.scale_rep (goodCurve1 K) hsk a)
  have h4 := (Jac.equal_iff h1 h3).1 hrel
  rw [← mul_nsmul', ← add_nsmul] at h4
  have h5 := smul_of_gen o h4
  refine ⟨P, r, o, ?_⟩
  have h6 : (s.subtract (e.scale u)).Rep (k • P - wordsVal u • P) :=
    Jac.sub_rep (goodCurve2 K) h2 (Jac.scale_rep (goodCurve2 K) r u)
  rw [h5, add_nsmul, add_sub_cancel_left, mul_nsmul'] at h6
  exact h6

theorem pop_extract_inv {pk pk' : G1 K} {u a b sk : List UInt64} {e s : G2 K} (hb : wordsVal a * wordsVal b % q = 1)
    (hsk : pk.Rep (wordsVal sk • gen1 K))
    (hrel : pk'.equal ((Keys.publicKey u : G1 K).add (pk.scale a)) = true)
    (he : fromMessage (keyBytes pk') popCiphersuiteId = some e) (h : popVerify pk' s = some true) :
    ∃ P : E2 K, e.Rep P ∧ q • P = 0 ∧ ((s.subtract (e.scale u)).scale b).Rep (wordsVal sk • P) := by
  obtain ⟨P, r, o, h1⟩ := pop_extract hsk hrel he h
  refine ⟨P, r, o, ?_⟩
  have h2 := Jac.scale_rep (goodCurve2 K) h1 b
  have h3 : wordsVal b • wordsVal a • wordsVal sk • P = wordsVal sk • P := by
    have o' := smul_smul_zero o (wordsVal sk)
    rw [← mul_nsmul', mul_comm (wordsVal b), ← smul_mod o', hb, one_nsmul]
  rwa [h3] at h2

/-- The pairing equation of the verification functions. -/
theorem core_pairs {pk : G1 K} {e s : G2 K} {P : E2 K} (r : e.Rep P) (o : q • P = 0) {n : ℕ} (h1 : pk.Rep (n • gen1 K))
    (h2 : s.Rep (n • P)) :
    isOneProduct (Pairing.addPair (Pairing.addPair [] (G1.one : G1 K).negate s) pk e) = some true := by
  have hc : core pk e s = some true := by
    rw [some_true_iff (core_iff pk s r o)]
    exact ⟨n % q, Nat.mod_lt _ q_prime.pos, by rwa [smul_mod (q_smul_gen1 K)], by rwa [smul_mod o]⟩
  unfold core at hc
  split at hc
  · exact absurd hc (by simp)
  · split at hc
    · exact absurd hc (by simp)
    · exact hc

/-- The proof for the key `u G - pk`. -/
theorem pop_rogue {pk : G1 K} {u sk : List UInt64} {e s : G2 K} (hsk : pk.Rep (wordsVal sk • gen1 K))
    (he : fromMessage (keyBytes ((Keys.publicKey u : G1 K).subtract pk)) popCiphersuiteId = some e)
    (h : popVerify ((Keys.publicKey u : G1 K).subtract pk) s = some true) :
    ∃ P : E2 K, e.Rep P ∧ q • P = 0 ∧ ((e.scale u).subtract s).Rep (wordsVal sk • P) := by
  obtain ⟨P, k, r, o, h1, h2⟩ := popVerify_rep he h
  have h3 := h1.unique (Jac.sub_rep (goodCurve1 K) (Keys.publicKey_rep u) hsk)
  have h4 : (k + wordsVal sk) • gen1 K = wordsVal u • gen1 K := by rw [add_nsmul, h3, sub_add_cancel]
  have h5 := smul_of_gen o h4
  refine ⟨P, r, o, ?_⟩
  have h6 : ((e.scale u).subtract s).Rep (wordsVal u • P - k • P) :=
    Jac.sub_rep (goodCurve2 K) (Jac.scale_rep (goodCurve2 K) r u) h2
  rw [← h5, add_nsmul, add_sub_cancel_left] at h6
  exact h6

/-- Whoever has the value of the victim at the hash of the key `u G + a pk` has the proof for it. -/
theorem pop_from_victim {pk pk' : G1 K} {u a sk : List UInt64} {e : G2 K} (hsk : pk.Rep (wordsVal sk • gen1 K))
    (hrel : pk' = (Keys.publicKey u : G1 K).add (pk.scale a))
    (he : fromMessage (keyBytes pk') popCiphersuiteId = some e) :
    popVerify pk' ((e.scale u).add ((e.scale sk).scale a)) = some true := by
  obtain ⟨P, r, o⟩ := fromMessage_some id_length.2 he
  have h3 : pk'.Rep (wordsVal u • gen1 K + wordsVal a • wordsVal sk • gen1 K) := by
    rw [hrel]
    exact Jac.add_rep (goodCurve1 K) (Keys.publicKey_rep u) (Jac.scale_rep (goodCurve1 K) hsk a)
  have h4 : ((e.scale u).add ((e.scale sk).scale a)).Rep (wordsVal u • P + wordsVal a • wordsVal sk • P) :=
    Jac.add_rep (goodCurve2 K) (Jac.scale_rep (goodCurve2 K) r u)
      (Jac.scale_rep (goodCurve2 K) (Jac.scale_rep (goodCurve2 K) r sk) a)
  rw [← mul_nsmul', ← add_nsmul] at h3 h4
  rw [popVerify_eq, he, Option.bind_some, some_true_iff (core_iff _ _ r o)]
  exact ⟨_ % q, Nat.mod_lt _ q_prime.pos, by rwa [smul_mod (q_smul_gen1 K)], by rwa [smul_mod o]⟩

end Bls.Sig
