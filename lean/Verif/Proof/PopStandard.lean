import Verif.Proof.HashValues
import Verif.Proof.Signatures
import Verif.Proof.Compressed

/-! The proof of possession of the draft is not the one of `pop_prove`. -/

namespace Bls.Sig
open Rfc

attribute [local irreducible] p q hEff2

variable {K : Type} [Field K] [FpOps K] [LawfulFp K] [DecidableEq K]
variable {H : List UInt8 → List UInt8} (hH : ∀ m, Fips.IsSha256 m (H m))
include hH

theorem pop_standard : ∃ (bs : List UInt8) (P : E2 K) (s : G2 K), IsCompressed1 (gen1 K) bs ∧
    IsHash H bs popCiphersuiteId P ∧ s.Rep P ∧ popVerify (Keys.publicKey [1, 0, 0, 0]) s = some false ∧
    ∀ s', popProve [1, 0, 0, 0] = some s' → s'.equal s = false := by
  obtain ⟨e, e', h1, h2, h3⟩ := hash_gen_differ K
  have hg : gen1 K ≠ 0 := gen1_ne_zero K
  have hc := G1.encode (G1.one_rep (K := K)) hg
  obtain ⟨a', k1, P', hP', r'⟩ := fromMessage_rep (K := K) hH (G1.toCompressedBytesBE (G1.one : G1 K)) popCiphersuiteId
    (by rw [hc.1]; decide) id_length.2
  obtain ⟨a, k2, P, hP, r⟩ := fromMessage_rep (K := K) hH (keyBytes (G1.one : G1 K)) popCiphersuiteId
    (by rw [keyBytes_length]; decide) id_length.2
  rw [h2] at k1
  rw [h1] at k2
  obtain rfl := Option.some.inj k1
  obtain rfl := Option.some.inj k2
  have hne : P ≠ P' := by
    rintro rfl
    rw [(Jac.equal_iff r r').2 rfl] at h3
    exact Bool.noConfusion h3
  have hw : wordsVal [1, 0, 0, 0] = 1 := by decide
  have hk : (Keys.publicKey [1, 0, 0, 0] : G1 K).Rep (gen1 K) := by
    have := Keys.publicKey_rep (K := K) [1, 0, 0, 0]
    rwa [hw, one_smul] at this
  have hkb : keyBytes (Keys.publicKey [1, 0, 0, 0] : G1 K) = keyBytes (G1.one : G1 K) := keyBytes_eq hk G1.one_rep
  refine ⟨_, P', e', hc, hP', r', ?_, ?_⟩
  · rw [popVerify_eq, hkb, h1, Option.bind_some]
    obtain ⟨b, hb, hi⟩ := core_iff (Keys.publicKey [1, 0, 0, 0] : G1 K) e' r (hash_order hP)
    rw [hb]
    cases b
    · rfl
    · obtain ⟨n, hn, g1, g2⟩ := hi.1 rfl
      have hn1 : n % q = 1 % q := by
        rw [← Keys.smul_gen1_eq_iff (K := K), one_smul]
        exact g1.unique hk
      rw [Nat.mod_eq_of_lt hn, Nat.mod_eq_of_lt q_prime.one_lt] at hn1
      rw [hn1, one_smul] at g2
      exact (hne (g2.unique r')).elim
  · intro s' hs
    rw [popProve] at hs
    simp only [hkb] at hs
    rw [h1, Option.map_some] at hs
    obtain rfl := Option.some.inj hs
    have hs' := Jac.scale_rep (goodCurve2 K) r [1, 0, 0, 0]
    rw [hw, one_smul] at hs'
    rw [Bool.eq_false_iff, Ne, Jac.equal_iff hs' r']
    exact hne

end Bls.Sig
