import Verif.Model.StaticInit
import Verif.Proof.Signatures

/-! The functions of the library before and after its constants are initialised. -/

namespace Bls.StaticInit
open Rfc Pairing

attribute [local irreducible] p q hEff2 pairVal eps

variable {K : Type} [Field K] [FpOps K] [LawfulFp K] [DecidableEq K]

theorem early1 {r : Ready} (h : .g ∉ r) : (base1 r : G1 K).Rep (0 : E1 K) := by
  rw [base1, if_neg h]
  exact Keys.start_rep

theorem early2 {r : Ready} (h : .g ∉ r) : (base2 r : G2 K).Rep (0 : E2 K) := by
  rw [base2, if_neg h]
  exact Keys.start_rep

theorem publicKey_early {r : Ready} (hf : .fp ∈ r) (h : .g ∉ r) (sk : List UInt64) :
    ∃ a : G1 K, publicKey r sk = some a ∧ a.Rep (0 : E1 K) := by
  refine ⟨_, if_pos hf, ?_⟩
  have := Jac.affine_rep (Jac.scale_rep (goodCurve1 K) (early1 (K := K) h) sk)
  rwa [nsmul_zero] at this

theorem child1_early {r : Ready} (hf : .fp ∈ r) (h : .g ∉ r) {pk : G1 K} {P : E1 K} (hp : pk.Rep P) (i : UInt32) :
    ∃ a : G1 K, deriveChildG1Unhardened r pk i = some a ∧ a.Rep P := by
  obtain ⟨c, d, d1, -⟩ := Keys.divQ (Scalar.fromBytesBE 4 (Sha256.hash [G1.toCompressedBytesBE pk ++ Keys.indexBytes i]))
    (Scalar.fromBytesBE_length _ _).ge
  refine ⟨pk.add ((base1 r : G1 K).scale d), ?_, ?_⟩
  · rw [deriveChildG1Unhardened, if_pos hf]
    dsimp only
    rw [d1, Option.map_some]
  have := Jac.add_rep (goodCurve1 K) hp (Jac.scale_rep (goodCurve1 K) (early1 (K := K) h) d)
  rwa [nsmul_zero, add_zero] at this

theorem child2_early {r : Ready} (hf : .fp ∈ r) (h : .g ∉ r) {pk : G2 K} {P : E2 K} (hp : pk.Rep P) (i : UInt32) :
    ∃ a : G2 K, deriveChildG2Unhardened r pk i = some a ∧ a.Rep P := by
  obtain ⟨c, d, d1, -⟩ := Keys.divQ (Scalar.fromBytesBE 4 (Sha256.hash [G2.toCompressedBytesBE pk ++ Keys.indexBytes i]))
    (Scalar.fromBytesBE_length _ _).ge
  refine ⟨pk.add ((base2 r : G2 K).scale d), ?_, ?_⟩
  · rw [deriveChildG2Unhardened, if_pos hf]
    dsimp only
    rw [d1, Option.map_some]
  have := Jac.add_rep (goodCurve2 K) hp (Jac.scale_rep (goodCurve2 K) (early2 (K := K) h) d)
  rwa [nsmul_zero, add_zero] at this

theorem verify_early {H : List UInt8 → List UInt8} (hH : ∀ m, Fips.IsSha256 m (H m)) {r : Ready} (hf : .fp ∈ r)
    (hs : .signatures ∈ r) (h : .g ∉ r) (pk : G1 K) (s : G2 K) {m : List UInt8} (hm : m.length < 2 ^ 31) :
    ∃ Q : E2 K, IsHash H m Sig.ciphersuiteId Q ∧ ∃ b, verify r pk m s = some b ∧ (b = true ↔
      (pk.isOnCurve FpC.B = true ∧ pk.inCorrectSubgroup = true) ∧ (s.isOnCurve Fp2.B = true ∧ s.inCorrectSubgroup = true) ∧
      (pk.Rep (0 : E1 K) ∨ Q = 0)) := by
  obtain ⟨a, e, Q, hQ, ra⟩ := Sig.fromMessage_rep (K := K) hH m _ hm Sig.id_length.1
  have o := Sig.hash_order hQ
  refine ⟨Q, hQ, ?_⟩
  rw [verify, if_pos ⟨hf, hs⟩, e]
  dsimp only [Option.bind_some]
  by_cases h1 : pk.isOnCurve FpC.B = true ∧ pk.inCorrectSubgroup = true
  · rw [if_neg (by rw [h1.1, h1.2]; decide)]
    by_cases h2 : s.isOnCurve Fp2.B = true ∧ s.inCorrectSubgroup = true
    · rw [if_neg (by rw [h2.1, h2.2]; decide)]
      obtain ⟨P, r1, oP⟩ := valid1 h1
      obtain ⟨S, r2, oS⟩ := valid2 h2
      obtain ⟨b, e, hb⟩ := Sig.isOneProduct_eq (addPair (addPair [] (base1 r : G1 K).negate s) pk a)
      refine ⟨b, e, hb.trans ?_⟩
      rw [addPair_eps r1 ra, addPair_eps (Jac.neg_rep (early1 h)) r2, List.map_nil, List.prod_nil, one_mul, neg_zero,
        eps_zero_left, one_mul, eps_eq_one_iff oP o]
      constructor
      · intro k
        refine ⟨h1, h2, k.imp_left fun k => ?_⟩
        rw [← k]; exact r1
      · rintro ⟨-, -, k⟩
        exact k.imp_left fun k => r1.unique k
    · rw [if_pos (by simpa [imp_iff_not_or] using h2)]
      exact ⟨false, rfl, by simp, fun k => absurd k.2.1 h2⟩
  · rw [if_pos (by simpa [imp_iff_not_or] using h1)]
    exact ⟨false, rfl, by simp, fun k => absurd k.1 h1⟩

theorem late {r : Ready} (h1 : .fp ∈ r) (h2 : .g ∈ r) (h3 : .signatures ∈ r) :
    (∀ sk, publicKey r sk = some (Keys.publicKey sk : G1 K)) ∧
    (∀ (pk : G1 K) i, deriveChildG1Unhardened r pk i = Keys.deriveChildG1Unhardened pk i) ∧
    (∀ (pk : G2 K) i, deriveChildG2Unhardened r pk i = Keys.deriveChildG2Unhardened pk i) ∧
    (∀ sk m, (sign r sk m : Option (G2 K)) = Sig.sign sk m) ∧
    ∀ (pk : G1 K) m s, verify r pk m s = Sig.verify pk m s := by
  have e1 : (base1 r : G1 K) = G1.one := if_pos h2
  have e2 : (base2 r : G2 K) = G2.one := if_pos h2
  refine ⟨fun sk => ?_, fun pk i => ?_, fun pk i => ?_, fun sk m => if_pos ⟨h1, h3⟩, fun pk m s => ?_⟩
  · rw [publicKey, if_pos h1, e1]; rfl
  · rw [deriveChildG1Unhardened, if_pos h1, e1]; rfl
  · rw [deriveChildG2Unhardened, if_pos h1, e2]; rfl
  · rw [verify, if_pos ⟨h1, h3⟩, e1]; rfl

end Bls.StaticInit
