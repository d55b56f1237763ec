import Verif.Proof.KeysExact
import Verif.Proof.Same
import Verif.Proof.Threshold
import Verif.Proof.HashValues
import Verif.Spec.Derivation

/-! Chains of unhardened derivations. -/

namespace Bls.Keys
open Bls Sig Scalar

variable {K : Type} [Field K] [FpOps K] [LawfulFp K] [DecidableEq K]

attribute [local irreducible] p q hEff2

section
variable {H : List UInt8 → List UInt8} (hH : ∀ m, Fips.IsSha256 m (H m))
include hH

/-- One step, for a public key in any coordinates. -/
theorem child_step (sk : List UInt64) (i : UInt32) (hl : sk.length = 4) (hq : wordsVal sk < q)
    (hc : ∀ k, ¬ CarryLost (wordsVal sk) (beVal (H (G1.toCompressedBytesBE (publicKey sk : G1 K) ++ Fips.be 4 i.toNat)) % q) k)
    {pk : G1 K} (h1 : Same1 pk (publicKey sk)) (h2 : G1.toCompressedBytesBE pk = G1.toCompressedBytesBE (publicKey sk : G1 K)) :
    ∃ c d, deriveChildSkUnhardened K sk i = some c ∧ c.length = 4 ∧ wordsVal c < q ∧
      deriveChildG1Unhardened pk i = some d ∧ Same1 d (publicKey c) ∧
      wordsVal c % q = (wordsVal sk + beVal (H (G1.toCompressedBytesBE pk ++ Fips.be 4 i.toNat))) % q := by
  obtain ⟨c, d, c1, c2, c3, d1, d2⟩ := child_exact (K := K) hH sk i hl hq
  have d2 := d2.2 hc
  obtain ⟨d', e1, e2⟩ := childG1_rep hH (publicKey sk : G1 K) _ (publicKey_rep sk) i
  obtain rfl : d = d' := Option.some.inj (d1.symm.trans e1)
  rw [Jac.equal_iff e2 (publicKey_rep c), ← add_smul, smul_gen1_eq_iff] at d2
  obtain ⟨P, r, r'⟩ := h1
  obtain rfl := r'.unique (publicKey_rep sk)
  obtain ⟨f, f1, f2⟩ := childG1_rep hH pk _ r i
  refine ⟨c, f, c1, c2, c3, f1, ⟨_, f2, ?_⟩, ?_⟩
  · rw [h2, ← add_smul, (smul_gen1_eq_iff _ _).2 d2]
    exact publicKey_rep c
  · rw [h2, d2]

theorem path_commutes : ∀ (path : List UInt32) (sk : List UInt64), sk.length = 4 → wordsVal sk < q → Chain.Good H K sk path →
    ∀ pk : G1 K, Same1 pk (publicKey sk) → G1.toCompressedBytesBE pk = G1.toCompressedBytesBE (publicKey sk : G1 K) →
    ∃ c d, Chain.secretPath K sk path = some c ∧ c.length = 4 ∧ wordsVal c < q ∧ Chain.publicPath pk path = some d ∧
      Same1 d (publicKey c) ∧ wordsVal c % q = (wordsVal sk + Chain.pathTweak H pk path) % q
  | [], sk, hl, hq, _, pk, h1, _ => ⟨sk, pk, rfl, hl, hq, rfl, h1, by rw [Chain.pathTweak, add_zero]⟩
  | i :: path, sk, hl, hq, hg, pk, h1, h2 => by
    obtain ⟨c, d, c1, c2, c3, d1, d2, d3⟩ := child_step hH sk i hl hq hg.1 h1 h2
    obtain ⟨g1, g2⟩ := hg.2 c c1
    have hz : (publicKey c : G1 K).isZero = false := by
      rw [Bool.eq_false_iff, Ne, (publicKey_rep c).isZero_iff, smul_gen1_eq_zero_iff]
      exact fun h => g1 (Nat.eq_zero_of_dvd_of_lt h c3)
    have hd : G1.toCompressedBytesBE d = G1.toCompressedBytesBE (publicKey c : G1 K) := by
      obtain ⟨P, r, r'⟩ := d2
      exact (Same1.compressed ⟨P, r', r⟩ hz).symm
    obtain ⟨e, f, e1, e2, e3, f1, f2, f3⟩ := path_commutes path c c2 c3 g2 d d2 hd
    refine ⟨e, f, ?_, e2, e3, ?_, f2, ?_⟩
    · rw [Chain.secretPath, List.foldlM_cons, c1]; exact e1
    · rw [Chain.publicPath, List.foldlM_cons, d1]; exact f1
    · rw [f3, Nat.add_mod, d3, ← Nat.add_mod, Chain.pathTweak, d1, Option.elim_some, Chain.tweak, add_assoc]

end

section
variable {N F : Type} (f : N → F) [FpOps N] [FpOps F] [FpHom f]

theorem map_publicKey (sk : List UInt64) : (publicKey sk : G1 F) = (publicKey sk : G1 N).map f := by
  rw [publicKey, publicKey, ← Jac.map_affine, Jac.map_scale, G1.map_one]

include f in
theorem map_childSk (sk : List UInt64) (i : UInt32) : deriveChildSkUnhardened F sk i = deriveChildSkUnhardened N sk i := by
  rw [deriveChildSkUnhardened, deriveChildSkUnhardened, map_publicKey f, map_toCompressedBytesBE]

end

end Bls.Keys

namespace Bls.Sig
open Bls Rfc Pairing

variable {K : Type} [Field K] [FpOps K] [LawfulFp K] [DecidableEq K]

attribute [local irreducible] p q hEff2

/-- A signature moves with the key. -/
theorem verify_shift {pk d : G1 K} {n : ℕ} (hd : ∀ P : E1 K, pk.Rep P → d.Rep (P + n • gen1 K)) {t : List UInt64}
    (ht : wordsVal t % q = n % q) {m : List UInt8} {e s : G2 K} (he : fromMessage m ciphersuiteId = some e)
    (h : verify pk m s = some true) : verify d m (s.add (e.scale t)) = some true := by
  obtain ⟨P, r, o⟩ := fromMessage_some id_length.1 he
  rw [verify_eq, he, Option.bind_some] at h ⊢
  obtain ⟨b, e1, hb⟩ := core_iff pk s r o
  obtain ⟨v, hv, r1, r2⟩ := hb.1 (Option.some.inj (e1.symm.trans h))
  obtain ⟨b', e1', hb'⟩ := core_iff d (s.add (e.scale t)) r o
  rw [e1', hb'.2]
  refine ⟨(v + n) % q, Nat.mod_lt _ q_prime.pos, ?_, ?_⟩
  · rw [smul_mod (q_smul_gen1 _), add_nsmul]; exact hd _ r1
  · rw [smul_mod o, add_nsmul, ← smul_mod o n, ← ht, smul_mod o]
    exact Jac.add_rep (goodCurve2 K) r2 (Jac.scale_rep (goodCurve2 K) r t)

/-- And back. -/
theorem verify_unshift {pk d : G1 K} {n : ℕ} {Q : E1 K} (hpk : pk.Rep Q) (hd : d.Rep (Q + n • gen1 K)) {t : List UInt64}
    (ht : wordsVal t % q = n % q) {m : List UInt8} {e s : G2 K} (he : fromMessage m ciphersuiteId = some e)
    (h : verify d m s = some true) : verify pk m (s.subtract (e.scale t)) = some true := by
  obtain ⟨P, r, o⟩ := fromMessage_some id_length.1 he
  rw [verify_eq, he, Option.bind_some] at h ⊢
  obtain ⟨b, e1, hb⟩ := core_iff d s r o
  obtain ⟨v, hv, r1, r2⟩ := hb.1 (Option.some.inj (e1.symm.trans h))
  obtain ⟨b', e1', hb'⟩ := core_iff pk (s.subtract (e.scale t)) r o
  have hQ : Q = v • gen1 K - n • gen1 K := by rw [r1.unique hd]; abel
  have key : ∀ {G : Type _} [AddCommGroup G] (X : G), q • X = 0 → ((v + (q - n % q)) % q) • X = v • X - n • X := by
    intro G _ X hX
    have hn := Nat.mod_lt n q_prime.pos
    rw [smul_mod hX, add_nsmul, sub_eq_add_neg]
    congr 1
    rw [eq_neg_iff_add_eq_zero, ← smul_mod hX n, ← add_nsmul, Nat.sub_add_cancel hn.le, hX]
  rw [e1', hb'.2]
  refine ⟨(v + (q - n % q)) % q, Nat.mod_lt _ q_prime.pos, ?_, ?_⟩
  · rw [key _ (q_smul_gen1 _), ← hQ]; exact hpk
  · rw [key _ o, ← smul_mod o n, ← ht, smul_mod o]
    exact Jac.sub_rep (goodCurve2 K) r2 (Jac.scale_rep (goodCurve2 K) r t)

end Bls.Sig

namespace Bls.Keys
open Bls Sig

variable (K : Type) [Field K] [FpOps K] [LawfulFp K]

theorem no_carry {x y : ℕ} (h : ∀ k < 4, y % q / 2 ^ (64 * k) % 2 ^ 64 ≠ 2 ^ 64 - 1) : ∀ k, ¬ CarryLost x (y % q) k := by
  rintro k ⟨h1, -⟩
  by_cases hk : k < 4
  · exact h k hk h1
  · have hq : y % q < 2 ^ (64 * k) := calc
      y % q < q := Nat.mod_lt _ q_prime.pos
      _ < 2 ^ (64 * 4) := by decide +kernel
      _ ≤ 2 ^ (64 * k) := Nat.pow_le_pow_right (by norm_num) (by omega)
    rw [Nat.div_eq_of_lt hq] at h1
    exact absurd h1 (by decide)

/-- The path `0, 1` from the key 1. -/
theorem good_path {H : List UInt8 → List UInt8} (hH : ∀ m, Fips.IsSha256 m (H m)) : Chain.Good H K [1, 0, 0, 0] [0, 1] := by
  have e1 : deriveChildSkUnhardened NatP [1, 0, 0, 0] 0 =
      some [1820869797699832903, 6509584510151004645, 3992260012754268235, 289765564512045922] := by decide +kernel
  have e2 : deriveChildSkUnhardened NatP [1820869797699832903, 6509584510151004645, 3992260012754268235, 289765564512045922] 1 =
      some [8127874573295682199, 5837818829315862812, 7193860347704619456, 7161452799964787576] := by decide +kernel
  refine ⟨no_carry ?_, fun c hc => ?_⟩
  · rw [Chain.tweak, map_publicKey (NatP.cast K), map_toCompressedBytesBE, ← Hash.hash_sha_one hH]
    decide +kernel
  · rw [map_childSk (NatP.cast K), e1] at hc
    obtain rfl := Option.some.inj hc
    refine ⟨by decide +kernel, no_carry ?_, fun c hc => ?_⟩
    · rw [Chain.tweak, map_publicKey (NatP.cast K), map_toCompressedBytesBE, ← Hash.hash_sha_one hH]
      decide +kernel
    · rw [map_childSk (NatP.cast K), e2] at hc
      obtain rfl := Option.some.inj hc
      exact ⟨by decide +kernel, trivial⟩

end Bls.Keys
