import Verif.Proof.HashValues
import Verif.Proof.CompressedExact
import Verif.Proof.Binding
import Verif.Proof.Same

/-! Which byte strings stand for a point that is accepted as a signature or as a key. -/

namespace Bls.Sig

attribute [local irreducible] p q hEff2

section
variable {K : Type} [Field K] [FpOps K] [LawfulFp K] [DecidableEq K]

/-- The multiples of a point of the subgroup are the whole subgroup. -/
theorem exists_smul_eq {P T : E2 K} (oP : q • P = 0) (hP : P ≠ 0) (oT : q • T = 0) : ∃ n < q, n • P = T := by
  obtain ⟨a, ha, rfl⟩ := exists_lt_smul (q_smul_gen2 K) (mem_gen2 K oP)
  obtain ⟨t, ht, rfl⟩ := exists_lt_smul (q_smul_gen2 K) (mem_gen2 K oT)
  haveI : Fact q.Prime := ⟨q_prime⟩
  have ha0 : (a : ZMod q) ≠ 0 := by
    rw [Ne, ZMod.natCast_eq_zero_iff]
    intro h
    have := Nat.eq_zero_of_dvd_of_lt h ha
    exact hP (by rw [this, zero_nsmul])
  refine ⟨((t : ZMod q) * (a : ZMod q)⁻¹).val, ZMod.val_lt _, ?_⟩
  rw [← mul_nsmul', ← Keys.smul_gen2_mod, ← Keys.smul_gen2_mod t]
  congr 1
  have : (((((t : ZMod q) * (a : ZMod q)⁻¹).val * a : ℕ)) : ZMod q) = (t : ZMod q) := by
    rw [Nat.cast_mul, ZMod.natCast_val, ZMod.cast_id, mul_assoc, inv_mul_cancel₀ ha0, mul_one]
  exact (ZMod.natCast_eq_natCast_iff' _ _ _).1 this

/-- The strings that decode to a point other than infinity. -/
theorem strings2 {s : G2 K} {S : E2 K} (h : s.Rep S) (h0 : S ≠ 0) {bs : List UInt8} (hl : bs.length = 96) :
    (∃ s' : G2 K, G2.fromCompressedBytesBE bs = some s' ∧ s'.Rep S) ↔ bs = G2.toCompressedBytesBE s ∨
      (beVal (G2.toCompressedBytesBE s) / 2 ^ 384 % 2 ^ 381 + p < 2 ^ 381 ∧
        beVal bs = beVal (G2.toCompressedBytesBE s) + p * 2 ^ 384) := by
  have hc := G2.encode h h0
  rw [G2.decode_exact bs hl S, Lenient2.finite h0]
  constructor
  · rintro (h1 | ⟨bs', h1, -, h2, h3⟩)
    · exact .inl (h1.unique hc)
    · rw [h1.unique hc] at h2 h3
      exact .inr ⟨h2, h3⟩
  · rintro (rfl | ⟨h2, h3⟩)
    · exact .inl hc
    · exact .inr ⟨_, hc, hl, h2, h3⟩

theorem strings1 {s : G1 K} {S : E1 K} (h : s.Rep S) (h0 : S ≠ 0) {bs : List UInt8} (hl : bs.length = 48) :
    (∃ s' : G1 K, G1.fromCompressedBytesBE bs = some s' ∧ s'.Rep S) ↔ bs = G1.toCompressedBytesBE s ∨
      (beVal (G1.toCompressedBytesBE s) % 2 ^ 381 + p < 2 ^ 381 ∧ beVal bs = beVal (G1.toCompressedBytesBE s) + p) := by
  have hc := G1.encode h h0
  rw [G1.decode_exact bs hl S, Lenient1.finite h0]
  constructor
  · rintro (h1 | ⟨bs', h1, -, h2, h3⟩)
    · exact .inl (h1.unique hc)
    · rw [h1.unique hc] at h2 h3
      exact .inr ⟨h2, h3⟩
  · rintro (rfl | ⟨h2, h3⟩)
    · exact .inl hc
    · exact .inr ⟨_, hc, hl, h2, h3⟩

/-- A point accepted as a signature: exactly the triples of that point are accepted. -/
theorem accepted_iff {pk : G1 K} {m : List UInt8} {s : G2 K} (h : verify pk m s = some true) :
    ∃ S : E2 K, s.Rep S ∧ ∀ s' : G2 K, verify pk m s' = some true ↔ s'.Rep S := by
  obtain ⟨a, P, n, e, r, o, hn, h1, h2⟩ := (verify_true_iff _ _ _).1 h
  refine ⟨_, h2, fun s' => ⟨fun h' => ?_, fun h' => ?_⟩⟩
  · obtain ⟨a', P', n', e', r', o', hn', h1', h2'⟩ := (verify_true_iff _ _ _).1 h'
    exact ((Jac.equal_iff h2 h2').1 (verify_unique h h')) ▸ h2'
  · rw [← verify_same ⟨_, h1, h1⟩ ⟨_, h2, h'⟩ m]
    exact h

/-- A point accepted as a key: exactly the triples of that point are accepted. -/
theorem accepted_key_iff {pk : G1 K} {m : List UInt8} {s e : G2 K} (he : fromMessage m ciphersuiteId = some e)
    (h0 : e.isZero = false) (h : verify pk m s = some true) :
    ∃ P : E1 K, pk.Rep P ∧ ∀ pk' : G1 K, verify pk' m s = some true ↔ pk'.Rep P := by
  obtain ⟨a, P, n, -, r, o, hn, h1, h2⟩ := (verify_true_iff _ _ _).1 h
  refine ⟨_, h1, fun pk' => ⟨fun h' => ?_, fun h' => ?_⟩⟩
  · obtain ⟨a', P', n', e', r', o', hn', h1', h2'⟩ := (verify_true_iff _ _ _).1 h'
    exact ((Jac.equal_iff h1 h1').1 (bind_key h h' he h0)) ▸ h1'
  · rw [← verify_same ⟨_, h1, h'⟩ ⟨_, h2, h2⟩ m]
    exact h

end

section
variable {N F : Type} (f : N → F) [FpOps N] [FpOps F] [FpHom f]
open OpsHom FpHom

theorem map_toCompressedBytesBE2 (a : G2 N) :
    G2.toCompressedBytesBE (a.map (Fp2.map f)) = G2.toCompressedBytesBE a := by
  rw [G2.toCompressedBytesBE, G2.toCompressedBytesBE, Jac.map_affine (Fp2.map f)]
  have hx : (a.affine.map (Fp2.map f)).x = Fp2.map f a.affine.x := rfl
  have hy : (a.affine.map (Fp2.map f)).y = Fp2.map f a.affine.y := rfl
  have hl : ∀ y : Fp2 N, Fp2.lexLargest (Fp2.map f y) = Fp2.lexLargest y := fun y => by
    rw [Fp2.lexLargest, Fp2.lexLargest]
    simp only [Fp2.map, map_lexLargest, h_isZero (f := f)]
  rw [hx, hy, h_isZero (f := Fp2.map f), h_isZero (f := Fp2.map f), hl]
  simp only [Fp2.map, map_toBytesBE]

theorem _root_.Bls.G2.map_one : (G2.one : G2 N).map (Fp2.map f) = G2.one := by
  simp only [Jac.map, G2.one, Fp2.map]
  repeat rw [h_const (f := f) _ (by decide +kernel)]

end

section
variable (K : Type) [Field K] [FpOps K] [LawfulFp K] [DecidableEq K]

/-- Five times the generator has a second string, the generator has none. -/
theorem room : beVal (G2.toCompressedBytesBE ((G2.one : G2 K).scale [5, 0, 0, 0])) / 2 ^ 384 % 2 ^ 381 + p < 2 ^ 381 ∧
    ¬ beVal (G2.toCompressedBytesBE (G2.one : G2 K)) / 2 ^ 384 % 2 ^ 381 + p < 2 ^ 381 := by
  rw [← G2.map_one (NatP.cast K), ← Jac.map_scale, map_toCompressedBytesBE2, map_toCompressedBytesBE2]
  decide +kernel

variable {K}

theorem five_gen2 : wordsVal [5, 0, 0, 0] • gen2 K ≠ 0 := by
  intro h
  have h1 : wordsVal [5, 0, 0, 0] • gen2 K = 0 • gen2 K := by rw [h, zero_nsmul]
  rw [smul_inj_mod (q_smul_gen2 K) (gen2_ne_zero K)] at h1
  exact absurd h1 (by decide +kernel)

/-- Every point of the subgroup is a signature of the message, and its string is the string of the point. -/
theorem signature_reaches {m : List UInt8} {e t : G2 K} (he : fromMessage m ciphersuiteId = some e) (he0 : e.isZero = false)
    {T : E2 K} (ht : t.Rep T) (oT : q • T = 0) (hT : T ≠ 0) : ∃ sk : List UInt64, sk.length = 4 ∧ wordsVal sk < q ∧
      ∃ s : G2 K, sign sk m = some s ∧ s.isZero = false ∧ G2.toCompressedBytesBE s = G2.toCompressedBytesBE t := by
  obtain ⟨P, r, o⟩ := fromMessage_some id_length.1 he
  have hP : P ≠ 0 := fun h => by rw [r.isZero_iff.2 h] at he0; exact Bool.noConfusion he0
  obtain ⟨n, hn, hT'⟩ := exists_smul_eq o hP oT
  obtain ⟨sk, h4, hk⟩ := Keys.exists_words hn
  have hs : (e.scale sk).Rep T := by
    have := Jac.scale_rep (goodCurve2 K) r sk
    rwa [hk, hT'] at this
  refine ⟨sk, h4, hk ▸ hn, e.scale sk, by rw [sign, he, Option.map_some], ?_,
    (G2.encode hs hT).unique (G2.encode ht hT)⟩
  rw [Bool.eq_false_iff, Ne, hs.isZero_iff]
  exact hT

/-- The second string, if there is room. -/
theorem second_exists {v : List UInt8} (hl : v.length = 96) (hr : beVal v / 2 ^ 384 % 2 ^ 381 + p < 2 ^ 381) :
    ∃ bs : List UInt8, bs.length = 96 ∧ beVal bs = beVal v + p * 2 ^ 384 ∧ bs ≠ v := by
  have hv := beVal_lt v
  rw [hl] at hv
  have hp : 0 < p := X86.p_pos
  have e : beVal (Fips.be 96 (beVal v + p * 2 ^ 384)) = beVal v + p * 2 ^ 384 := by
    rw [Keys.be_val]
    apply Nat.mod_eq_of_lt
    clear hp
    generalize beVal v = n at *
    generalize p = P at *
    norm_num at *
    omega
  refine ⟨_, Sha256.be_length _ _, e, fun h => ?_⟩
  rw [h] at e
  have : 0 < p * 2 ^ 384 := Nat.mul_pos hp (by norm_num)
  omega

end

end Bls.Sig
