import Verif.Spec.Same
import Verif.Proof.Signatures2
import Verif.Proof.Compressed

/-! Functions of points do not depend on the coordinates. -/

namespace Bls

attribute [local irreducible] p q hEff2 zabs

/-! ### Any curve -/

section
variable {F : Type} [Field F] [DecidableEq F] [Ops F] [LawfulOps F] {b : F}

/-- The two triples stand for one point. -/
def SameOn (b : F) (a a' : Jac F) : Prop := ∃ P : (curve b).Point, a.Rep P ∧ a'.Rep P

namespace SameOn
variable {a a' e e' : Jac F}

theorem refl_of {P : (curve b).Point} (h : a.Rep P) : SameOn b a a := ⟨P, h, h⟩

theorem isZero (h : SameOn b a a') : a.isZero = a'.isZero := by
  obtain ⟨P, r, r'⟩ := h
  rw [Bool.eq_iff_iff, r.isZero_iff, r'.isZero_iff]

theorem equal (h : SameOn b a a') (h' : SameOn b e e') : a.equal e = a'.equal e' := by
  obtain ⟨P, r, r'⟩ := h
  obtain ⟨Q, s, s'⟩ := h'
  rw [Bool.eq_iff_iff, Jac.equal_iff r s, Jac.equal_iff r' s']

theorem add (hb : GoodCurve b) (h : SameOn b a a') (h' : SameOn b e e') : SameOn b (a.add e) (a'.add e') := by
  obtain ⟨P, r, r'⟩ := h
  obtain ⟨Q, s, s'⟩ := h'
  exact ⟨_, Jac.add_rep hb r s, Jac.add_rep hb r' s'⟩

theorem subtract (hb : GoodCurve b) (h : SameOn b a a') (h' : SameOn b e e') : SameOn b (a.subtract e) (a'.subtract e') := by
  obtain ⟨P, r, r'⟩ := h
  obtain ⟨Q, s, s'⟩ := h'
  exact ⟨_, Jac.sub_rep hb r s, Jac.sub_rep hb r' s'⟩

theorem dbl (h : SameOn b a a') : SameOn b a.dbl a'.dbl := by
  obtain ⟨P, r, r'⟩ := h
  exact ⟨_, Jac.dbl_rep r, Jac.dbl_rep r'⟩

theorem negate (h : SameOn b a a') : SameOn b a.negate a'.negate := by
  obtain ⟨P, r, r'⟩ := h
  exact ⟨_, Jac.neg_rep r, Jac.neg_rep r'⟩

theorem scale (hb : GoodCurve b) (h : SameOn b a a') (s : List UInt64) : SameOn b (a.scale s) (a'.scale s) := by
  obtain ⟨P, r, r'⟩ := h
  exact ⟨_, Jac.scale_rep hb r s, Jac.scale_rep hb r' s⟩

/-- Finite points have the same affine coordinates. -/
theorem affine (h : SameOn b a a') (h0 : a.isZero = false) : a.affine = a'.affine := by
  obtain ⟨P, r, r'⟩ := h
  match P, r, r' with
  | .zero, r, _ => rw [r.isZero_iff.2 rfl] at h0; exact Bool.noConfusion h0
  | .some x y hn, r, r' => rw [Jac.affine_some r, Jac.affine_some r']

theorem toAffineBytes (h : SameOn b a a') (n : ℕ) (enc : F → List UInt8) : a.toAffineBytes n enc = a'.toAffineBytes n enc := by
  rw [Jac.toAffineBytes, Jac.toAffineBytes, ← h.isZero]
  by_cases h0 : a.isZero = true
  · rw [if_pos h0, if_pos h0]
  · rw [if_neg h0, if_neg h0, h.affine (Bool.eq_false_iff.2 h0)]

theorem lists {l l' : List (Jac F)} (h : List.Forall₂ (SameOn b) l l') :
    ∃ Ps : List (curve b).Point, List.Forall₂ Jac.Rep l Ps ∧ List.Forall₂ Jac.Rep l' Ps := by
  induction h with
  | nil => exact ⟨[], .nil, .nil⟩
  | cons h _ ih =>
    obtain ⟨P, r, r'⟩ := h
    obtain ⟨Ps, s, s'⟩ := ih
    exact ⟨P :: Ps, .cons r s, .cons r' s'⟩

theorem weightedSum (hb : GoodCurve b) {l l' : List (Jac F)} (h : List.Forall₂ (SameOn b) l l') (scalars : List (List UInt64))
    (hs : ∀ s ∈ scalars, s.length = 4) : SameOn b (Jac.weightedSum l scalars) (Jac.weightedSum l' scalars) := by
  obtain ⟨Ps, r, r'⟩ := lists h
  exact ⟨_, Jac.weightedSum_rep hb r scalars hs, Jac.weightedSum_rep hb r' scalars hs⟩

theorem aggregate (hb : GoodCurve b) {l l' : List (Jac F)} (h : List.Forall₂ (SameOn b) l l') :
    SameOn b (Keys.aggregate l) (Keys.aggregate l') := by
  obtain ⟨Ps, r, r'⟩ := lists h
  exact ⟨_, Keys.aggregate_rep hb r, Keys.aggregate_rep hb r'⟩

end SameOn
end

/-! ### The two groups -/

section
variable {K : Type} [Field K] [FpOps K] [LawfulFp K] [DecidableEq K]

theorem same1_iff {a a' : G1 K} : Same1 a a' ↔
    a.isOnCurve FpC.B = true ∧ a'.isOnCurve FpC.B = true ∧ a.equal a' = true := by
  constructor
  · rintro ⟨P, r, r'⟩
    exact ⟨G1.onCurve_iff.2 ⟨P, r⟩, G1.onCurve_iff.2 ⟨P, r'⟩, (Jac.equal_iff r r').2 rfl⟩
  · rintro ⟨h, h', e⟩
    obtain ⟨P, r⟩ := G1.onCurve_iff.1 h
    obtain ⟨P', r'⟩ := G1.onCurve_iff.1 h'
    obtain rfl := (Jac.equal_iff r r').1 e
    exact ⟨P, r, r'⟩

theorem same2_iff {a a' : G2 K} : Same2 a a' ↔
    a.isOnCurve Fp2.B = true ∧ a'.isOnCurve Fp2.B = true ∧ a.equal a' = true := by
  constructor
  · rintro ⟨P, r, r'⟩
    exact ⟨G2.onCurve_iff.2 ⟨P, r⟩, G2.onCurve_iff.2 ⟨P, r'⟩, (Jac.equal_iff r r').2 rfl⟩
  · rintro ⟨h, h', e⟩
    obtain ⟨P, r⟩ := G2.onCurve_iff.1 h
    obtain ⟨P', r'⟩ := G2.onCurve_iff.1 h'
    obtain rfl := (Jac.equal_iff r r').1 e
    exact ⟨P, r, r'⟩

theorem Same1.subgroup {a a' : G1 K} (h : Same1 a a') : a.inCorrectSubgroup = a'.inCorrectSubgroup := by
  obtain ⟨P, r, r'⟩ := h
  rw [Bool.eq_iff_iff, G1.inCorrectSubgroup_iff r, G1.inCorrectSubgroup_iff r']

theorem Same2.subgroup {a a' : G2 K} (h : Same2 a a') : a.inCorrectSubgroup = a'.inCorrectSubgroup := by
  obtain ⟨P, r, r'⟩ := h
  rw [Bool.eq_iff_iff, G2.inCorrectSubgroup_iff r, G2.inCorrectSubgroup_iff r']

theorem Same1.curve {a a' : G1 K} (h : Same1 a a') : a.isOnCurve FpC.B = a'.isOnCurve FpC.B := by
  rw [(same1_iff.1 h).1, (same1_iff.1 h).2.1]

theorem Same2.curve {a a' : G2 K} (h : Same2 a a') : a.isOnCurve Fp2.B = a'.isOnCurve Fp2.B := by
  rw [(same2_iff.1 h).1, (same2_iff.1 h).2.1]

theorem Same1.glv {a a' : G1 K} (h : Same1 a a') : Same1 (G1.glvEndomorphism a) (G1.glvEndomorphism a') := by
  obtain ⟨P, r, r'⟩ := h
  exact ⟨_, glvEndomorphism_rep r, glvEndomorphism_rep r'⟩

theorem Same2.psi {a a' : G2 K} (h : Same2 a a') : Same2 (G2.psi a) (G2.psi a') := by
  obtain ⟨P, r, r'⟩ := h
  exact ⟨_, psi_rep r, psi_rep r'⟩

theorem Same2.frobenius {a a' : G2 K} (h : Same2 a a') (n : ℕ) : Same2 (G2.frobeniusMap a n) (G2.frobeniusMap a' n) := by
  induction n generalizing a a' with
  | zero => exact h
  | succ n ih =>
    obtain ⟨P, r, r'⟩ := h
    exact ih ⟨_, frobeniusMap_rep r, frobeniusMap_rep r'⟩

theorem Same1.clear {a a' : G1 K} (h : Same1 a a') : Same1 (G1.clearCofactor a) (G1.clearCofactor a') := by
  obtain ⟨P, r, r'⟩ := h
  exact ⟨_, G1.clearCofactor_rep r, G1.clearCofactor_rep r'⟩

theorem Same2.clear {a a' : G2 K} (h : Same2 a a') : Same2 (G2.clearCofactor a) (G2.clearCofactor a') := by
  obtain ⟨P, r, r'⟩ := h
  exact ⟨_, G2.clearCofactor_rep r, G2.clearCofactor_rep r'⟩

theorem Same1.compressed {a a' : G1 K} (h : Same1 a a') (h0 : a.isZero = false) :
    G1.toCompressedBytesBE a = G1.toCompressedBytesBE a' := by
  rw [G1.toCompressedBytesBE, G1.toCompressedBytesBE, SameOn.affine h h0]

theorem Same2.compressed {a a' : G2 K} (h : Same2 a a') (h0 : a.isZero = false) :
    G2.toCompressedBytesBE a = G2.toCompressedBytesBE a' := by
  rw [G2.toCompressedBytesBE, G2.toCompressedBytesBE, SameOn.affine h h0]

theorem addPair_same {a a' : G1 K} {b b' : G2 K} (h : Same1 a a') (h' : Same2 b b') (v : List (G1 K × G2 K)) :
    Pairing.addPair v a b = Pairing.addPair v a' b' := by
  rw [Pairing.addPair, Pairing.addPair, ← SameOn.isZero h, ← SameOn.isZero h']
  by_cases h0 : a.isZero = true
  · rw [h0]; rfl
  by_cases h1 : b.isZero = true
  · rw [h1, Bool.or_true]; rfl
  · rw [SameOn.affine h (Bool.eq_false_iff.2 h0), SameOn.affine h' (Bool.eq_false_iff.2 h1)]

open Sig

theorem verify_same {pk pk' : G1 K} {s s' : G2 K} (h : Same1 pk pk') (h' : Same2 s s') (m : List UInt8) :
    verify pk m s = verify pk' m s' := by
  obtain ⟨A, r, r'⟩ := h
  obtain ⟨S, t, t'⟩ := h'
  exact verify_congr r r' t t' m

theorem hash_same {m d : List UInt8} (hd : d.length ≤ 255) {e : G2 K} (h : fromMessage m d = some e) : Same2 e e := by
  obtain ⟨P, r, -⟩ := fromMessage_some hd h
  exact ⟨P, r, r⟩

theorem popVerify_same {pk pk' : G1 K} {s s' : G2 K} (h : Same1 pk pk') (h' : Same2 s s') :
    popVerify pk s = popVerify pk' s' := by
  obtain ⟨A, r, r'⟩ := h
  obtain ⟨S, t, t'⟩ := h'
  rw [popVerify_eq, popVerify_eq, keyBytes_eq r r']
  refine bind_congr_some fun a e => ?_
  obtain ⟨P, k, o⟩ := fromMessage_some id_length.2 e
  exact core_congr r r' t t' k o

theorem aggregateLoop_same {pks pks' : List (G1 K)} (h : List.Forall₂ Same1 pks pks') (ms : List (List UInt8))
    (v : List (G1 K × G2 K)) : aggregateLoop pks ms v = aggregateLoop pks' ms v := by
  induction h generalizing ms v with
  | nil => rfl
  | @cons a a' l l' h _ ih =>
    cases ms with
    | nil => rfl
    | cons m ms =>
      rw [aggregateLoop, aggregateLoop, h.curve, h.subgroup]
      split_ifs
      · rfl
      · refine bind_congr_some fun e he => ?_
        rw [ih, addPair_same h (hash_same id_length.1 he)]

theorem aggregateVerify_same {pks pks' : List (G1 K)} (h : List.Forall₂ Same1 pks pks') (ms : List (List UInt8)) {s s' : G2 K}
    (h' : Same2 s s') (dup : Bool) : aggregateVerify pks ms s dup = aggregateVerify pks' ms s' dup := by
  have hg : Same1 (G1.one : G1 K).negate (G1.one : G1 K).negate := ⟨_, Jac.neg_rep G1.one_rep, Jac.neg_rep G1.one_rep⟩
  rw [aggregateVerify, aggregateVerify, h'.curve, h'.subgroup, h.length_eq, addPair_same hg h', aggregateLoop_same h]

theorem fast_same {pks pks' : List (G1 K)} (h : List.Forall₂ Same1 pks pks') (m : List UInt8) {s s' : G2 K}
    (h' : Same2 s s') : popFastAggregateVerify pks m s = popFastAggregateVerify pks' m s' := by
  rw [popFastAggregateVerify, popFastAggregateVerify, h.length_eq]
  split_ifs
  · rfl
  · exact verify_same (SameOn.aggregate (goodCurve1 K) h) h' m

theorem childG1_same {pk pk' : G1 K} (h : Same1 pk pk') (h0 : pk.isZero = false) (i : UInt32) :
    ∃ c c', Keys.deriveChildG1Unhardened pk i = some c ∧ Keys.deriveChildG1Unhardened pk' i = some c' ∧ Same1 c c' := by
  have hc := h.compressed h0
  obtain ⟨P, r, r'⟩ := h
  obtain ⟨c, e, k⟩ := Keys.childG1_rep sha_spec pk P r i
  obtain ⟨c', e', k'⟩ := Keys.childG1_rep sha_spec pk' P r' i
  rw [← hc] at k'
  exact ⟨c, c', e, e', _, k, k'⟩

theorem childG2_same {pk pk' : G2 K} (h : Same2 pk pk') (h0 : pk.isZero = false) (i : UInt32) :
    ∃ c c', Keys.deriveChildG2Unhardened pk i = some c ∧ Keys.deriveChildG2Unhardened pk' i = some c' ∧ Same2 c c' := by
  have hc := h.compressed h0
  obtain ⟨P, r, r'⟩ := h
  obtain ⟨c, e, k⟩ := Keys.childG2_rep sha_spec pk P r i
  obtain ⟨c', e', k'⟩ := Keys.childG2_rep sha_spec pk' P r' i
  rw [← hc] at k'
  exact ⟨c, c', e, e', _, k, k'⟩

/-- Multiplying the coordinates by `c²`, `c³`, `c` gives the same point. -/
theorem same1_rescale {a : G1 K} (h : a.isOnCurve FpC.B = true) {c : K} (hc : c ≠ 0) :
    Same1 a ⟨a.x * c ^ 2, a.y * c ^ 3, a.z * c⟩ := by
  obtain ⟨P, r⟩ := G1.onCurve_iff.1 h
  refine ⟨P, r, ?_⟩
  match P, r with
  | .zero, r =>
    have r : a.z = 0 := r
    show a.z * c = 0
    rw [r, zero_mul]
  | .some x y hn, ⟨r1, r2, r3⟩ =>
    exact ⟨mul_ne_zero r1 hc, by show a.x * c ^ 2 = x * (a.z * c) ^ 2; rw [r2]; ring,
      by show a.y * c ^ 3 = y * (a.z * c) ^ 3; rw [r3]; ring⟩

/-- Multiplying the coordinates by `c²`, `c³`, `c` gives the same point. -/
theorem same2_rescale {a : G2 K} (h : a.isOnCurve Fp2.B = true) {c : Fp2 K} (hc : c ≠ 0) :
    Same2 a ⟨a.x * c ^ 2, a.y * c ^ 3, a.z * c⟩ := by
  obtain ⟨P, r⟩ := G2.onCurve_iff.1 h
  refine ⟨P, r, ?_⟩
  match P, r with
  | .zero, r =>
    have r : a.z = 0 := r
    show a.z * c = 0
    rw [r, zero_mul]
  | .some x y hn, ⟨r1, r2, r3⟩ =>
    exact ⟨mul_ne_zero r1 hc, by show a.x * c ^ 2 = x * (a.z * c) ^ 2; rw [r2]; ring,
      by show a.y * c ^ 3 = y * (a.z * c) ^ 3; rw [r3]; ring⟩

/-- The compressed form of the infinity `(0, 0, 0)`. -/
theorem compressed_null1 : G1.toCompressedBytesBE (⟨0, 0, 0⟩ : G1 K) = 0xC0 :: List.replicate 47 0 := by
  have ha : (⟨0, 0, 0⟩ : G1 K).affine = ⟨0, 0, 0⟩ := by
    rw [Jac.affine, Jac.isZero_iff.2 rfl, Bool.true_or, if_pos rfl]
  rw [G1.toCompressedBytesBE, ha]
  have h0 : (Ops.isZero (0 : K) && Ops.isZero (0 : K)) = true := by
    rw [Bool.and_self, LawfulOps.isZero_iff]
  simp only [if_pos h0]
  decide +kernel

/-- The compressed form of `g1::zero()`. -/
theorem compressed_zero1 : G1.toCompressedBytesBE (Jac.zero : G1 K) = 0x80 :: List.replicate 47 0 := by
  obtain ⟨h, l⟩ := G1.encode_zero (K := K)
  exact beVal_inj (by rw [l]; decide +kernel) (by rw [h]; decide +kernel)

theorem child_null : beVal (Sha256.hash [(0xC0 :: List.replicate 47 0) ++ Fips.be 4 0]) % q =
    16720973224802011287340552806522145956412974509717776886040327475805480166539 := by decide +kernel
theorem child_zero : beVal (Sha256.hash [(0x80 :: List.replicate 47 0) ++ Fips.be 4 0]) % q =
    18292990999249885720980679031252870011521034730975534975241642763741866386915 := by decide +kernel

/-- The child of infinity depends on the coordinates of infinity. -/
theorem child_infinity : ∃ c c' : G1 K, Keys.deriveChildG1Unhardened (⟨0, 0, 0⟩ : G1 K) 0 = some c ∧
    Keys.deriveChildG1Unhardened (Jac.zero : G1 K) 0 = some c' ∧ c.equal c' = false := by
  have r : Jac.Rep (⟨0, 0, 0⟩ : G1 K) (0 : E1 K) := rfl
  obtain ⟨c, e, k⟩ := Keys.childG1_rep sha_spec (⟨0, 0, 0⟩ : G1 K) 0 r 0
  obtain ⟨c', e', k'⟩ := Keys.childG1_rep sha_spec (Jac.zero : G1 K) 0 Jac.zero_rep 0
  refine ⟨c, c', e, e', ?_⟩
  rw [compressed_null1, zero_add] at k
  rw [compressed_zero1, zero_add] at k'
  have hn := child_null
  have hn' := child_zero
  beta_reduce at k k'
  rw [show (0 : UInt32).toNat = 0 from rfl] at k k'
  generalize beVal (Sha256.hash [(0xC0 :: List.replicate 47 0) ++ Fips.be 4 0]) = n at k hn
  generalize beVal (Sha256.hash [(0x80 :: List.replicate 47 0) ++ Fips.be 4 0]) = n' at k' hn'
  rw [Bool.eq_false_iff, Ne, Jac.equal_iff k k', Keys.smul_gen1_eq_iff]
  rw [hn, hn']
  decide +kernel

end

end Bls
