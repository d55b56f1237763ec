import Verif.Proof.Same
import Verif.Model.Order
import Verif.Proof.Order
import Verif.Proof.HashValues
import Verif.Props.GroupCodec
import Verif.Props.Keys
import Verif.Props.Binding

/-!
# C58, C59: nothing depends on the Jacobian coordinates chosen for a point; points survive transport

`Same1 a a'`, `Same2 a a'`: the triples stand for one point of the curve.
-/

namespace Bls.Props
open Bls Sig Rfc Pairing

attribute [local irreducible] p q hEff2 zabs

variable {adx : Bool}

/-! ## C58 -/

/-- C58: "the same point" in terms of the interface: both triples are on the curve and `equal`. -/
theorem C58_meaning :
    (∀ a a' : G1 (FpV adx), Same1 a a' ↔ a.isOnCurve FpC.B = true ∧ a'.isOnCurve FpC.B = true ∧ a.equal a' = true) ∧
    (∀ a a' : G2 (FpV adx), Same2 a a' ↔ a.isOnCurve Fp2.B = true ∧ a'.isOnCurve Fp2.B = true ∧ a.equal a' = true) :=
  ⟨fun _ _ => same1_iff, fun _ _ => same2_iff⟩

/-- Two triples of one point: the generator `(x, y, z)` and `(4 x, 8 y, 2 z)`. -/
theorem form1 : Same1 (G1.one : G1 (FpV adx)) ⟨(G1.one : G1 (FpV adx)).x * 2 ^ 2, (G1.one : G1 (FpV adx)).y * 2 ^ 3,
    (G1.one : G1 (FpV adx)).z * 2⟩ :=
  same1_rescale (G1.onCurve_iff.2 ⟨_, G1.one_rep (K := FpV adx)⟩) (goodCurve1 (FpV adx)).two

theorem form2 : Same2 (G2.one : G2 (FpV adx)) ⟨(G2.one : G2 (FpV adx)).x * 2 ^ 2, (G2.one : G2 (FpV adx)).y * 2 ^ 3,
    (G2.one : G2 (FpV adx)).z * 2⟩ :=
  same2_rescale (G2.onCurve_iff.2 ⟨_, G2.one_rep (K := FpV adx)⟩) (goodCurve2 (FpV adx)).two

/-- C58: the group operations of `g1`. -/
theorem C58_operations_g1 (a a' b b' : G1 (FpV adx)) (h : Same1 a a') (h' : Same1 b b') (s : List UInt64) :
    Same1 (a.add b) (a'.add b') ∧ Same1 (a.subtract b) (a'.subtract b') ∧ Same1 a.dbl a'.dbl ∧ Same1 a.negate a'.negate ∧
    Same1 (a.scale s) (a'.scale s) ∧ Same1 (G1.glvEndomorphism a) (G1.glvEndomorphism a') ∧
    Same1 (G1.clearCofactor a) (G1.clearCofactor a') :=
  ⟨SameOn.add (goodCurve1 _) h h', SameOn.subtract (goodCurve1 _) h h', SameOn.dbl h, SameOn.negate h,
    SameOn.scale (goodCurve1 _) h s, h.glv, h.clear⟩

example (s : List UInt64) : ∃ a a' : G1 (FpV adx), Same1 a a' ∧ Same1 (a.scale s) (a'.scale s) :=
  ⟨_, _, form1, (C58_operations_g1 _ _ _ _ form1 form1 s).2.2.2.2.1⟩

/-- C58: the group operations of `g2`. -/
theorem C58_operations_g2 (a a' b b' : G2 (FpV adx)) (h : Same2 a a') (h' : Same2 b b') (s : List UInt64) (n : ℕ) :
    Same2 (a.add b) (a'.add b') ∧ Same2 (a.subtract b) (a'.subtract b') ∧ Same2 a.dbl a'.dbl ∧ Same2 a.negate a'.negate ∧
    Same2 (a.scale s) (a'.scale s) ∧ Same2 (G2.psi a) (G2.psi a') ∧ Same2 (G2.frobeniusMap a n) (G2.frobeniusMap a' n) ∧
    Same2 (G2.clearCofactor a) (G2.clearCofactor a') :=
  ⟨SameOn.add (goodCurve2 _) h h', SameOn.subtract (goodCurve2 _) h h', SameOn.dbl h, SameOn.negate h,
    SameOn.scale (goodCurve2 _) h s, h.psi, h.frobenius n, h.clear⟩

example (s : List UInt64) : ∃ a a' : G2 (FpV adx), Same2 a a' ∧ Same2 (a.scale s) (a'.scale s) :=
  ⟨_, _, form2, (C58_operations_g2 _ _ _ _ form2 form2 s 1).2.2.2.2.1⟩

/-- C58: the functions on vectors of points. -/
theorem C58_vectors (scalars : List (List UInt64)) (hs : ∀ s ∈ scalars, s.length = 4) :
    (∀ l l' : List (G1 (FpV adx)), List.Forall₂ Same1 l l' → Same1 (Jac.weightedSum l scalars) (Jac.weightedSum l' scalars) ∧
      Same1 (Keys.aggregate l) (Keys.aggregate l')) ∧
    (∀ l l' : List (G2 (FpV adx)), List.Forall₂ Same2 l l' → Same2 (Jac.weightedSum l scalars) (Jac.weightedSum l' scalars) ∧
      Same2 (Keys.aggregate l) (Keys.aggregate l')) :=
  ⟨fun _ _ h => ⟨SameOn.weightedSum (goodCurve1 _) h scalars hs, SameOn.aggregate (goodCurve1 _) h⟩,
    fun _ _ h => ⟨SameOn.weightedSum (goodCurve2 _) h scalars hs, SameOn.aggregate (goodCurve2 _) h⟩⟩

example : ∃ l l' : List (G1 (FpV adx)), l.length = 2 ∧
    Same1 (Jac.weightedSum l [[1, 2, 3, 4], [5, 6, 7, 8]]) (Jac.weightedSum l' [[1, 2, 3, 4], [5, 6, 7, 8]]) :=
  ⟨[_, _], [_, _], rfl, ((C58_vectors [[1, 2, 3, 4], [5, 6, 7, 8]] (by decide)).1 _ _ (.cons form1 (.cons form1 .nil))).1⟩

/-- C58: the tests. -/
theorem C58_tests :
    (∀ a a' b b' : G1 (FpV adx), Same1 a a' → Same1 b b' → a.isZero = a'.isZero ∧ a.isOnCurve FpC.B = a'.isOnCurve FpC.B ∧
      a.inCorrectSubgroup = a'.inCorrectSubgroup ∧ a.equal b = a'.equal b') ∧
    (∀ a a' b b' : G2 (FpV adx), Same2 a a' → Same2 b b' → a.isZero = a'.isZero ∧ a.isOnCurve Fp2.B = a'.isOnCurve Fp2.B ∧
      a.inCorrectSubgroup = a'.inCorrectSubgroup ∧ a.equal b = a'.equal b') :=
  ⟨fun _ _ _ _ h h' => ⟨SameOn.isZero h, h.curve, h.subgroup, SameOn.equal h h'⟩,
    fun _ _ _ _ h h' => ⟨SameOn.isZero h, h.curve, h.subgroup, SameOn.equal h h'⟩⟩

/-- C58: the affine encodings of every point and the compressed one of every finite point. -/
theorem C58_encodings (mont : Bool) :
    (∀ a a' : G1 (FpV adx), Same1 a a' →
      a.toAffineBytes 48 (FpV.toBytesBE adx mont) = a'.toAffineBytes 48 (FpV.toBytesBE adx mont) ∧
      a.toAffineBytes 48 (FpV.toBytesLE adx mont) = a'.toAffineBytes 48 (FpV.toBytesLE adx mont) ∧
      (a.isZero = false → G1.toCompressedBytesBE a = G1.toCompressedBytesBE a')) ∧
    (∀ a a' : G2 (FpV adx), Same2 a a' →
      a.toAffineBytes 96 (Fp2.toBytesBE (FpV.toBytesBE adx mont)) = a'.toAffineBytes 96 (Fp2.toBytesBE (FpV.toBytesBE adx mont)) ∧
      a.toAffineBytes 96 (Fp2.toBytesLE (FpV.toBytesLE adx mont)) = a'.toAffineBytes 96 (Fp2.toBytesLE (FpV.toBytesLE adx mont)) ∧
      (a.isZero = false → G2.toCompressedBytesBE a = G2.toCompressedBytesBE a')) :=
  ⟨fun _ _ h => ⟨SameOn.toAffineBytes h _ _, SameOn.toAffineBytes h _ _, h.compressed⟩,
    fun _ _ h => ⟨SameOn.toAffineBytes h _ _, SameOn.toAffineBytes h _ _, h.compressed⟩⟩

/-- C58: the pairing gets the same list of pairs. -/
theorem C58_pairing (a a' : G1 (FpV adx)) (b b' : G2 (FpV adx)) (h : Same1 a a') (h' : Same2 b b')
    (v : List (G1 (FpV adx) × G2 (FpV adx))) : addPair v a b = addPair v a' b' := addPair_same h h' v

example : ∃ (a a' : G1 (FpV adx)) (b b' : G2 (FpV adx)), Same1 a a' ∧ Same2 b b' ∧ addPair [] a b = addPair [] a' b' :=
  ⟨_, _, _, _, form1, form2, C58_pairing _ _ _ _ form1 form2 []⟩

/-- C58: the verification functions give the same answer. -/
theorem C58_verifiers (pk pk' : G1 (FpV adx)) (pks pks' : List (G1 (FpV adx))) (s s' : G2 (FpV adx)) (h : Same1 pk pk')
    (hl : List.Forall₂ Same1 pks pks') (h' : Same2 s s') (m : List UInt8) (ms : List (List UInt8)) (dup : Bool) :
    verify pk m s = verify pk' m s' ∧ popVerify pk s = popVerify pk' s' ∧
    aggregateVerify pks ms s dup = aggregateVerify pks' ms s' dup ∧
    popFastAggregateVerify pks m s = popFastAggregateVerify pks' m s' :=
  ⟨verify_same h h' m, popVerify_same h h', aggregateVerify_same hl ms h' dup, fast_same hl m h'⟩

example (m : List UInt8) : ∃ (a a' : G1 (FpV adx)) (b b' : G2 (FpV adx)), Same1 a a' ∧ Same2 b b' ∧ verify a m b = verify a' m b' :=
  ⟨_, _, _, _, form1, form2, (C58_verifiers _ _ _ _ _ _ form1 .nil form2 m [] true).1⟩

/-- C58: unhardened child keys of a finite point. -/
theorem C58_children (i : UInt32) :
    (∀ a a' : G1 (FpV adx), Same1 a a' → a.isZero = false → ∃ c c', Keys.deriveChildG1Unhardened a i = some c ∧
      Keys.deriveChildG1Unhardened a' i = some c' ∧ Same1 c c') ∧
    (∀ a a' : G2 (FpV adx), Same2 a a' → a.isZero = false → ∃ c c', Keys.deriveChildG2Unhardened a i = some c ∧
      Keys.deriveChildG2Unhardened a' i = some c' ∧ Same2 c c') :=
  ⟨fun _ _ h h0 => childG1_same h h0 i, fun _ _ h h0 => childG2_same h h0 i⟩

/-- Every point of the curve has other coordinates: the hypotheses hold for every `c ≠ 0`, and for the generator and
`c = 2` the triples differ. -/
example (a : G1 (FpV adx)) (h : a.isOnCurve FpC.B = true) (c : FpV adx) (hc : c ≠ 0) :
    Same1 a ⟨a.x * c ^ 2, a.y * c ^ 3, a.z * c⟩ := same1_rescale h hc
example (a : G2 (FpV adx)) (h : a.isOnCurve Fp2.B = true) (c : Fp2 (FpV adx)) (hc : c ≠ 0) :
    Same2 a ⟨a.x * c ^ 2, a.y * c ^ 3, a.z * c⟩ := same2_rescale h hc
theorem C58_two_forms : ∃ a a' : G1 (FpV adx), Same1 a a' ∧ a ≠ a' ∧ a.isZero = false := by
  have h := G1.onCurve_iff.2 ⟨_, G1.one_rep (K := FpV adx)⟩
  have hz : (G1.one : G1 (FpV adx)).z ≠ 0 := by
    intro h0
    exact gen1_ne_zero _ (G1.one_rep.isZero_iff.1 (Jac.isZero_iff.2 h0))
  refine ⟨_, _, same1_rescale h (goodCurve1 (FpV adx)).two, fun e => ?_, ?_⟩
  · have := congrArg Jac.z e
    have h1 : (G1.one : G1 (FpV adx)).z * (2 - 1) = 0 := by linear_combination -this
    rw [show (2 : FpV adx) - 1 = 1 by ring, mul_one] at h1
    exact hz h1
  · rw [Bool.eq_false_iff, Ne, G1.one_rep.isZero_iff]
    exact gen1_ne_zero _

/-- What C58 leaves out does depend on the coordinates: `operator==`, the Jacobian encodings, and at infinity the compressed
encoding and the child keys. -/
theorem C58_exceptions :
    (∃ a a' : G1 (FpV adx), Same1 a a' ∧ a.eqOp FpV.eqOp a' = false ∧
      ∀ mont, a.toJacobianBytes (FpV.toBytesBE adx mont) ≠ a'.toJacobianBytes (FpV.toBytesBE adx mont)) ∧
    (∃ a a' : G1 (FpV adx), Same1 a a' ∧ G1.toCompressedBytesBE a ≠ G1.toCompressedBytesBE a' ∧
      ∃ c c', Keys.deriveChildG1Unhardened a 0 = some c ∧ Keys.deriveChildG1Unhardened a' 0 = some c' ∧
        c.equal c' = false) := by
  refine ⟨?_, ⟨0, 0, 0⟩, Jac.zero, ⟨0, rfl, Jac.zero_rep⟩, ?_, child_infinity⟩
  · obtain ⟨a, a', h, hne, -⟩ := C58_two_forms (adx := adx)
    have ho : ∃ P : E1 (FpV adx), a.Rep P := let ⟨P, r, _⟩ := h; ⟨P, r⟩
    have ho' : ∃ P : E1 (FpV adx), a'.Rep P := let ⟨P, _, r⟩ := h; ⟨P, r⟩
    refine ⟨a, a', h, ?_, fun mont e => hne ?_⟩
    · rw [Bool.eq_false_iff, Ne, (Jac.strongOrder FpV.strongOrder).eqOp]
      exact hne
    · have hc := (C26_jacobian_g1 adx mont).1
      have h1 := hc.dec_enc a ho
      rw [e, hc.dec_enc a' ho'] at h1
      exact (Option.some.inj h1).symm
  · rw [compressed_null1, compressed_zero1]
    decide +kernel

/-! ## C59 -/

/-- C59: what is decoded from any encoding of a point of `g1` is the same point; for the compressed form the point must be
finite (`C27_infinity_false`). -/
theorem C59_transport_g1 (mont : Bool) (a : G1 (FpV adx)) (h : a.isOnCurve FpC.B = true) :
    (∃ a', Jac.fromAffineBytes 48 (FpV.fromBytesBE adx mont) FpC.B true (a.toAffineBytes 48 (FpV.toBytesBE adx mont)) = some a' ∧
      Same1 a a') ∧
    (∃ a', Jac.fromAffineBytes 48 (FpV.fromBytesLE adx mont) FpC.B true (a.toAffineBytes 48 (FpV.toBytesLE adx mont)) = some a' ∧
      Same1 a a') ∧
    Jac.fromJacobianBytes 48 (FpV.fromBytesBE adx mont) FpC.B true (a.toJacobianBytes (FpV.toBytesBE adx mont)) = some a ∧
    Jac.fromJacobianBytes 48 (FpV.fromBytesLE adx mont) FpC.B true (a.toJacobianBytes (FpV.toBytesLE adx mont)) = some a ∧
    (a.isZero = false → ∃ a', G1.fromCompressedBytesBE (G1.toCompressedBytesBE a) = some a' ∧ Same1 a a') := by
  obtain ⟨P, r⟩ := G1.onCurve_iff.1 h
  obtain ⟨-, b, e, k⟩ := (C26_affine_g1 adx mont).1.dec_enc a P r
  obtain ⟨-, c, e', k'⟩ := (C26_affine_g1 adx mont).2.dec_enc a P r
  refine ⟨⟨b, e, P, r, k⟩, ⟨c, e', P, r, k'⟩, (C26_jacobian_g1 adx mont).1.dec_enc a ⟨P, r⟩,
    (C26_jacobian_g1 adx mont).2.dec_enc a ⟨P, r⟩, fun h0 => ?_⟩
  obtain ⟨-, d, e, k⟩ := (C27_roundtrip_partial adx).1 a P r fun hP => by
    rw [r.isZero_iff.2 hP] at h0
    exact Bool.noConfusion h0
  exact ⟨d, e, P, r, k⟩

example : ∃ a', G1.fromCompressedBytesBE (G1.toCompressedBytesBE (G1.one : G1 (FpV adx))) = some a' ∧
    Same1 (G1.one : G1 (FpV adx)) a' :=
  (C59_transport_g1 true G1.one (G1.onCurve_iff.2 ⟨_, G1.one_rep (K := FpV adx)⟩)).2.2.2.2 (by
    rw [Bool.eq_false_iff, Ne, G1.one_rep.isZero_iff]
    exact gen1_ne_zero _)

/-- C59: the same for `g2`. -/
theorem C59_transport_g2 (mont : Bool) (a : G2 (FpV adx)) (h : a.isOnCurve Fp2.B = true) :
    (∃ a', Jac.fromAffineBytes 96 (Fp2.fromBytesBE (FpV.fromBytesBE adx mont)) Fp2.B true
      (a.toAffineBytes 96 (Fp2.toBytesBE (FpV.toBytesBE adx mont))) = some a' ∧ Same2 a a') ∧
    (∃ a', Jac.fromAffineBytes 96 (Fp2.fromBytesLE (FpV.fromBytesLE adx mont)) Fp2.B true
      (a.toAffineBytes 96 (Fp2.toBytesLE (FpV.toBytesLE adx mont))) = some a' ∧ Same2 a a') ∧
    Jac.fromJacobianBytes 96 (Fp2.fromBytesBE (FpV.fromBytesBE adx mont)) Fp2.B true
      (a.toJacobianBytes (Fp2.toBytesBE (FpV.toBytesBE adx mont))) = some a ∧
    Jac.fromJacobianBytes 96 (Fp2.fromBytesLE (FpV.fromBytesLE adx mont)) Fp2.B true
      (a.toJacobianBytes (Fp2.toBytesLE (FpV.toBytesLE adx mont))) = some a ∧
    (a.isZero = false → ∃ a', G2.fromCompressedBytesBE (G2.toCompressedBytesBE a) = some a' ∧ Same2 a a') := by
  obtain ⟨P, r⟩ := G2.onCurve_iff.1 h
  obtain ⟨-, b, e, k⟩ := (C26_affine_g2 adx mont).1.dec_enc a P r
  obtain ⟨-, c, e', k'⟩ := (C26_affine_g2 adx mont).2.dec_enc a P r
  refine ⟨⟨b, e, P, r, k⟩, ⟨c, e', P, r, k'⟩, (C26_jacobian_g2 adx mont).1.dec_enc a ⟨P, r⟩,
    (C26_jacobian_g2 adx mont).2.dec_enc a ⟨P, r⟩, fun h0 => ?_⟩
  obtain ⟨-, d, e, k⟩ := (C27_roundtrip_partial adx).2 a P r fun hP => by
    rw [r.isZero_iff.2 hP] at h0
    exact Bool.noConfusion h0
  exact ⟨d, e, P, r, k⟩

example : ∃ a', G2.fromCompressedBytesBE (G2.toCompressedBytesBE (G2.one : G2 (FpV adx))) = some a' ∧
    Same2 (G2.one : G2 (FpV adx)) a' :=
  (C59_transport_g2 true G2.one (G2.onCurve_iff.2 ⟨_, G2.one_rep (K := FpV adx)⟩)).2.2.2.2 (by
    rw [Bool.eq_false_iff, Ne, G2.one_rep.isZero_iff]
    exact gen2_ne_zero _)

/-- C59: key and signature are sent in compressed form: the receiver decodes both and gets the sender's answer. -/
theorem C59_compressed (pk : G1 (FpV adx)) (s : G2 (FpV adx)) (hpk : pk.isOnCurve FpC.B = true) (hs : s.isOnCurve Fp2.B = true)
    (h0 : pk.isZero = false) (h1 : s.isZero = false) :
    ∃ (pk' : G1 (FpV adx)) (s' : G2 (FpV adx)),
      G1.fromCompressedBytesBE (G1.toCompressedBytesBE pk) = some pk' ∧
      G2.fromCompressedBytesBE (G2.toCompressedBytesBE s) = some s' ∧ (∀ m, verify pk' m s' = verify pk m s) ∧
      popVerify pk' s' = popVerify pk s := by
  obtain ⟨pk', e, k⟩ := (C59_transport_g1 true pk hpk).2.2.2.2 h0
  obtain ⟨s', e', k'⟩ := (C59_transport_g2 true s hs).2.2.2.2 h1
  exact ⟨pk', s', e, e', fun m => (verify_same k k' m).symm, (popVerify_same k k').symm⟩

example : ∃ (pk' : G1 (FpV adx)) (s' : G2 (FpV adx)), G1.fromCompressedBytesBE (G1.toCompressedBytesBE (G1.one : G1 (FpV adx))) = some pk' ∧
    G2.fromCompressedBytesBE (G2.toCompressedBytesBE (G2.one : G2 (FpV adx))) = some s' ∧
    popVerify pk' s' = popVerify (G1.one : G1 (FpV adx)) (G2.one : G2 (FpV adx)) := by
  obtain ⟨pk', s', h, h', -, h''⟩ := C59_compressed (G1.one : G1 (FpV adx)) (G2.one : G2 (FpV adx))
    (G1.onCurve_iff.2 ⟨_, G1.one_rep (K := FpV adx)⟩) (G2.onCurve_iff.2 ⟨_, G2.one_rep (K := FpV adx)⟩)
    (by rw [Bool.eq_false_iff, Ne, G1.one_rep.isZero_iff]; exact gen1_ne_zero _)
    (by rw [Bool.eq_false_iff, Ne, G2.one_rep.isZero_iff]; exact gen2_ne_zero _)
  exact ⟨pk', s', h, h', h''⟩

/-- C59: the affine forms need no exception. -/
theorem C59_affine (mont : Bool) (pk : G1 (FpV adx)) (s : G2 (FpV adx)) (hpk : pk.isOnCurve FpC.B = true)
    (hs : s.isOnCurve Fp2.B = true) : ∃ (pk' : G1 (FpV adx)) (s' : G2 (FpV adx)),
      Jac.fromAffineBytes 48 (FpV.fromBytesLE adx mont) FpC.B true (pk.toAffineBytes 48 (FpV.toBytesLE adx mont)) = some pk' ∧
      Jac.fromAffineBytes 96 (Fp2.fromBytesLE (FpV.fromBytesLE adx mont)) Fp2.B true
        (s.toAffineBytes 96 (Fp2.toBytesLE (FpV.toBytesLE adx mont))) = some s' ∧
      (∀ m, verify pk' m s' = verify pk m s) ∧ popVerify pk' s' = popVerify pk s := by
  obtain ⟨pk', e, k⟩ := (C59_transport_g1 mont pk hpk).2.1
  obtain ⟨s', e', k'⟩ := (C59_transport_g2 mont s hs).2.1
  exact ⟨pk', s', e, e', fun m => (verify_same k k' m).symm, (popVerify_same k k').symm⟩

/-- The points at infinity are transported as well. -/
example (mont : Bool) : ∃ (pk' : G1 (FpV adx)) (s' : G2 (FpV adx)),
    Jac.fromAffineBytes 48 (FpV.fromBytesLE adx mont) FpC.B true ((Jac.zero : G1 (FpV adx)).toAffineBytes 48 (FpV.toBytesLE adx mont)) =
      some pk' ∧ popVerify pk' s' = popVerify (Jac.zero : G1 (FpV adx)) (G2.one : G2 (FpV adx)) := by
  obtain ⟨pk', s', h, -, -, h'⟩ := C59_affine mont (Jac.zero : G1 (FpV adx)) (G2.one : G2 (FpV adx))
    (G1.onCurve_iff.2 ⟨_, Jac.zero_rep⟩) (G2.onCurve_iff.2 ⟨_, G2.one_rep (K := FpV adx)⟩)
  exact ⟨pk', s', h, h'⟩

/-- C59: sign, send the compressed key and the compressed signature, decode, verify: the answer is yes. -/
theorem C59_signed (sk : List UInt64) (m : List UInt8) (e s : G2 (FpV adx)) (he : fromMessage m ciphersuiteId = some e)
    (h0 : e.isZero = false) (hsk : ¬ q ∣ wordsVal sk) (h : sign sk m = some s) :
    ∃ (pk' : G1 (FpV adx)) (s' : G2 (FpV adx)),
      G1.fromCompressedBytesBE (G1.toCompressedBytesBE (Keys.publicKey sk : G1 (FpV adx))) = some pk' ∧
      G2.fromCompressedBytesBE (G2.toCompressedBytesBE s) = some s' ∧ verify pk' m s' = some true := by
  have hs0 : s.isZero = false := by
    rw [Bool.eq_false_iff, Ne, C55_infinity sk m e s he h, h0]
    rintro (h | h)
    · exact hsk h
    · exact Bool.noConfusion h
  have hv := C45_sign sk m s h
  have hk0 : (Keys.publicKey sk : G1 (FpV adx)).isZero = false := by
    rw [Bool.eq_false_iff, Ne, (C42_publicKey adx sk).2.1]
    exact hsk
  obtain ⟨P, r⟩ : ∃ P : E1 (FpV adx), (Keys.publicKey sk : G1 (FpV adx)).Rep P := ⟨_, Keys.publicKey_rep sk⟩
  obtain ⟨S, t⟩ : ∃ S : E2 (FpV adx), s.Rep S := by
    obtain ⟨E, t, -⟩ := fromMessage_some id_length.1 he
    rw [sign, he, Option.map_some] at h
    exact ⟨_, Option.some.inj h ▸ Jac.scale_rep (goodCurve2 _) t sk⟩
  obtain ⟨pk', s', e1, e2, e3, -⟩ := C59_compressed _ s (G1.onCurve_iff.2 ⟨P, r⟩) (G2.onCurve_iff.2 ⟨S, t⟩) hk0 hs0
  exact ⟨pk', s', e1, e2, (e3 m).trans hv⟩

/-- The hypotheses hold for the key 3 and the message `abc`. -/
example : ∃ e s : G2 (FpV adx), fromMessage [97, 98, 99] ciphersuiteId = some e ∧ e.isZero = false ∧
    ¬ q ∣ wordsVal [3, 0, 0, 0] ∧ sign [3, 0, 0, 0] [97, 98, 99] = some s := by
  obtain ⟨e, he, h0⟩ := hash_abc_ne (FpV adx)
  exact ⟨e, e.scale [3, 0, 0, 0], he, h0, by decide +kernel, by rw [sign, he, Option.map_some]⟩

end Bls.Props
