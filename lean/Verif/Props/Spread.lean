import Verif.Proof.MapCount
import Verif.Proof.FpV

/-!
# C73: how evenly the maps to the curves spread their arguments

No point is reached from more than a small multiple of the average number of arguments. The average over the `q` points of a
subgroup is `p / q`, `p² / q` and `256²⁵⁶ / q`.
-/

namespace Bls.Props
open Bls Rfc

attribute [local irreducible] p q hEff1 hEff2

variable {adx : Bool}

/-- C73: `fp` has `p` elements and `fp2` has `p²`. -/
theorem C73_sizes : Nat.card (FpV adx) = p ∧ Nat.card (Fp2 (FpV adx)) = p ^ 2 := by
  refine ⟨IsFp.card _, ?_⟩
  let e : Fp2 (FpV adx) ≃ FpV adx × FpV adx :=
    ⟨fun x => (x.c0, x.c1), fun x => ⟨x.1, x.2⟩, fun _ => rfl, fun _ => rfl⟩
  rw [Nat.card_congr e, Nat.card_prod, IsFp.card, sq]

/-- C73: `g1::mapToCurve` sends at most `48 p / q` elements to one point. -/
theorem C73_g1 (a : G1 (FpV adx)) (ha : a.isOnCurve FpC.B = true) :
    {t : FpV adx | (G1.mapToCurve t).equal a = true}.ncard * q ≤ 48 * p := by
  refine (Nat.mul_le_mul_right q (few_equal1 a ha).ncard).trans ?_
  decide +kernel

example : {t : FpV adx | (G1.mapToCurve t).equal (G1.one : G1 (FpV adx)) = true}.ncard * q ≤ 48 * p :=
  C73_g1 _ (G1.onCurve_iff.2 ⟨_, G1.one_rep⟩)

/-- C73: `g2::mapToCurve` sends at most `16 p² / q` elements to one point. -/
theorem C73_g2 (a : G2 (FpV adx)) (ha : a.isOnCurve Fp2.B = true) :
    {t : Fp2 (FpV adx) | (G2.mapToCurve t).equal a = true}.ncard * q ≤ 16 * p ^ 2 := by
  refine (Nat.mul_le_mul_right q (few_equal2 a ha).ncard).trans ?_
  decide +kernel

/-- For the point to which zero is sent. -/
example : {t : Fp2 (FpV adx) | (G2.mapToCurve t).equal (G2.mapToCurve (0 : Fp2 (FpV adx))) = true}.ncard * q ≤ 16 * p ^ 2 := by
  obtain ⟨P, -, hP⟩ := map2 (0 : Fp2 (FpV adx))
  exact C73_g2 _ (G2.onCurve_iff.2 ⟨_, clear_rep_eff.2 _ _ hP⟩)

/-- C73: `fromMessage` is `hashPoint` after `xmd_sh256`. -/
theorem C73_fromMessage (msg dst : List UInt8) : (Sig.fromMessage msg dst : Option (G2 (FpV adx))) =
    (Hash.xmd (List.replicate 256 0) 256 msg (Hash.toInt msg.length) dst (Hash.toInt dst.length)).bind fun r =>
      if r.1 ≠ 0 then none else Sig.hashPoint r.2 := by
  rw [Sig.fromMessage]
  cases Hash.xmd (List.replicate 256 0) 256 msg (Hash.toInt msg.length) dst (Hash.toInt dst.length) <;> rfl

/-- C73: of the `256²⁵⁶` values of the buffer that `fromMessage` fills, a share of at most `16 / q` leads to one point; in
particular at most this share leads to infinity. -/
theorem C73_hash (a : G2 (FpV adx)) (ha : a.isOnCurve Fp2.B = true) :
    {bs : List UInt8 | bs.length = 256 ∧ ∃ b : G2 (FpV adx), Sig.hashPoint bs = some b ∧ b.equal a = true}.Finite ∧
    {bs : List UInt8 | bs.length = 256 ∧ ∃ b : G2 (FpV adx), Sig.hashPoint bs = some b ∧ b.equal a = true}.ncard * q ≤
      16 * 256 ^ 256 := by
  have h := few_hashPoint a ha
  constructor
  · obtain ⟨s, -, hs⟩ := h
    exact s.finite_toSet.subset hs
  · refine (Nat.mul_le_mul_right q h.ncard).trans ?_
    decide +kernel

/-- For infinity. -/
example : {bs : List UInt8 | bs.length = 256 ∧ ∃ b : G2 (FpV adx), Sig.hashPoint bs = some b ∧
    b.equal (Jac.zero : G2 (FpV adx)) = true}.ncard * q ≤ 16 * 256 ^ 256 :=
  (C73_hash _ (G2.onCurve_iff.2 ⟨_, Jac.zero_rep⟩)).2

/-- C73: every value of the buffer leads to a point of the subgroup. -/
theorem C73_hash_defined (bs : List UInt8) (h : bs.length = 256) : ∃ b : G2 (FpV adx), Sig.hashPoint bs = some b ∧
    b.isOnCurve Fp2.B = true ∧ b.inCorrectSubgroup = true := by
  obtain ⟨a, P0, P1, h1, -, -, h2⟩ := hashPoint_rep (K := FpV adx) h
  exact ⟨a, h1, G2.onCurve_iff.2 ⟨_, h2⟩, (G2.inCorrectSubgroup_iff h2).2 (clear_order.2 _)⟩

example : ∃ b : G2 (FpV adx), Sig.hashPoint (List.replicate 256 255) = some b ∧ b.isOnCurve Fp2.B = true ∧ b.inCorrectSubgroup = true :=
  C73_hash_defined _ List.length_replicate

/-- C73: at least `q / 16` points of the subgroup are reached by `g2::mapToCurve` and at least `q / 48` by `g1::mapToCurve`. -/
theorem C73_reached :
    q ≤ {P : E2 (FpV adx) | ∃ t, (G2.mapToCurve t).Rep P}.ncard * 16 ∧
    q ≤ {P : E1 (FpV adx) | ∃ t, (G1.mapToCurve t).Rep P}.ncard * 48 := by
  constructor
  · have h := reached2 (K := FpV adx)
    rw [C73_sizes.2] at h
    generalize Set.ncard _ = n at h ⊢
    have e : h2 * 15 * q ≤ 16 * p ^ 2 := by decide +kernel
    have h0 : 0 < p ^ 2 := by decide +kernel
    refine Nat.le_of_mul_le_mul_right ?_ h0
    calc q * p ^ 2 ≤ q * (n * (h2 * 15)) := Nat.mul_le_mul_left _ h
      _ = n * (h2 * 15 * q) := by ring
      _ ≤ n * (16 * p ^ 2) := Nat.mul_le_mul_left _ e
      _ = n * 16 * p ^ 2 := by ring
  · have h := reached1 (K := FpV adx)
    rw [C73_sizes.1] at h
    generalize Set.ncard _ = n at h ⊢
    have e : h1 * 47 * q ≤ 48 * (p - 16) := by decide +kernel
    have h0 : 0 < p - 16 := by decide +kernel
    have h' : p - 16 ≤ n * (h1 * 47) := by omega
    refine Nat.le_of_mul_le_mul_right ?_ h0
    calc q * (p - 16) ≤ q * (n * (h1 * 47)) := Nat.mul_le_mul_left _ h'
      _ = n * (h1 * 47 * q) := by ring
      _ ≤ n * (48 * (p - 16)) := Nat.mul_le_mul_left _ e
      _ = n * 48 * (p - 16) := by ring

/-- The generators are on the curves, and the points of `mapToCurve` themselves are (C31): the sets above are not empty. -/
example : (G1.one : G1 (FpV adx)).isOnCurve FpC.B = true ∧ (G2.one : G2 (FpV adx)).isOnCurve Fp2.B = true ∧
    (G2.mapToCurve (0 : Fp2 (FpV adx))).isOnCurve Fp2.B = true := by
  refine ⟨G1.onCurve_iff.2 ⟨_, G1.one_rep⟩, G2.onCurve_iff.2 ⟨_, G2.one_rep⟩, ?_⟩
  obtain ⟨P, -, hP⟩ := map2 (0 : Fp2 (FpV adx))
  exact G2.onCurve_iff.2 ⟨_, clear_rep_eff.2 _ _ hP⟩

end Bls.Props
