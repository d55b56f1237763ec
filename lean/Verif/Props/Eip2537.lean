import Verif.Proof.Eip2537
import Verif.Proof.Signatures
import Verif.Props.MapToCurve
import Verif.Props.Product

/-!
# C91: the precompiled contracts of EIP-2537

A caller that cuts and pads the byte strings (`Model/Eip2537.lean`) and calls the library for the rest computes the functions of
the standard (`Spec/Eip2537.lean`), on all byte strings and with the same rejections, provided that it sets `check_valid`.
-/

namespace Bls.Props
open Bls Eip2537 Jac

attribute [local irreducible] p q hEff1 hEff2

variable {adx : Bool}

/-- C91: `BLS12_G1ADD`. -/
theorem C91_g1_add (inp out : List UInt8) : g1Add adx true inp = some out ↔ IsG1Add (FpV adx) inp out := by
  unfold g1Add IsG1Add
  by_cases hl : inp.length = 256
  · rw [if_neg (not_not.2 hl)]
    simp only [Option.bind_eq_bind, Option.bind_eq_some_iff, pure, Option.bind_some, Option.some.injEq]
    constructor
    · rintro ⟨a, ha, b, hb, rfl⟩
      obtain ⟨P, rP, hP⟩ := decodeG1_point ha
      obtain ⟨Q, rQ, hQ⟩ := decodeG1_point hb
      exact ⟨hl, P, Q, hP, hQ, encodeG1_point (add_rep (goodCurve1 _) rP rQ)⟩
    · rintro ⟨-, P, Q, hP, hQ, ho⟩
      obtain ⟨a, ha, rP⟩ := (decodeG1_iff _ P).2 hP
      obtain ⟨b, hb, rQ⟩ := (decodeG1_iff _ Q).2 hQ
      exact ⟨a, ha, b, hb, (encodeG1_point (add_rep (goodCurve1 _) rP rQ)).unique ho⟩
  · rw [if_pos hl]
    exact ⟨fun h => (by cases h), fun h => absurd h.1 hl⟩

/-- C91: `BLS12_G2ADD`. -/
theorem C91_g2_add (inp out : List UInt8) : g2Add adx true inp = some out ↔ IsG2Add (FpV adx) inp out := by
  unfold g2Add IsG2Add
  by_cases hl : inp.length = 512
  · rw [if_neg (not_not.2 hl)]
    simp only [Option.bind_eq_bind, Option.bind_eq_some_iff, pure, Option.bind_some, Option.some.injEq]
    constructor
    · rintro ⟨a, ha, b, hb, rfl⟩
      obtain ⟨P, rP, hP⟩ := decodeG2_point ha
      obtain ⟨Q, rQ, hQ⟩ := decodeG2_point hb
      exact ⟨hl, P, Q, hP, hQ, encodeG2_point (add_rep (goodCurve2 _) rP rQ)⟩
    · rintro ⟨-, P, Q, hP, hQ, ho⟩
      obtain ⟨a, ha, rP⟩ := (decodeG2_iff _ P).2 hP
      obtain ⟨b, hb, rQ⟩ := (decodeG2_iff _ Q).2 hQ
      exact ⟨a, ha, b, hb, (encodeG2_point (add_rep (goodCurve2 _) rP rQ)).unique ho⟩
  · rw [if_pos hl]
    exact ⟨fun h => (by cases h), fun h => absurd h.1 hl⟩

section
variable {F : Type} [Field F] [DecidableEq F] [Ops F] [LawfulOps F] {b : F}

theorem msm_rep (hb : GoodCurve b) {w : ℕ → List UInt8} {k : ℕ} (hw : ∀ i < k, (w i).length = 32) {c : ℕ → (curve b).Point}
    {l : List (Jac F × List UInt64)}
    (h : List.Forall₂ (fun i y => y.1.Rep (c i) ∧ y.2 = Scalar.fromBytesBE 4 (w i)) (List.range k) l) :
    (weightedSum (l.map Prod.fst) (l.map Prod.snd)).Rep ((List.range k).map fun i => beVal (w i) • c i).sum := by
  have h1 : List.Forall₂ Jac.Rep (l.map Prod.fst) ((List.range k).map c) := by
    rw [List.forall₂_map_left_iff, List.forall₂_map_right_iff]
    exact h.flip.imp fun _ _ h => h.1
  have h2 : l.map Prod.snd = (List.range k).map fun i => Scalar.fromBytesBE 4 (w i) := by
    clear h1 hw
    generalize List.range k = xs at h
    induction h with
    | nil => rfl
    | cons h _ ih => rw [List.map_cons, List.map_cons, ih, h.2]
  have := weightedSum_rep hb h1 (l.map Prod.snd) (by
    rw [h2]
    intro s hs
    obtain ⟨i, -, rfl⟩ := List.mem_map.1 hs
    exact Scalar.fromBytesBE_length ..)
  convert this using 2
  rw [h2, List.zip_map', List.map_map]
  refine List.map_congr_left fun i hi => ?_
  show _ = wordsVal _ • c i
  rw [Scalar.fromBytesBE_val 4 _ (hw i (List.mem_range.1 hi))]

end

/-- C91: `BLS12_G1MSM`. -/
theorem C91_g1_msm (inp out : List UInt8) : g1Msm adx true inp = some out ↔ IsG1Msm (FpV adx) inp out := by
  have key := mapM_range (f := term1 (adx := adx) true inp)
    (R := fun i y (c : E1 (FpV adx)) => y.1.Rep c ∧ y.2 = Scalar.fromBytesBE 4 (span inp (160 * i + 128) 32))
    (S := fun i c => IsPoint1 (part inp (160 * i) 128) c ∧ q • c = 0)
    (by
      intro i y h
      unfold term1 at h
      simp only [Option.bind_eq_bind, Option.bind_eq_some_iff] at h
      obtain ⟨a, ha, h⟩ := h
      split_ifs at h with hs
      cases h
      obtain ⟨P, hP, -⟩ := decodeG1_point ha
      exact ⟨P, hP, rfl⟩)
    (by
      intro i c
      unfold term1
      simp only [Option.bind_eq_bind, Option.bind_eq_some_iff]
      constructor
      · rintro ⟨y, ⟨a, ha, h⟩, hr, -⟩
        split_ifs at h with hs
        cases h
        exact ⟨(decodeG1_iff _ c).1 ⟨a, ha, hr⟩, (G1.inCorrectSubgroup_iff hr).1 hs⟩
      · rintro ⟨h1, h2⟩
        obtain ⟨a, ha, hr⟩ := (decodeG1_iff _ c).2 h1
        exact ⟨_, ⟨a, ha, if_pos ((G1.inCorrectSubgroup_iff hr).2 h2)⟩, hr, rfl⟩)
  unfold g1Msm IsG1Msm
  by_cases hl : inp.length = 0 ∨ inp.length % 160 ≠ 0
  · rw [if_pos hl]
    refine ⟨fun h => (by cases h), ?_⟩
    rintro ⟨k, hk, e, -⟩
    omega
  · rw [if_neg hl]
    simp only [Option.bind_eq_bind, Option.bind_eq_some_iff, pure, Option.bind_some, Option.some.injEq]
    have hw : ∀ k, inp.length = 160 * k → ∀ i < k, (span inp (160 * i + 128) 32).length = 32 :=
      fun k e i hi => span_length (by omega)
    obtain ⟨k, e⟩ : ∃ k, inp.length = 160 * k := ⟨inp.length / 160, by omega⟩
    have ek : inp.length / 160 = k := by omega
    rw [ek]
    constructor
    · rintro ⟨l, h, rfl⟩
      obtain ⟨c, h1, h2⟩ := (key k).1 l h
      exact ⟨k, by omega, e, c, h1, encodeG1_point (msm_rep (goodCurve1 _) (hw k e) h2)⟩
    · rintro ⟨k', -, e', c, h1, ho⟩
      obtain rfl : k' = k := by omega
      obtain ⟨l, h, h2⟩ := (key k').2 c h1
      exact ⟨l, h, (encodeG1_point (msm_rep (goodCurve1 _) (hw k' e) h2)).unique ho⟩

/-- C91: `BLS12_G2MSM`. -/
theorem C91_g2_msm (inp out : List UInt8) : g2Msm adx true inp = some out ↔ IsG2Msm (FpV adx) inp out := by
  have key := mapM_range (f := term2 (adx := adx) true inp)
    (R := fun i y (c : E2 (FpV adx)) => y.1.Rep c ∧ y.2 = Scalar.fromBytesBE 4 (span inp (288 * i + 256) 32))
    (S := fun i c => IsPoint2 (part inp (288 * i) 256) c ∧ q • c = 0)
    (by
      intro i y h
      unfold term2 at h
      simp only [Option.bind_eq_bind, Option.bind_eq_some_iff] at h
      obtain ⟨a, ha, h⟩ := h
      split_ifs at h with hs
      cases h
      obtain ⟨P, hP, -⟩ := decodeG2_point ha
      exact ⟨P, hP, rfl⟩)
    (by
      intro i c
      unfold term2
      simp only [Option.bind_eq_bind, Option.bind_eq_some_iff]
      constructor
      · rintro ⟨y, ⟨a, ha, h⟩, hr, -⟩
        split_ifs at h with hs
        cases h
        exact ⟨(decodeG2_iff _ c).1 ⟨a, ha, hr⟩, (G2.inCorrectSubgroup_iff hr).1 hs⟩
      · rintro ⟨h1, h2⟩
        obtain ⟨a, ha, hr⟩ := (decodeG2_iff _ c).2 h1
        exact ⟨_, ⟨a, ha, if_pos ((G2.inCorrectSubgroup_iff hr).2 h2)⟩, hr, rfl⟩)
  unfold g2Msm IsG2Msm
  by_cases hl : inp.length = 0 ∨ inp.length % 288 ≠ 0
  · rw [if_pos hl]
    refine ⟨fun h => (by cases h), ?_⟩
    rintro ⟨k, hk, e, -⟩
    omega
  · rw [if_neg hl]
    simp only [Option.bind_eq_bind, Option.bind_eq_some_iff, pure, Option.bind_some, Option.some.injEq]
    have hw : ∀ k, inp.length = 288 * k → ∀ i < k, (span inp (288 * i + 256) 32).length = 32 :=
      fun k e i hi => span_length (by omega)
    obtain ⟨k, e⟩ : ∃ k, inp.length = 288 * k := ⟨inp.length / 288, by omega⟩
    have ek : inp.length / 288 = k := by omega
    rw [ek]
    constructor
    · rintro ⟨l, h, rfl⟩
      obtain ⟨c, h1, h2⟩ := (key k).1 l h
      exact ⟨k, by omega, e, c, h1, encodeG2_point (msm_rep (goodCurve2 _) (hw k e) h2)⟩
    · rintro ⟨k', -, e', c, h1, ho⟩
      obtain rfl : k' = k := by omega
      obtain ⟨l, h, h2⟩ := (key k').2 c h1
      exact ⟨l, h, (encodeG2_point (msm_rep (goodCurve2 _) (hw k' e) h2)).unique ho⟩

/-- C91: `BLS12_PAIRING_CHECK`. -/
theorem C91_pairing_check (inp out : List UInt8) : pairingCheck adx true inp = some out ↔ IsPairingCheck (FpV adx) inp out := by
  have key := mapM_range (f := pairOf (adx := adx) true inp)
    (R := fun i y (c : ℕ × ℕ) => y.1.Rep (c.1 • gen1 (FpV adx)) ∧ y.2.Rep (c.2 • gen2 (FpV adx)))
    (S := fun i c => IsPoint1 (part inp (384 * i) 128) (c.1 • gen1 (FpV adx)) ∧
      IsPoint2 (part inp (384 * i + 128) 256) (c.2 • gen2 (FpV adx)))
    (by
      intro i y h
      unfold pairOf at h
      simp only [Option.bind_eq_bind, Option.bind_eq_some_iff] at h
      obtain ⟨a, ha, b, hb, h⟩ := h
      split_ifs at h with hs
      cases h
      rw [Bool.and_eq_true] at hs
      obtain ⟨P, hP, -⟩ := decodeG1_point ha
      obtain ⟨Q, hQ, -⟩ := decodeG2_point hb
      obtain ⟨m, -, rfl⟩ := (G1.inCorrectSubgroup_iff_gen hP).1 hs.1
      obtain ⟨n, -, rfl⟩ := (G2.inCorrectSubgroup_iff_gen hQ).1 hs.2
      exact ⟨(m, n), hP, hQ⟩)
    (by
      intro i c
      unfold pairOf
      simp only [Option.bind_eq_bind, Option.bind_eq_some_iff]
      constructor
      · rintro ⟨y, ⟨a, ha, b, hb, h⟩, h1, h2⟩
        split_ifs at h with hs
        cases h
        exact ⟨(decodeG1_iff _ _).1 ⟨a, ha, h1⟩, (decodeG2_iff _ _).1 ⟨b, hb, h2⟩⟩
      · rintro ⟨h1, h2⟩
        obtain ⟨a, ha, r1⟩ := (decodeG1_iff _ _).2 h1
        obtain ⟨b, hb, r2⟩ := (decodeG2_iff _ _).2 h2
        refine ⟨_, ⟨a, ha, b, hb, if_pos ?_⟩, r1, r2⟩
        rw [(G1.inCorrectSubgroup_iff r1).2 (smul_smul_zero (q_smul_gen1 _) _),
          (G2.inCorrectSubgroup_iff r2).2 (smul_smul_zero (q_smul_gen2 _) _)]
        rfl)
  have fin : ∀ (k : ℕ) (l : List (G1 (FpV adx) × G2 (FpV adx))) (c : ℕ → ℕ × ℕ),
      List.Forall₂ (fun i y => y.1.Rep ((c i).1 • gen1 (FpV adx)) ∧ y.2.Rep ((c i).2 • gen2 (FpV adx))) (List.range k) l →
      Sig.isOneProduct (l.foldl (fun v x => Pairing.addPair v x.1 x.2) []) =
        some (decide (q ∣ ((List.range k).map fun i => (c i).1 * (c i).2).sum)) := by
    intro k l c h
    have hm : Multiples l ((List.range k).map c) := by
      unfold Multiples
      rw [List.forall₂_map_right_iff]
      exact h.flip
    have h1 := C90_one hm (none : Option (Unit → Unit)) ()
    rw [List.map_map] at h1
    have h1 : (Pairing.calculate (added l) none ()).map Prod.fst = some 1 ↔
      q ∣ ((List.range k).map fun i => (c i).1 * (c i).2).sum := h1
    have h2 := C90_value hm (none : Option (Unit → Unit)) ()
    rw [h2, Option.some_inj] at h1
    obtain ⟨⟨f, u⟩, e1, e2⟩ := Option.map_eq_some_iff.1 h2
    show Sig.isOneProduct (added l) = _
    rw [Sig.isOneProduct, e1, Option.map_some, Option.some_inj, Bool.eq_iff_iff, Fp12.equal_iff, Fp12.one_eq, decide_eq_true_eq, ← h1, ← e2, eq_comm]
  have bytes : ∀ (r : Bool) (out : List UInt8), List.replicate 31 0 ++ [if r then 1 else 0] = out ↔
      out.length = 32 ∧ beVal out = if r then 1 else 0 := by
    intro r out
    constructor
    · rintro rfl
      cases r <;> decide +kernel
    · rintro ⟨h1, h2⟩
      refine beVal_inj ?_ ?_
      · rw [h1]; rfl
      · rw [h2]; cases r <;> decide +kernel
  unfold pairingCheck IsPairingCheck
  by_cases hl : inp.length = 0 ∨ inp.length % 384 ≠ 0
  · rw [if_pos hl]
    refine ⟨fun h => (by cases h), ?_⟩
    rintro ⟨k, hk, e, -⟩
    omega
  · rw [if_neg hl]
    simp only [Option.bind_eq_bind, Option.bind_eq_some_iff, pure, Option.bind_some, Option.some.injEq]
    obtain ⟨k, e⟩ : ∃ k, inp.length = 384 * k := ⟨inp.length / 384, by omega⟩
    have ek : inp.length / 384 = k := by omega
    rw [ek]
    constructor
    · rintro ⟨l, h, r, hr, ho⟩
      obtain ⟨c, h1, h2⟩ := (key k).1 l h
      rw [fin k l c h2] at hr
      obtain rfl := Option.some.inj hr
      refine ⟨k, by omega, e, fun i => (c i).1, fun i => (c i).2, h1, ?_⟩
      have := (bytes _ _).1 ho
      simpa only [decide_eq_true_eq] using this
    · rintro ⟨k', -, e', a, b, h1, ho⟩
      obtain rfl : k' = k := by omega
      obtain ⟨l, h, h2⟩ := (key k').2 (fun i => (a i, b i)) h1
      refine ⟨l, h, _, fin k' l _ h2, (bytes _ _).2 ?_⟩
      simpa only [decide_eq_true_eq] using ho

/-- C91: `BLS12_MAP_FP_TO_G1`. The exceptions of C31 are no exceptions here: the triple `(0, 0, 1)` is written as zeros, which is
how the standard writes the point at infinity. -/
theorem C91_map_g1 (inp out : List UInt8) : mapFpToG1 adx inp = some out ↔ IsMapFpToG1 (FpV adx) inp out := by
  have main : ∀ u : FpV adx, ∃ P, Rfc.IsMap1 u P ∧ IsPoint1 (encodeG1 (G1.mapToCurve u)) (hEff1 • P) := by
    intro u
    by_cases h : ∀ n ∈ exceptions1, u ≠ (n : FpV adx)
    · obtain ⟨-, -, P, h1, h2⟩ := C31_g1_partial u h
      exact ⟨P, h1, encodeG1_point h2⟩
    · push_neg at h
      obtain ⟨n, hn, rfl⟩ := h
      refine ⟨0, C31_g1_exceptions_rfc n hn, ?_⟩
      rw [(C31_g1_exceptions n hn).1, encodeG1_bad, nsmul_zero]
      rfl
  unfold mapFpToG1 IsMapFpToG1
  simp only [Option.bind_eq_bind, Option.bind_eq_some_iff, Option.some.injEq, decodeFp_iff]
  constructor
  · rintro ⟨u, hu, rfl⟩
    obtain ⟨P, h1, h2⟩ := main u
    exact ⟨u, P, hu, h1, h2⟩
  · rintro ⟨u, P, hu, h1, h2⟩
    obtain ⟨P', h1', h2'⟩ := main u
    rw [C31_rfc_unique.1 u P' P h1' h1] at h2'
    exact ⟨u, hu, h2'.unique h2⟩

/-- C91: `BLS12_MAP_FP2_TO_G2`. -/
theorem C91_map_g2 (inp out : List UInt8) : mapFp2ToG2 adx inp = some out ↔ IsMapFp2ToG2 (FpV adx) inp out := by
  unfold mapFp2ToG2 IsMapFp2ToG2
  simp only [Option.bind_eq_bind, Option.bind_eq_some_iff, Option.some.injEq, decodeFp2_iff]
  constructor
  · rintro ⟨u, hu, rfl⟩
    obtain ⟨P, h1, h2⟩ := C31_g2_rfc u
    exact ⟨u, P, hu, h1, encodeG2_point h2⟩
  · rintro ⟨u, P, hu, h1, h2⟩
    obtain ⟨P', h1', h2'⟩ := C31_g2_rfc u
    rw [C31_rfc_unique.2 u P' P h1' h1] at h2'
    exact ⟨u, hu, (encodeG2_point h2').unique h2⟩

/-- The string `(0, 1)`, no point of the curve, followed by the point at infinity. -/
def offCurve : List UInt8 := List.replicate 127 0 ++ [1] ++ List.replicate 128 0

/-- C91: with the default options, which leave `check_valid` unset, the caller computes a sum although the standard demands an
error; with `check_valid` it is rejected. -/
theorem C91_default_options : (∃ out, g1Add adx false offCurve = some out) ∧ (∀ out, ¬ IsG1Add (FpV adx) offCurve out) ∧
    g1Add adx true offCurve = none := by
  have no : ∀ out, ¬ IsG1Add (FpV adx) offCurve out := by
    rintro out ⟨-, P, -, hP, -⟩
    match P with
    | .zero => exact absurd (show part offCurve 0 128 = List.replicate 128 0 from hP) (by decide +kernel)
    | .some x y hn =>
      obtain ⟨-, ⟨-, -, hx⟩, -, -, hy⟩ := hP
      have h0 : beVal (part (part offCurve 0 128) 0 64) = 0 := by decide +kernel
      have h1 : beVal (part (part offCurve 0 128) 64 64) = 1 := by decide +kernel
      rw [h0, Nat.cast_zero] at hx
      rw [h1, Nat.cast_one] at hy
      have := point_equation hn
      rw [hx, hy] at this
      have h3 : (3 : FpV adx) = 0 := by linear_combination -this
      exact (goodCurve1 (FpV adx)).three h3
  refine ⟨?_, no, Option.eq_none_iff_forall_ne_some.2 fun out h => no out ((C91_g1_add _ _).1 h)⟩
  have dec : ∀ bs : List UInt8, bs.length = 96 → beVal (chunk bs 0) < p → beVal (chunk bs 1) < p →
      ∃ a : G1 (FpV adx), Jac.fromAffineBytes 48 (FpV.fromBytesBE adx true) FpC.B false bs = some a := by
    intro bs hl h0 h1
    rw [((C26_unchecked (adx := adx) true bs).2 hl).trans (if_pos ⟨h0, h1⟩)]
    split_ifs
    · exact ⟨_, rfl⟩
    · exact ⟨_, rfl⟩
  have hp : 1 < p := p_prime.one_lt
  obtain ⟨a, ha⟩ := dec (List.replicate 48 0 ++ (List.replicate 47 0 ++ [1])) rfl
    (by rw [show beVal _ = 0 by decide +kernel]; omega) (by rw [show beVal _ = 1 by decide +kernel]; exact hp)
  obtain ⟨b, hb⟩ := dec (List.replicate 48 0 ++ List.replicate 48 0) rfl
    (by rw [show beVal _ = 0 by decide +kernel]; omega) (by rw [show beVal _ = 0 by decide +kernel]; omega)
  have da : decodeG1 false (span offCurve 0 128) = some a := decodeG1_some.2 ⟨_, _, rfl, rfl, by decide +kernel, ha⟩
  have db : decodeG1 false (span offCurve 128 128) = some b := decodeG1_some.2 ⟨_, _, rfl, rfl, by decide +kernel, hb⟩
  refine ⟨encodeG1 (a.add b), ?_⟩
  unfold g1Add
  rw [if_neg (by decide +kernel), da]
  simp only [Option.bind_eq_bind, pure, Option.bind_some, db]

/-- The length of an encoded point. -/
theorem point1_length {bs : List UInt8} {P : E1 (FpV adx)} (h : IsPoint1 bs P) : bs.length = 128 := by
  match P with
  | .zero => rw [show bs = List.replicate 128 0 from h, List.length_replicate]
  | .some _ _ _ => exact h.1

@[inherit_doc point1_length] theorem point2_length {bs : List UInt8} {P : E2 (FpV adx)} (h : IsPoint2 bs P) : bs.length = 256 := by
  match P with
  | .zero => rw [show bs = List.replicate 256 0 from h, List.length_replicate]
  | .some _ _ _ => exact h.1

/-- The generator added to itself. -/
example : ∃ out, g1Add adx true (encodeG1 (G1.one : G1 (FpV adx)) ++ encodeG1 (G1.one : G1 (FpV adx))) = some out ∧
    IsPoint1 out (2 • gen1 (FpV adx)) := by
  have h := encodeG1_point (G1.one_rep (K := FpV adx))
  have hl := point1_length h
  obtain ⟨s1, s2⟩ := span_two hl hl
  have ho := encodeG1_point (add_rep (goodCurve1 _) (G1.one_rep (K := FpV adx)) G1.one_rep)
  refine ⟨_, (C91_g1_add _ _).2 ⟨by rw [List.length_append, hl], _, _, Eq.mpr (congrArg (IsPoint1 · _) s1) h, Eq.mpr (congrArg (IsPoint1 · _) s2) h, ho⟩, ?_⟩
  rw [two_nsmul]
  exact ho

/-- The pairing of the generators is not one: the answer is the number 0. -/
example : pairingCheck adx true (encodeG1 (G1.one : G1 (FpV adx)) ++ encodeG2 (G2.one : G2 (FpV adx))) = some (List.replicate 32 0) := by
  have h1 := encodeG1_point (G1.one_rep (K := FpV adx))
  have h2 := encodeG2_point (G2.one_rep (K := FpV adx))
  obtain ⟨s1, s2⟩ := span_two (point1_length h1) (point2_length h2)
  refine (C91_pairing_check _ _).2 ⟨1, by decide, by rw [List.length_append, point1_length h1, point2_length h2], fun _ => 1, fun _ => 1, ?_,
    rfl, ?_⟩
  · intro i hi
    obtain rfl : i = 0 := by omega
    rw [one_nsmul, one_nsmul]
    exact ⟨Eq.mpr (congrArg (IsPoint1 · _) s1) h1, Eq.mpr (congrArg (IsPoint2 · _) s2) h2⟩
  · rw [if_neg]
    · decide +kernel
    · intro h
      exact absurd (Nat.le_of_dvd (by decide) h) (by unfold q; decide +kernel)

/-- The empty input is an error for the functions that take lists. -/
example (out : List UInt8) : ¬ IsG1Msm (FpV adx) [] out ∧ ¬ IsPairingCheck (FpV adx) [] out :=
  ⟨fun h => by obtain ⟨k, hk, e, -⟩ := h; rw [List.length_nil] at e; omega,
    fun h => by obtain ⟨k, hk, e, -⟩ := h; rw [List.length_nil] at e; omega⟩

end Bls.Props
