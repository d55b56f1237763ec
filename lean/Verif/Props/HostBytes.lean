import Verif.Proof.HostBytes
import Verif.Proof.Signatures
import Verif.Props.MapToCurve
import Verif.Props.Product

/-!
# C95: functions on little-endian byte strings

A host that checks lengths (`Model/HostBytes.lean`) and calls the library for the rest computes the functions of
`Spec/HostBytes.lean` on all byte strings and with the same rejections, whether the programs keep their numbers in plain or in
Montgomery form.
-/

namespace Bls.Props
open Bls Bls.Host Jac
open Bls.Eip2537 (mapM_range)

attribute [local irreducible] p q hEff1 hEff2

variable {adx : Bool}

/-- C95: the residue of 64 bytes. -/
theorem C95_fp_mod (mont : Bool) (inp out : List UInt8) : fpMod adx mont inp = some out ↔ IsFpMod (FpV adx) mont inp out := by
  unfold fpMod IsFpMod
  by_cases hl : inp.length = 64
  · rw [if_neg (not_not.2 hl), Sig.modPrime_eq _ (by rw [Scalar.fromBytesLE_length]; decide), Scalar.fromBytesLE_val 8 _ hl]
    simp only [Option.bind_eq_bind, pure, Option.bind_some, Option.some.injEq]
    constructor
    · rintro rfl
      exact ⟨hl, enc_num mont _⟩
    · rintro ⟨-, h⟩
      exact (enc_num mont _).unique h
  · rw [if_pos hl]
    exact ⟨fun h => (by cases h), fun h => absurd h.1 hl⟩

/-- C95: the product of two elements. -/
theorem C95_fp_mul (mont : Bool) (a b out : List UInt8) : fpMul adx mont a b = some out ↔ IsFpMul (FpV adx) mont a b out := by
  unfold fpMul IsFpMul
  simp only [Option.bind_eq_bind, Option.bind_eq_some_iff, Option.some.injEq, decodeFp_iff, LawfulOps.mul_eq]
  constructor
  · rintro ⟨x, hx, y, hy, rfl⟩
    exact ⟨x, y, hx, hy, enc_num mont _⟩
  · rintro ⟨x, y, hx, hy, h⟩
    exact ⟨x, hx, y, hy, (enc_num mont _).unique h⟩

/-- C95: the power of an element. -/
theorem C95_fp_exp (mont : Bool) (a e out : List UInt8) : fpExp adx mont a e = some out ↔ IsFpExp (FpV adx) mont a e out := by
  unfold fpExp IsFpExp
  by_cases hl : e.length = 64
  · rw [if_neg (not_not.2 hl)]
    simp only [Option.bind_eq_bind, Option.bind_eq_some_iff, pure, Option.bind_some, Option.some.injEq, decodeFp_iff, Ops.exp_eq,
      Scalar.fromBytesLE_val 8 _ hl]
    constructor
    · rintro ⟨x, hx, rfl⟩
      exact ⟨hl, x, hx, enc_num mont _⟩
    · rintro ⟨-, x, hx, h⟩
      exact ⟨x, hx, (enc_num mont _).unique h⟩
  · rw [if_pos hl]
    exact ⟨fun h => (by cases h), fun h => absurd h.1 hl⟩

/-- C95: the sum of two points of the first curve. -/
theorem C95_g1_add (mont : Bool) (a b out : List UInt8) : g1Add adx mont a b = some out ↔ IsG1Add (FpV adx) mont a b out := by
  unfold g1Add IsG1Add
  simp only [Option.bind_eq_bind, Option.bind_eq_some_iff, Option.some.injEq]
  constructor
  · rintro ⟨x, hx, y, hy, rfl⟩
    obtain ⟨P, rP, hP⟩ := decodeG1_point hx
    obtain ⟨Q, rQ, hQ⟩ := decodeG1_point hy
    exact ⟨P, Q, hP, hQ, encodeG1_point (add_rep (goodCurve1 _) rP rQ)⟩
  · rintro ⟨P, Q, hP, hQ, ho⟩
    obtain ⟨x, hx, rP⟩ := (decodeG1_iff _ _ P).2 hP
    obtain ⟨y, hy, rQ⟩ := (decodeG1_iff _ _ Q).2 hQ
    exact ⟨x, hx, y, hy, (encodeG1_point (add_rep (goodCurve1 _) rP rQ)).unique ho⟩

/-- C95: the sum of two points of the second curve. -/
theorem C95_g2_add (mont : Bool) (a b out : List UInt8) : g2Add adx mont a b = some out ↔ IsG2Add (FpV adx) mont a b out := by
  unfold g2Add IsG2Add
  simp only [Option.bind_eq_bind, Option.bind_eq_some_iff, Option.some.injEq]
  constructor
  · rintro ⟨x, hx, y, hy, rfl⟩
    obtain ⟨P, rP, hP⟩ := decodeG2_point hx
    obtain ⟨Q, rQ, hQ⟩ := decodeG2_point hy
    exact ⟨P, Q, hP, hQ, encodeG2_point (add_rep (goodCurve2 _) rP rQ)⟩
  · rintro ⟨P, Q, hP, hQ, ho⟩
    obtain ⟨x, hx, rP⟩ := (decodeG2_iff _ _ P).2 hP
    obtain ⟨y, hy, rQ⟩ := (decodeG2_iff _ _ Q).2 hQ
    exact ⟨x, hx, y, hy, (encodeG2_point (add_rep (goodCurve2 _) rP rQ)).unique ho⟩

/-- C95: sums of multiples of points of the first curve. -/
theorem C95_g1_sum (mont : Bool) (n : ℕ) (ps ss out : List UInt8) :
    g1Sum adx mont n ps ss = some out ↔ IsG1Sum (FpV adx) mont n ps ss out := by
  have key := mapM_range (f := fun i => decodeG1 (adx := adx) mont (span ps (96 * i) 96)) (R := fun _ y (c : E1 (FpV adx)) => y.Rep c)
    (S := fun i c => IsPoint1 mont (part ps (96 * i) 96) c)
    (fun i y h => by obtain ⟨P, hP, -⟩ := decodeG1_point h; exact ⟨P, hP⟩) (fun i c => decodeG1_iff mont _ c) n
  unfold g1Sum IsG1Sum
  by_cases hl : ps.length ≠ 96 * n ∨ ss.length ≠ 32 * n
  · rw [if_pos hl]
    exact ⟨fun h => (by cases h), fun h => (by rcases hl with hl | hl; exacts [absurd h.1 hl, absurd h.2.1 hl])⟩
  · rw [if_neg hl]
    push Not at hl
    simp only [Option.bind_eq_bind, Option.bind_eq_some_iff, pure, Option.bind_some, Option.some.injEq]
    constructor
    · rintro ⟨l, h, rfl⟩
      obtain ⟨c, h1, h2⟩ := key.1 l h
      exact ⟨hl.1, hl.2, c, h1, encodeG1_point (sum_rep (goodCurve1 _) hl.2 h2)⟩
    · rintro ⟨-, -, c, h1, ho⟩
      obtain ⟨l, h, h2⟩ := key.2 c h1
      exact ⟨l, h, (encodeG1_point (sum_rep (goodCurve1 _) hl.2 h2)).unique ho⟩

/-- C95: sums of multiples of points of the second curve. -/
theorem C95_g2_sum (mont : Bool) (n : ℕ) (ps ss out : List UInt8) :
    g2Sum adx mont n ps ss = some out ↔ IsG2Sum (FpV adx) mont n ps ss out := by
  have key := mapM_range (f := fun i => decodeG2 (adx := adx) mont (span ps (192 * i) 192)) (R := fun _ y (c : E2 (FpV adx)) => y.Rep c)
    (S := fun i c => IsPoint2 mont (part ps (192 * i) 192) c)
    (fun i y h => by obtain ⟨P, hP, -⟩ := decodeG2_point h; exact ⟨P, hP⟩) (fun i c => decodeG2_iff mont _ c) n
  unfold g2Sum IsG2Sum
  by_cases hl : ps.length ≠ 192 * n ∨ ss.length ≠ 32 * n
  · rw [if_pos hl]
    exact ⟨fun h => (by cases h), fun h => (by rcases hl with hl | hl; exacts [absurd h.1 hl, absurd h.2.1 hl])⟩
  · rw [if_neg hl]
    push Not at hl
    simp only [Option.bind_eq_bind, Option.bind_eq_some_iff, pure, Option.bind_some, Option.some.injEq]
    constructor
    · rintro ⟨l, h, rfl⟩
      obtain ⟨c, h1, h2⟩ := key.1 l h
      exact ⟨hl.1, hl.2, c, h1, encodeG2_point (sum_rep (goodCurve2 _) hl.2 h2)⟩
    · rintro ⟨-, -, c, h1, ho⟩
      obtain ⟨l, h, h2⟩ := key.2 c h1
      exact ⟨l, h, (encodeG2_point (sum_rep (goodCurve2 _) hl.2 h2)).unique ho⟩

/-- C95: products of pairings, also of none. -/
theorem C95_pairing (mont : Bool) (n : ℕ) (ps qs out : List UInt8) :
    Host.pairing adx mont n ps qs = some out ↔ IsPairing (FpV adx) mont n ps qs out := by
  have key := mapM_range (f := pairOf (adx := adx) mont ps qs)
    (R := fun _ y (c : ℕ × ℕ) => y.1.Rep (c.1 • gen1 (FpV adx)) ∧ y.2.Rep (c.2 • gen2 (FpV adx)))
    (S := fun i c => IsPoint1 mont (part ps (96 * i) 96) (c.1 • gen1 (FpV adx)) ∧
      IsPoint2 mont (part qs (192 * i) 192) (c.2 • gen2 (FpV adx)))
    (by
      intro i y h
      unfold pairOf at h
      simp only [Option.bind_eq_bind, Option.bind_eq_some_iff] at h
      obtain ⟨a, ha, b, hb, h⟩ := h
      split_ifs at h with hs
      cases h
      rw [Bool.and_eq_true] at hs
      obtain ⟨P, hP, -⟩ := decodeG1_point ha
      obtain ⟨Q, hQ, -⟩ := decodeG2_point hb
      obtain ⟨m, -, rfl⟩ := (G1.inCorrectSubgroup_iff_gen hP).1 hs.1
      obtain ⟨n, -, rfl⟩ := (G2.inCorrectSubgroup_iff_gen hQ).1 hs.2
      exact ⟨(m, n), hP, hQ⟩)
    (by
      intro i c
      unfold pairOf
      simp only [Option.bind_eq_bind, Option.bind_eq_some_iff]
      constructor
      · rintro ⟨y, ⟨a, ha, b, hb, h⟩, h1, h2⟩
        split_ifs at h with hs
        cases h
        exact ⟨(decodeG1_iff _ _ _).1 ⟨a, ha, h1⟩, (decodeG2_iff _ _ _).1 ⟨b, hb, h2⟩⟩
      · rintro ⟨h1, h2⟩
        obtain ⟨a, ha, r1⟩ := (decodeG1_iff _ _ _).2 h1
        obtain ⟨b, hb, r2⟩ := (decodeG2_iff _ _ _).2 h2
        refine ⟨_, ⟨a, ha, b, hb, if_pos ?_⟩, r1, r2⟩
        rw [(G1.inCorrectSubgroup_iff r1).2 (smul_smul_zero (q_smul_gen1 _) _),
          (G2.inCorrectSubgroup_iff r2).2 (smul_smul_zero (q_smul_gen2 _) _)]
        rfl) n
  have fin : ∀ (l : List (G1 (FpV adx) × G2 (FpV adx))) (c : ℕ → ℕ × ℕ),
      List.Forall₂ (fun i y => y.1.Rep ((c i).1 • gen1 (FpV adx)) ∧ y.2.Rep ((c i).2 • gen2 (FpV adx))) (List.range n) l →
      ∃ r, Pairing.calculate (l.foldl (fun v x => Pairing.addPair v x.1 x.2) []) none () = some r ∧
        r.1 = gtGen (fun n => (n : FpV adx)) ^ ((List.range n).map fun i => (c i).1 * (c i).2).sum := by
    intro l c h
    have hm : Multiples l ((List.range n).map c) := by
      unfold Multiples
      rw [List.forall₂_map_right_iff]
      exact h.flip
    have h2 := C90_value hm (none : Option (Unit → Unit)) ()
    rw [List.map_map] at h2
    obtain ⟨r, e1, e2⟩ := Option.map_eq_some_iff.1 h2
    exact ⟨r, e1, e2⟩
  unfold Host.pairing IsPairing
  by_cases hl : ps.length ≠ 96 * n ∨ qs.length ≠ 192 * n
  · rw [if_pos hl]
    exact ⟨fun h => (by cases h), fun h => (by rcases hl with hl | hl; exacts [absurd h.1 hl, absurd h.2.1 hl])⟩
  · rw [if_neg hl]
    push Not at hl
    simp only [Option.bind_eq_bind, Option.bind_eq_some_iff, pure, Option.bind_some, Option.some.injEq]
    constructor
    · rintro ⟨l, h, r, hr, rfl⟩
      obtain ⟨c, h1, h2⟩ := key.1 l h
      obtain ⟨r', e1, e2⟩ := fin l c h2
      obtain rfl := Option.some.inj (e1.symm.trans hr)
      refine ⟨hl.1, hl.2, fun i => (c i).1, fun i => (c i).2, h1, ?_⟩
      rw [← e2]
      exact enc_num12 mont _
    · rintro ⟨-, -, a, b, h1, ho⟩
      obtain ⟨l, h, h2⟩ := key.2 (fun i => (a i, b i)) h1
      obtain ⟨r, e1, e2⟩ := fin l _ h2
      refine ⟨l, h, r, e1, ?_⟩
      rw [← e2] at ho
      exact (enc_num12 mont _).unique ho

/-- C95: the map to the first curve. The exceptions of C31 are no exceptions here, for the triple `(0, 0, 1)` is written as
zeros. -/
theorem C95_g1_map (mont : Bool) (inp out : List UInt8) : g1Map adx mont inp = some out ↔ IsG1Map (FpV adx) mont inp out := by
  have main : ∀ u : FpV adx, ∃ P, Rfc.IsMap1 u P ∧ IsPoint1 mont (encodeG1 mont (G1.mapToCurve u)) (hEff1 • P) := by
    intro u
    by_cases h : ∀ n ∈ exceptions1, u ≠ (n : FpV adx)
    · obtain ⟨-, -, P, h1, h2⟩ := C31_g1_partial u h
      exact ⟨P, h1, encodeG1_point h2⟩
    · push Not at h
      obtain ⟨n, hn, rfl⟩ := h
      refine ⟨0, C31_g1_exceptions_rfc n hn, ?_⟩
      rw [(C31_g1_exceptions n hn).1, encodeG1_bad, nsmul_zero]
      rfl
  unfold g1Map IsG1Map
  simp only [Option.bind_eq_bind, Option.bind_eq_some_iff, Option.some.injEq, decodeFp_iff]
  constructor
  · rintro ⟨u, hu, rfl⟩
    obtain ⟨P, h1, h2⟩ := main u
    exact ⟨u, P, hu, h1, h2⟩
  · rintro ⟨u, P, hu, h1, h2⟩
    obtain ⟨P', h1', h2'⟩ := main u
    rw [C31_rfc_unique.1 u P' P h1' h1] at h2'
    exact ⟨u, hu, h2'.unique h2⟩

/-- C95: the map to the second curve. -/
theorem C95_g2_map (mont : Bool) (inp out : List UInt8) : g2Map adx mont inp = some out ↔ IsG2Map (FpV adx) mont inp out := by
  unfold g2Map IsG2Map
  simp only [Option.bind_eq_bind, Option.bind_eq_some_iff, Option.some.injEq, decodeFp2_iff]
  constructor
  · rintro ⟨u, hu, rfl⟩
    obtain ⟨P, h1, h2⟩ := C31_g2_rfc u
    exact ⟨u, P, hu, h1, encodeG2_point h2⟩
  · rintro ⟨u, P, hu, h1, h2⟩
    obtain ⟨P', h1', h2'⟩ := C31_g2_rfc u
    rw [C31_rfc_unique.2 u P' P h1' h1] at h2'
    exact ⟨u, hu, (encodeG2_point h2').unique h2⟩

/-- C95: every value has exactly one string. -/
theorem C95_strings (mont : Bool) : (∀ x : FpV adx, ∃! bs, IsNum mont bs x) ∧ (∀ x : Fp12 (FpV adx), ∃! bs, IsNum12 mont bs x) ∧
    (∀ P : E1 (FpV adx), ∃! bs, IsPoint1 mont bs P) ∧ ∀ P : E2 (FpV adx), ∃! bs, IsPoint2 mont bs P := by
  refine ⟨fun x => ⟨_, enc_num mont x, fun _ h => h.unique (enc_num mont x)⟩,
    fun x => ⟨_, enc_num12 mont x, fun _ h => h.unique (enc_num12 mont x)⟩, fun P => ?_, fun P => ?_⟩
  · obtain ⟨a, ha⟩ := Jac.exists_rep P
    exact ⟨_, encodeG1_point ha, fun _ h => h.unique (encodeG1_point ha)⟩
  · obtain ⟨a, ha⟩ := Jac.exists_rep P
    exact ⟨_, encodeG2_point ha, fun _ h => h.unique (encodeG2_point ha)⟩

/-- The residue of `2^511` written out, and a string of 63 bytes, which is an error. -/
example : ∃ out, fpMod adx true (List.replicate 63 0 ++ [128]) = some out ∧ leVal out = 2 ^ 511 % p ∧
    fpMod adx true (List.replicate 63 0) = none := by
  have hv : leVal (List.replicate 63 0 ++ [128]) = 2 ^ 511 := by decide +kernel
  have h := enc_num (adx := adx) true ((2 ^ 511 : ℕ) : FpV adx)
  refine ⟨_, (C95_fp_mod true _ _).2 ⟨rfl, by rw [hv]; exact h⟩, ?_, ?_⟩
  · have := IsFp.natCast_eq_iff.1 h.2.2
    rwa [Nat.mod_eq_of_lt h.2.1] at this
  · exact Option.eq_none_iff_forall_ne_some.2 fun out h => absurd ((C95_fp_mod true _ _).1 h).1 (by decide)

/-- In Montgomery form the string of the number 1 denotes the inverse of `2^384`: its square is not the string of 1. -/
example : fpMul adx false (1 :: List.replicate 47 0) (1 :: List.replicate 47 0) ≠ some (1 :: List.replicate 47 0) := by
  intro h
  obtain ⟨x, y, ⟨-, -, hx⟩, ⟨-, -, hy⟩, -, -, ho⟩ := (C95_fp_mul false _ _ _).1 h
  have hv : leVal (1 :: List.replicate 47 0) = 1 := by decide +kernel
  rw [hv, Nat.cast_one] at hx hy ho
  simp only [Bool.false_eq_true, if_false] at hx hy ho
  have h1 : (2 : FpV adx) ^ 384 = 1 := by linear_combination (2 ^ 384) * ho - (x * 2 ^ 384) * hy - hx
  rw [← Nat.cast_ofNat, ← Nat.cast_pow, ← Nat.cast_one, IsFp.natCast_eq_iff] at h1
  revert h1
  unfold p
  decide +kernel

/-- No pair at all: the result is one. -/
example : ∃ out, Host.pairing adx true 0 [] [] = some out ∧ IsNum12 true out (1 : Fp12 (FpV adx)) := by
  have h := enc_num12 (adx := adx) true 1
  refine ⟨_, (C95_pairing true 0 [] [] _).2 ⟨rfl, rfl, fun _ => 0, fun _ => 0, fun i hi => absurd hi (Nat.not_lt_zero i), ?_⟩, h⟩
  rw [List.range_zero, List.map_nil, List.sum_nil, pow_zero]
  exact h

/-- A sum of one term: the generator times 5. -/
example (mont : Bool) : ∃ out, g1Sum adx mont 1 (encodeG1 mont (G1.one : G1 (FpV adx))) (5 :: List.replicate 31 0) = some out ∧
    IsPoint1 mont out (5 • gen1 (FpV adx)) := by
  have h := encodeG1_point (mont := mont) (G1.one_rep (K := FpV adx))
  have ho := encodeG1_point (mont := mont) (scale_rep (goodCurve1 _) (G1.one_rep (K := FpV adx)) [5])
  rw [show wordsVal [5] = 5 by decide +kernel] at ho
  have hl : (encodeG1 mont (G1.one : G1 (FpV adx))).length = 96 := ((C26_affine_g1 (adx := adx) mont).2.dec_enc _ _ (G1.one_rep (K := FpV adx))).1
  refine ⟨_, (C95_g1_sum mont 1 _ _ _).2 ⟨hl, rfl, fun _ => gen1 (FpV adx), ?_, ?_⟩, ho⟩
  · intro i hi
    obtain rfl : i = 0 := by omega
    rw [part, Nat.mul_zero, List.drop_zero, List.take_of_length_le (le_of_eq hl)]
    exact h
  · rw [show List.range 1 = [0] from rfl, List.map_cons, List.map_nil, List.sum_cons, List.sum_nil, add_zero,
      show leVal (part (5 :: List.replicate 31 0) (32 * 0) 32) = 5 by decide +kernel]
    exact ho

end Bls.Props
