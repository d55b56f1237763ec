import Verif.Model.HostBytes
import Verif.Spec.HostBytes
import Verif.Proof.Eip2537

/-! Little-endian byte strings of a host. -/

namespace Bls.Host

open WeierstrassCurve.Affine
open Bls.Eip2537 (raw Coords mapM_range)

attribute [local irreducible] p q

theorem two_pow_ne (K : Type) [Field K] [IsFp K] : (2 : K) ^ 384 ≠ 0 := by
  refine pow_ne_zero _ ?_
  rw [← Nat.cast_ofNat, Ne, IsFp.natCast_eq_zero_iff]
  unfold p
  decide +kernel

section
variable {K : Type} [Field K]

theorem isNum_iff [IsFp K] {mont : Bool} {bs : List UInt8} {x : K} :
    IsNum mont bs x ↔ bs.length = 48 ∧ leVal bs < p ∧ x = coord mont (leVal bs) := by
  unfold IsNum coord
  refine and_congr_right fun _ => and_congr_right fun _ => ?_
  cases mont with
  | true => exact eq_comm
  | false =>
    simp only [Bool.false_eq_true, if_false]
    exact eq_comm.trans (eq_mul_inv_iff_mul_eq₀ (two_pow_ne K)).symm

theorem IsNum.unique [IsFp K] {mont : Bool} {bs bs' : List UInt8} {x : K} (h : IsNum mont bs x) (h' : IsNum mont bs' x) :
    bs = bs' := by
  obtain ⟨h1, h2, e⟩ := h
  obtain ⟨h1', h2', e'⟩ := h'
  refine leVal_inj (h1.trans h1'.symm) ?_
  have := IsFp.natCast_eq_iff.1 (e.trans e'.symm)
  rwa [Nat.mod_eq_of_lt h2, Nat.mod_eq_of_lt h2'] at this

theorem halves {bs : List UInt8} {n : ℕ} (h : bs.length = 2 * n) : bs = part bs 0 n ++ part bs n n := by
  rw [part, part, List.drop_zero, List.take_of_length_le (l := bs.drop n) (by rw [List.length_drop]; omega), List.take_append_drop]

theorem IsNum2.unique [IsFp K] {mont : Bool} {bs bs' : List UInt8} {x : Fp2 K} (h : IsNum2 mont bs x) (h' : IsNum2 mont bs' x) :
    bs = bs' := by
  obtain ⟨h1, h2, h3⟩ := h
  obtain ⟨h1', h2', h3'⟩ := h'
  rw [halves (n := 48) h1, halves (n := 48) h1', h2.unique h2', h3.unique h3']

theorem IsPoint1.unique [IsFp K] {mont : Bool} {bs bs' : List UInt8} {P : E1 K} (h : IsPoint1 mont bs P) (h' : IsPoint1 mont bs' P) :
    bs = bs' := by
  match P with
  | .zero => exact Eq.trans h (Eq.symm h')
  | .some x y _ =>
    obtain ⟨h1, h2, h3⟩ := h
    obtain ⟨h1', h2', h3'⟩ := h'
    rw [halves (n := 48) h1, halves (n := 48) h1', h2.unique h2', h3.unique h3']

theorem IsPoint2.unique [IsFp K] {mont : Bool} {bs bs' : List UInt8} {P : E2 K} (h : IsPoint2 mont bs P) (h' : IsPoint2 mont bs' P) :
    bs = bs' := by
  match P with
  | .zero => exact Eq.trans h (Eq.symm h')
  | .some x y _ =>
    obtain ⟨h1, h2, h3⟩ := h
    obtain ⟨h1', h2', h3'⟩ := h'
    rw [halves (n := 96) h1, halves (n := 96) h1', h2.unique h2', h3.unique h3']

end

section
variable {adx : Bool}

/-- Decoding a field element. -/
theorem dec_iff {mont : Bool} {bs : List UInt8} (hl : bs.length = 48) {x : FpV adx} :
    FpV.fromBytesLE adx mont bs = some x ↔ IsNum mont bs x := by
  rw [isNum_iff]
  constructor
  · intro h
    exact ⟨hl, ((coord1LE mont).codec.accept bs hl).1 (by rw [h]; rfl), (coord1LE mont).meaning bs x hl h⟩
  · rintro ⟨-, h, rfl⟩
    exact (coord1LE mont).dec_ok hl h

theorem decodeFp_iff {mont : Bool} {bs : List UInt8} {x : FpV adx} : decodeFp mont bs = some x ↔ IsNum mont bs x := by
  unfold decodeFp
  by_cases hl : bs.length = 48
  · rw [if_neg (not_not.2 hl), dec_iff hl]
  · rw [if_pos hl]
    exact ⟨fun h => (by cases h), fun h => absurd h.1 hl⟩

theorem decodeFp2_iff {mont : Bool} {bs : List UInt8} {x : Fp2 (FpV adx)} : decodeFp2 mont bs = some x ↔ IsNum2 mont bs x := by
  unfold decodeFp2 IsNum2
  by_cases hl : bs.length = 96
  · rw [if_neg (not_not.2 hl), Fp2.fromBytesLE_iff, dec_iff (span_length (by omega)), dec_iff (span_length (by omega))]
    exact ⟨fun h => ⟨hl, h⟩, fun h => h.2⟩
  · rw [if_pos hl]
    exact ⟨fun h => (by cases h), fun h => absurd h.1 hl⟩

/-- Encoding a field element. -/
theorem enc_num (mont : Bool) (x : FpV adx) : IsNum mont (FpV.toBytesLE adx mont x) x := by
  have h := (coord1LE (adx := adx) mont).codec
  exact (dec_iff (h.enc_length x trivial)).1 (h.dec_enc x trivial)

theorem num_zero {mont : Bool} {bs : List UInt8} : IsNum mont bs (0 : FpV adx) ↔ bs = List.replicate 48 0 := by
  constructor
  · intro h
    have := h.unique (enc_num mont 0)
    rwa [enc1LE] at this
  · rintro rfl
    have := enc_num (adx := adx) mont 0
    rwa [enc1LE] at this

theorem chunks_iff {mont : Bool} {bs : List UInt8} {k i n : ℕ} (hk : bs.length = 48 * k) (hi : i < k) (hn : 48 * i = n) {x : FpV adx} :
    (leVal (chunk bs i) < p ∧ x = coord mont (leVal (chunk bs i))) ↔ IsNum mont (part bs n 48) x := by
  subst hn
  rw [isNum_iff]
  have : (part bs (48 * i) 48).length = 48 := by rw [part, List.length_take, List.length_drop, hk]; omega
  exact ⟨fun h => ⟨this, h⟩, fun h => h.2⟩

theorem canonical_two (bs : List UInt8) : CanonicalLE 2 bs ↔ leVal (chunk bs 0) < p ∧ leVal (chunk bs 1) < p := by
  constructor
  · exact fun h => ⟨h 0 (by decide), h 1 (by decide)⟩
  · rintro ⟨h0, h1⟩ i hi
    obtain rfl | rfl : i = 0 ∨ i = 1 := by omega
    · exact h0
    · exact h1

theorem canonical_four (bs : List UInt8) : CanonicalLE 4 bs ↔
    leVal (chunk bs 0) < p ∧ leVal (chunk bs 1) < p ∧ leVal (chunk bs 2) < p ∧ leVal (chunk bs 3) < p := by
  constructor
  · exact fun h => ⟨h 0 (by decide), h 1 (by decide), h 2 (by decide), h 3 (by decide)⟩
  · rintro ⟨h0, h1, h2, h3⟩ i hi
    obtain rfl | rfl | rfl | rfl : i = 0 ∨ i = 1 ∨ i = 2 ∨ i = 3 := by omega
    · exact h0
    · exact h1
    · exact h2
    · exact h3

/-- Decoding a point. -/
theorem decodeG1_iff (mont : Bool) (bs : List UInt8) (P : E1 (FpV adx)) :
    (∃ a : G1 (FpV adx), decodeG1 mont bs = some a ∧ a.Rep P) ↔ IsPoint1 mont bs P := by
  unfold decodeG1
  by_cases hl : bs.length = 96
  · rw [if_neg (not_not.2 hl), raw (Props.C26_affine_g1 (adx := adx) mont).2 (goodCurve1 (FpV adx)).const hl P, canonical_two]
    have c0 := fun x : FpV adx => chunks_iff (mont := mont) (bs := bs) (k := 2) (i := 0) (n := 0) hl (by decide) rfl (x := x)
    have c1 := fun x : FpV adx => chunks_iff (mont := mont) (bs := bs) (k := 2) (i := 1) (n := 48) hl (by decide) rfl (x := x)
    match P with
    | .zero =>
      show _ ∧ (_ = _ ∧ _ = _) ↔ bs = _
      constructor
      · rintro ⟨⟨h0, h1⟩, e0, e1⟩
        rw [halves (n := 48) hl, num_zero.1 ((c0 0).1 ⟨h0, e0.symm⟩), num_zero.1 ((c1 0).1 ⟨h1, e1.symm⟩), List.replicate_append_replicate]
      · rintro rfl
        obtain ⟨h0, e0⟩ := (c0 0).2 (num_zero.2 (by decide +kernel))
        obtain ⟨h1, e1⟩ := (c1 0).2 (num_zero.2 (by decide +kernel))
        exact ⟨⟨h0, h1⟩, e0.symm, e1.symm⟩
    | .some x y hn =>
      show _ ∧ (_ = _ ∧ _ = _) ↔ _ ∧ IsNum mont (part bs 0 48) x ∧ IsNum mont (part bs 48 48) y
      rw [← c0, ← c1]
      exact ⟨fun ⟨⟨a, b⟩, c, d⟩ => ⟨hl, ⟨a, c⟩, b, d⟩, fun ⟨_, ⟨a, c⟩, b, d⟩ => ⟨⟨a, b⟩, c, d⟩⟩
  · rw [if_pos hl]
    constructor
    · rintro ⟨a, h, -⟩
      cases h
    · intro h
      match P with
      | .zero => exact absurd (by rw [show bs = List.replicate 96 0 from h, List.length_replicate]) hl
      | .some x y hn => exact absurd h.1 hl

theorem decodeG1_point {mont : Bool} {bs : List UInt8} {a : G1 (FpV adx)} (h : decodeG1 mont bs = some a) :
    ∃ P : E1 (FpV adx), a.Rep P ∧ IsPoint1 mont bs P := by
  have h0 := h
  unfold decodeG1 at h
  split_ifs at h with hl
  obtain ⟨P, hP, -⟩ := (Props.C26_affine_g1 (adx := adx) mont).2.meaning _ a (not_not.1 hl) h
  exact ⟨P, hP, (decodeG1_iff mont _ P).1 ⟨a, h0, hP⟩⟩

theorem encodeG1_point {mont : Bool} {a : G1 (FpV adx)} {P : E1 (FpV adx)} (h : a.Rep P) : IsPoint1 mont (encodeG1 mont a) P := by
  obtain ⟨hl, a', h1, h2⟩ := (Props.C26_affine_g1 (adx := adx) mont).2.dec_enc a P h
  exact (decodeG1_iff mont _ P).1 ⟨a', (if_neg (not_not.2 hl)).trans h1, h2⟩

theorem part_part (bs : List UInt8) (a n b m : ℕ) (h : b + m ≤ n) : part (part bs a n) b m = part bs (a + b) m := by
  simp only [part, List.drop_take, List.take_take, List.drop_drop]
  rw [Nat.min_eq_left (by omega)]

theorem num2_zero {mont : Bool} {bs : List UInt8} (hl : bs.length = 192) :
    (IsNum mont (part bs 0 48) (0 : FpV adx) ∧ IsNum mont (part bs 48 48) (0 : FpV adx) ∧ IsNum mont (part bs 96 48) (0 : FpV adx) ∧
      IsNum mont (part bs 144 48) (0 : FpV adx)) ↔ bs = List.replicate 192 0 := by
  simp only [num_zero]
  constructor
  · rintro ⟨h0, h1, h2, h3⟩
    have l0 : (part bs 0 96).length = 2 * 48 := by rw [part, List.length_take, List.length_drop, hl]; rfl
    have l1 : (part bs 96 96).length = 2 * 48 := by rw [part, List.length_take, List.length_drop, hl]; rfl
    rw [halves (n := 96) hl, halves (n := 48) l0, halves (n := 48) l1, part_part _ _ _ _ _ (by decide), part_part _ _ _ _ _ (by decide),
      part_part _ _ _ _ _ (by decide), part_part _ _ _ _ _ (by decide), h0, h1, h2, h3]
    decide +kernel
  · rintro rfl
    decide +kernel

theorem decodeG2_iff (mont : Bool) (bs : List UInt8) (P : E2 (FpV adx)) :
    (∃ a : G2 (FpV adx), decodeG2 mont bs = some a ∧ a.Rep P) ↔ IsPoint2 mont bs P := by
  unfold decodeG2
  by_cases hl : bs.length = 192
  · rw [if_neg (not_not.2 hl), raw (Props.C26_affine_g2 (adx := adx) mont).2 (goodCurve2 (FpV adx)).const hl P, canonical_four]
    have c0 := fun x : FpV adx => chunks_iff (mont := mont) (bs := bs) (k := 4) (i := 0) (n := 0) hl (by decide) rfl (x := x)
    have c1 := fun x : FpV adx => chunks_iff (mont := mont) (bs := bs) (k := 4) (i := 1) (n := 48) hl (by decide) rfl (x := x)
    have c2 := fun x : FpV adx => chunks_iff (mont := mont) (bs := bs) (k := 4) (i := 2) (n := 96) hl (by decide) rfl (x := x)
    have c3 := fun x : FpV adx => chunks_iff (mont := mont) (bs := bs) (k := 4) (i := 3) (n := 144) hl (by decide) rfl (x := x)
    match P with
    | .zero =>
      show _ ∧ (_ = fzero (Fp2 (FpV adx)) ∧ _ = fzero (Fp2 (FpV adx))) ↔ bs = _
      rw [← num2_zero (adx := adx) (mont := mont) hl, ← c0, ← c1, ← c2, ← c3, fzero, ← Fp2.mk_zero, Fp2.mk.injEq, Fp2.mk.injEq]
      exact ⟨fun ⟨⟨a, b, c, d⟩, ⟨e, f⟩, g, h⟩ => ⟨⟨a, e.symm⟩, ⟨b, f.symm⟩, ⟨c, g.symm⟩, d, h.symm⟩,
        fun ⟨⟨a, e⟩, ⟨b, f⟩, ⟨c, g⟩, d, h⟩ => ⟨⟨a, b, c, d⟩, ⟨e.symm, f.symm⟩, g.symm, h.symm⟩⟩
    | .some x y hn =>
      show _ ∧ (_ = _ ∧ _ = _) ↔ _ ∧ IsNum2 mont (part bs 0 96) x ∧ IsNum2 mont (part bs 96 96) y
      unfold IsNum2
      rw [part_part _ _ _ _ _ (by decide), part_part _ _ _ _ _ (by decide),
        part_part _ _ _ _ _ (by decide), part_part _ _ _ _ _ (by decide), ← c0, ← c1, ← c2, ← c3, Fp2.ext_iff, Fp2.ext_iff]
      have l0 : (part bs 0 96).length = 96 := by rw [part, List.length_take, List.length_drop, hl]; rfl
      have l1 : (part bs 96 96).length = 96 := by rw [part, List.length_take, List.length_drop, hl]; rfl
      exact ⟨fun ⟨⟨a, b, c, d⟩, ⟨e, f⟩, g, h⟩ => ⟨hl, ⟨l0, ⟨a, e⟩, b, f⟩, l1, ⟨c, g⟩, d, h⟩,
        fun ⟨_, ⟨_, ⟨a, e⟩, b, f⟩, _, ⟨c, g⟩, d, h⟩ => ⟨⟨a, b, c, d⟩, ⟨e, f⟩, g, h⟩⟩
  · rw [if_pos hl]
    constructor
    · rintro ⟨a, h, -⟩
      cases h
    · intro h
      match P with
      | .zero => exact absurd (by rw [show bs = List.replicate 192 0 from h, List.length_replicate]) hl
      | .some x y hn => exact absurd h.1 hl

theorem decodeG2_point {mont : Bool} {bs : List UInt8} {a : G2 (FpV adx)} (h : decodeG2 mont bs = some a) :
    ∃ P : E2 (FpV adx), a.Rep P ∧ IsPoint2 mont bs P := by
  have h0 := h
  unfold decodeG2 at h
  split_ifs at h with hl
  obtain ⟨P, hP, -⟩ := (Props.C26_affine_g2 (adx := adx) mont).2.meaning _ a (not_not.1 hl) h
  exact ⟨P, hP, (decodeG2_iff mont _ P).1 ⟨a, h0, hP⟩⟩

theorem encodeG2_point {mont : Bool} {a : G2 (FpV adx)} {P : E2 (FpV adx)} (h : a.Rep P) : IsPoint2 mont (encodeG2 mont a) P := by
  obtain ⟨hl, a', h1, h2⟩ := (Props.C26_affine_g2 (adx := adx) mont).2.dec_enc a P h
  exact (decodeG2_iff mont _ P).1 ⟨a', (if_neg (not_not.2 hl)).trans h1, h2⟩

/-- The triple returned for the exceptions of C31 is written like the point at infinity. -/
theorem encodeG1_bad (mont : Bool) : encodeG1 mont (⟨0, 0, 1⟩ : G1 (FpV adx)) = List.replicate 96 0 := by
  have hz : (⟨0, 0, 1⟩ : G1 (FpV adx)).isZero = false := by
    rw [Jac.isZero, Bool.eq_false_iff]
    intro h
    exact one_ne_zero ((LawfulOps.isZero_iff (F := FpV adx) _).1 h)
  have ha : (⟨0, 0, 1⟩ : G1 (FpV adx)).affine = ⟨0, 0, 1⟩ := by
    rw [Jac.affine, hz, Jac.isAffine, (LawfulOps.isOne_iff (F := FpV adx) 1).2 rfl]
    rfl
  rw [encodeG1, Jac.toAffineBytes, hz, ha]
  simp only [enc1LE, Bool.false_eq_true, if_false, List.replicate_append_replicate]

/-- Encoding an element of the extension of degree twelve. -/
theorem enc_num12 (mont : Bool) (x : Fp12 (FpV adx)) : IsNum12 mont (Fp12.toBytesLE (FpV.toBytesLE adx mont) x) x := by
  have h := Fp12.codecLE (FpV.codecLE (adx := adx) mont)
  have hl := h.enc_length x (by simp only [and_self])
  have hd := h.dec_enc x (by simp only [and_self])
  generalize Fp12.toBytesLE (FpV.toBytesLE adx mont) x = bs at hl hd
  refine ⟨hl, ?_⟩
  have part : ∀ i < 12, (part bs (48 * i) 48).length = 48 := by
    intro i hi
    rw [part, List.length_take, List.length_drop, hl]
    omega
  simp only [Fp12.fromBytesLE_iff, Fp6.fromBytesLE_iff, Fp2.fromBytesLE_iff] at hd
  simp only [span_span (by norm_num : 0 + 96 ≤ 288), span_span (by norm_num : 96 + 96 ≤ 288),
    span_span (by norm_num : 192 + 96 ≤ 288), span_span (by norm_num : 0 + 48 ≤ 96),
    span_span (by norm_num : 48 + 48 ≤ 96)] at hd
  obtain ⟨⟨⟨a0, a1⟩, ⟨a2, a3⟩, a4, a5⟩, ⟨a6, a7⟩, ⟨a8, a9⟩, a10, a11⟩ := hd
  refine .cons ((dec_iff (part 0 (by decide))).1 a0) <| .cons ((dec_iff (part 1 (by decide))).1 a1) <|
    .cons ((dec_iff (part 2 (by decide))).1 a2) <| .cons ((dec_iff (part 3 (by decide))).1 a3) <|
    .cons ((dec_iff (part 4 (by decide))).1 a4) <| .cons ((dec_iff (part 5 (by decide))).1 a5) <|
    .cons ((dec_iff (part 6 (by decide))).1 a6) <| .cons ((dec_iff (part 7 (by decide))).1 a7) <|
    .cons ((dec_iff (part 8 (by decide))).1 a8) <| .cons ((dec_iff (part 9 (by decide))).1 a9) <|
    .cons ((dec_iff (part 10 (by decide))).1 a10) <| .cons ((dec_iff (part 11 (by decide))).1 a11) .nil

theorem chunks_inj : ∀ (k : ℕ) {bs bs' : List UInt8}, bs.length = 48 * k → bs'.length = 48 * k →
    (∀ i < k, part bs (48 * i) 48 = part bs' (48 * i) 48) → bs = bs'
  | 0, bs, bs', h, h', _ => by rw [List.length_eq_zero_iff.1 h, List.length_eq_zero_iff.1 h']
  | k + 1, bs, bs', h, h', e => by
    rw [← List.take_append_drop 48 bs, ← List.take_append_drop 48 bs']
    congr 1
    · exact e 0 (by omega)
    · refine chunks_inj k (by rw [List.length_drop]; omega) (by rw [List.length_drop]; omega) fun i hi => ?_
      have := e (i + 1) (by omega)
      rw [show 48 * (i + 1) = 48 + 48 * i by omega] at this
      rw [part, part, List.drop_drop, List.drop_drop]
      exact this

theorem forall_range {α : Type} {R R' : ℕ → α → Prop} {S : ℕ → Prop} (h : ∀ i a, R i a → R' i a → S i) {xs : List ℕ} {l : List α}
    (h1 : List.Forall₂ R xs l) (h2 : List.Forall₂ R' xs l) : ∀ i ∈ xs, S i := by
  induction h1 with
  | nil => intro i hi; cases hi
  | cons a _ ih =>
    cases h2 with
    | cons b c =>
      intro i hi
      rcases List.mem_cons.1 hi with rfl | hi
      · exact h _ _ a b
      · exact ih c i hi

theorem IsNum12.unique {mont : Bool} {bs bs' : List UInt8} {x : Fp12 (FpV adx)} (h : IsNum12 mont bs x) (h' : IsNum12 mont bs' x) :
    bs = bs' :=
  chunks_inj 12 h.1 h'.1 fun i hi =>
    forall_range (S := fun i => part bs (48 * i) 48 = part bs' (48 * i) 48) (fun _ _ a b => a.unique b) h.2 h'.2 i (List.mem_range.2 hi)

end

section
variable {F : Type} [Field F] [DecidableEq F] [Ops F] [LawfulOps F] {b : F}

/-- The sum of the multiples, by `scale` for one point and by `weightedSum` otherwise. -/
theorem sum_rep (hb : GoodCurve b) {n : ℕ} {ss : List UInt8} (hs : ss.length = 32 * n) {c : ℕ → (curve b).Point} {l : List (Jac F)}
    (h : List.Forall₂ (fun i y => y.Rep (c i)) (List.range n) l) :
    (sumOf l n ss).Rep ((List.range n).map fun i => leVal (part ss (32 * i) 32) • c i).sum := by
  have val : ∀ i < n, wordsVal (scalarAt ss i) = leVal (part ss (32 * i) 32) := fun i hi =>
    Scalar.fromBytesLE_val 4 _ (span_length (by omega))
  have h1 : List.Forall₂ Jac.Rep l ((List.range n).map c) := by
    rw [List.forall₂_map_right_iff]
    exact h.flip
  have hw := Jac.weightedSum_rep hb h1 ((List.range n).map (scalarAt ss)) (by
    intro s hs
    obtain ⟨i, -, rfl⟩ := List.mem_map.1 hs
    exact Scalar.fromBytesLE_length ..)
  have he : (((List.range n).map c).zip ((List.range n).map (scalarAt ss))).map (fun p => wordsVal p.2 • p.1) =
      (List.range n).map fun i => leVal (part ss (32 * i) 32) • c i := by
    rw [List.zip_map', List.map_map]
    refine List.map_congr_left fun i hi => ?_
    show wordsVal _ • c i = _
    rw [val i (List.mem_range.1 hi)]
  rw [he] at hw
  have hn := h.length_eq
  rw [List.length_range] at hn
  match l, h, hw, hn with
  | [a], h, _, hn =>
    obtain rfl : n = 1 := hn
    cases h with
    | cons h _ =>
      have := Jac.scale_rep hb h (scalarAt ss 0)
      rw [val 0 (by decide)] at this
      rw [show List.range 1 = [0] from rfl, List.map_cons, List.map_nil, List.sum_cons, List.sum_nil, add_zero]
      exact this
  | [], _, hw, _ => exact hw
  | _ :: _ :: _, _, hw, _ => exact hw

end
end Bls.Host
