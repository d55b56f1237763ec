import Verif.Model.Eip2537
import Verif.Spec.Eip2537
import Verif.Proof.Compressed
import Verif.Proof.GroupCodec
import Verif.Props.GroupCodec

/-! Byte strings of EIP-2537. -/

namespace Bls.Eip2537

open WeierstrassCurve.Affine

attribute [local irreducible] p q

theorem zeros_of_beVal {bs : List UInt8} (h : beVal bs = 0) : bs = List.replicate bs.length 0 :=
  beVal_inj (List.length_replicate ..).symm (by rw [h, beVal_replicate])

theorem p_lt : p < 256 ^ 48 := by unfold p; decide +kernel

theorem pad_length {r : List UInt8} (h : r.length = 48) : (pad r).length = 64 := by
  rw [pad, List.length_append, List.length_replicate, h]

theorem pad_val (r : List UInt8) : beVal (pad r) = beVal r := by
  rw [pad, beVal_append, beVal_replicate, Nat.zero_mul, Nat.zero_add]

theorem split16 {bs : List UInt8} (h : bs.length = 64) : bs = span bs 0 16 ++ span bs 16 48 := by
  rw [span, span, List.drop_zero, List.take_of_length_le (l := bs.drop 16) (by rw [List.length_drop]; omega), List.take_append_drop]

theorem unpad_iff {bs r : List UInt8} : unpad bs = some r ↔ r.length = 48 ∧ bs = pad r := by
  unfold unpad
  constructor
  · intro h
    split_ifs at h with h1 h2
    have h1 := not_not.1 h1
    have e := Option.some.inj h
    have := split16 h1
    rw [h2, e] at this
    exact ⟨by rw [← e]; exact span_length (by omega), this⟩
  · rintro ⟨h, rfl⟩
    rw [if_neg (by rw [pad_length h]; decide), if_pos]
    · rw [pad, span, List.drop_left' (List.length_replicate ..), List.take_of_length_le (by omega)]
    · rw [pad, span, List.drop_zero, List.take_left' (List.length_replicate ..)]

section
variable {K : Type} [Field K]

theorem isField_iff {bs : List UInt8} {x : K} :
    IsField bs x ↔ ∃ r, r.length = 48 ∧ bs = pad r ∧ beVal r < p ∧ x = (beVal r : K) := by
  constructor
  · rintro ⟨hl, hv, hx⟩
    have hs := split16 hl
    have h48 : (span bs 16 48).length = 48 := span_length (by omega)
    have h16 : (span bs 0 16).length = 16 := span_length (by omega)
    have e : beVal bs = beVal (span bs 0 16) * 256 ^ 48 + beVal (span bs 16 48) := by
      conv_lhs => rw [hs, beVal_append, h48]
    have h0 : beVal (span bs 0 16) = 0 := by
      by_contra h0
      have := p_lt
      have h1 : 1 * 256 ^ 48 ≤ beVal (span bs 0 16) * 256 ^ 48 := Nat.mul_le_mul_right _ (Nat.pos_of_ne_zero h0)
      omega
    rw [h0, Nat.zero_mul, Nat.zero_add] at e
    have hz := zeros_of_beVal h0
    rw [h16] at hz
    exact ⟨span bs 16 48, h48, by rw [pad, ← hz]; exact hs, by omega, by rw [← e]; exact hx⟩
  · rintro ⟨r, hl, rfl, hv, hx⟩
    exact ⟨pad_length hl, by rw [pad_val]; exact hv, by rw [pad_val]; exact hx⟩

theorem IsField.unique [IsFp K] {bs bs' : List UInt8} {x : K} (h : IsField bs x) (h' : IsField bs' x) : bs = bs' := by
  obtain ⟨h1, h2, rfl⟩ := h
  obtain ⟨h1', h2', e⟩ := h'
  refine beVal_inj (h1.trans h1'.symm) ?_
  have := IsFp.natCast_eq_iff.1 e
  rwa [Nat.mod_eq_of_lt h2, Nat.mod_eq_of_lt h2'] at this

theorem halves {bs : List UInt8} {n : ℕ} (h : bs.length = 2 * n) : bs = part bs 0 n ++ part bs n n := by
  rw [part, part, List.drop_zero, List.take_of_length_le (l := bs.drop n) (by rw [List.length_drop]; omega), List.take_append_drop]

theorem IsField2.unique [IsFp K] {bs bs' : List UInt8} {x : Fp2 K} (h : IsField2 bs x) (h' : IsField2 bs' x) : bs = bs' := by
  obtain ⟨h1, h2, h3⟩ := h
  obtain ⟨h1', h2', h3'⟩ := h'
  rw [halves (n := 64) h1, halves (n := 64) h1', h2.unique h2', h3.unique h3']

theorem IsPoint1.unique [IsFp K] {bs bs' : List UInt8} {P : E1 K} (h : IsPoint1 bs P) (h' : IsPoint1 bs' P) : bs = bs' := by
  match P with
  | .zero => exact Eq.trans h (Eq.symm h')
  | .some x y _ =>
    obtain ⟨h1, h2, h3⟩ := h
    obtain ⟨h1', h2', h3'⟩ := h'
    rw [halves (n := 64) h1, halves (n := 64) h1', h2.unique h2', h3.unique h3']

theorem IsPoint2.unique [IsFp K] {bs bs' : List UInt8} {P : E2 K} (h : IsPoint2 bs P) (h' : IsPoint2 bs' P) : bs = bs' := by
  match P with
  | .zero => exact Eq.trans h (Eq.symm h')
  | .some x y _ =>
    obtain ⟨h1, h2, h3⟩ := h
    obtain ⟨h1', h2', h3'⟩ := h'
    rw [halves (n := 128) h1, halves (n := 128) h1', h2.unique h2', h3.unique h3']

end

section
variable {F : Type} [Field F] {b : F} {n : ℕ} {dec : List UInt8 → Option (Jac F)} {enc : Jac F → List UInt8}
  {ok : List UInt8 → Prop} {cx cy : List UInt8 → F}

/-- The coordinates of a point; zeros for the point at infinity. -/
def Coords (cx cy : F) : (curve b).Point → Prop
  | .zero => cx = 0 ∧ cy = 0
  | .some x y _ => x = cx ∧ y = cy

theorem raw (h : IsAffineCodec b n dec enc ok cx cy) (hb : b ≠ 0) {rs : List UInt8} (hl : rs.length = n) (P : (curve b).Point) :
    (∃ a, dec rs = some a ∧ a.Rep P) ↔ ok rs ∧ Coords (cx rs) (cy rs) P := by
  have key : ∀ (a : Jac F) (P' : (curve b).Point), dec rs = some a → a.Rep P' → Coords (cx rs) (cy rs) P' := by
    intro a P' hd hr
    obtain ⟨P₂, h1, h2, h3⟩ := h.meaning rs a hl hd
    have := hr.unique h1
    subst this
    match P' with
    | .zero => exact h2.1 rfl
    | .some x y hn => exact h3 x y hn rfl
  constructor
  · rintro ⟨a, hd, hr⟩
    exact ⟨((h.accept rs hl).1 (by rw [hd]; rfl)).1, key a P hd hr⟩
  · rintro ⟨ho, hc⟩
    have hs : (dec rs).isSome := by
      refine (h.accept rs hl).2 ⟨ho, ?_⟩
      match P with
      | .zero => exact Or.inl hc
      | .some x y hn =>
        right
        rw [← hc.1, ← hc.2]
        exact point_equation hn
    obtain ⟨a, hd⟩ := Option.isSome_iff_exists.1 hs
    obtain ⟨P₂, h1, -, -⟩ := h.meaning rs a hl hd
    refine ⟨a, hd, ?_⟩
    have hc₂ := key a P₂ hd h1
    suffices P₂ = P by rwa [← this]
    match P, P₂ with
    | .zero, .zero => rfl
    | .zero, .some x y hn =>
      exfalso
      obtain ⟨e1, e2⟩ := hc
      obtain ⟨e3, e4⟩ := hc₂
      have := point_equation hn
      rw [e3, e4, e1, e2] at this
      exact hb (by linear_combination -this)
    | .some x y hn, .zero =>
      exfalso
      obtain ⟨e1, e2⟩ := hc₂
      obtain ⟨e3, e4⟩ := hc
      have := point_equation hn
      rw [e3, e4, e1, e2] at this
      exact hb (by linear_combination -this)
    | .some x y hn, .some x' y' hn' =>
      obtain ⟨rfl, rfl⟩ := hc
      obtain ⟨rfl, rfl⟩ := hc₂
      rfl

end

section
variable {adx : Bool}

theorem coord_true {K : Type} [Field K] (n : ℕ) : (coord true n : K) = n := if_pos rfl

theorem chunk_two {x y : List UInt8} (hx : x.length = 48) (hy : y.length = 48) :
    chunk (x ++ y) 0 = x ∧ chunk (x ++ y) 1 = y := by
  constructor
  · rw [chunk, Nat.mul_zero, List.drop_zero, List.take_left' hx]
  · rw [chunk, Nat.mul_one, List.drop_left' hx, List.take_of_length_le (by omega)]

theorem chunk_four {a b c d : List UInt8} (ha : a.length = 48) (hb : b.length = 48) (hc : c.length = 48) (hd : d.length = 48) :
    chunk ((a ++ b) ++ (c ++ d)) 0 = a ∧ chunk ((a ++ b) ++ (c ++ d)) 1 = b ∧ chunk ((a ++ b) ++ (c ++ d)) 2 = c ∧
      chunk ((a ++ b) ++ (c ++ d)) 3 = d := by
  have hab : (a ++ b).length = 96 := by rw [List.length_append, ha, hb]
  refine ⟨?_, ?_, ?_, ?_⟩
  · rw [chunk, Nat.mul_zero, List.drop_zero, List.append_assoc, List.take_left' ha]
  · rw [chunk, Nat.mul_one, List.append_assoc, List.drop_left' ha, List.take_left' hb]
  · rw [chunk, List.drop_left' hab, List.take_left' hc]
  · rw [chunk, show 48 * 3 = 96 + 48 from rfl, ← List.drop_drop, List.drop_left' hab, List.drop_left' hc, List.take_of_length_le (by omega)]

theorem span_two {x y : List UInt8} {n m : ℕ} (hx : x.length = n) (hy : y.length = m) :
    span (x ++ y) 0 n = x ∧ span (x ++ y) n m = y := by
  constructor
  · rw [span, List.drop_zero, List.take_left' hx]
  · rw [span, List.drop_left' hx, List.take_of_length_le (by omega)]

theorem decodeG1_some {check : Bool} {bs : List UInt8} {a : G1 (FpV adx)} : decodeG1 check bs = some a ↔
    ∃ x y, x.length = 48 ∧ y.length = 48 ∧ bs = pad x ++ pad y ∧
      Jac.fromAffineBytes 48 (FpV.fromBytesBE adx true) FpC.B check (x ++ y) = some a := by
  unfold decodeG1
  constructor
  · intro h
    by_cases hl : bs.length = 128
    · rw [if_neg (not_not.2 hl)] at h
      simp only [Option.bind_eq_bind, Option.bind_eq_some_iff, pure, Option.bind_some, unpad_iff] at h
      obtain ⟨x, ⟨hx, ex⟩, y, ⟨hy, ey⟩, h⟩ := h
      refine ⟨x, y, hx, hy, ?_, h⟩
      rw [← ex, ← ey]
      exact halves (n := 64) hl
    · rw [if_pos hl] at h
      cases h
  · rintro ⟨x, y, hx, hy, rfl, h⟩
    have hl : (pad x ++ pad y).length = 128 := by rw [List.length_append, pad_length hx, pad_length hy]
    rw [if_neg (not_not.2 hl), (span_two (pad_length hx) (pad_length hy)).1, (span_two (pad_length hx) (pad_length hy)).2,
      unpad_iff.2 ⟨hx, rfl⟩, unpad_iff.2 ⟨hy, rfl⟩]
    exact h

theorem four {bs : List UInt8} (h : bs.length = 256) :
    bs = (span bs 0 64 ++ span bs 64 64) ++ (span bs 128 64 ++ span bs 192 64) := by
  have h1 := halves (n := 128) h
  have h2 := halves (bs := part bs 0 128) (n := 64) (by rw [part, List.length_take, List.length_drop, h]; rfl)
  have h3 := halves (bs := part bs 128 128) (n := 64) (by rw [part, List.length_take, List.length_drop, h]; rfl)
  conv_lhs => rw [h1, h2, h3]
  simp only [part, span, List.drop_take, List.take_take, List.drop_drop]
  rfl

theorem span_four {a b c d : List UInt8} {n : ℕ} (ha : a.length = n) (hb : b.length = n) (hc : c.length = n) (hd : d.length = n) :
    span ((a ++ b) ++ (c ++ d)) 0 n = a ∧ span ((a ++ b) ++ (c ++ d)) n n = b ∧ span ((a ++ b) ++ (c ++ d)) (2 * n) n = c ∧
      span ((a ++ b) ++ (c ++ d)) (3 * n) n = d := by
  have hab : (a ++ b).length = 2 * n := by rw [List.length_append, ha, hb]; omega
  refine ⟨?_, ?_, ?_, ?_⟩
  · rw [span, List.drop_zero, List.append_assoc, List.take_left' ha]
  · rw [span, List.append_assoc, List.drop_left' ha, List.take_left' hb]
  · rw [span, List.drop_left' hab, List.take_left' hc]
  · rw [span, show 3 * n = 2 * n + n by omega, ← List.drop_drop, List.drop_left' hab, List.drop_left' hc,
      List.take_of_length_le (by omega)]

theorem decodeG2_some {check : Bool} {bs : List UInt8} {a : G2 (FpV adx)} : decodeG2 check bs = some a ↔
    ∃ x0 x1 y0 y1, x0.length = 48 ∧ x1.length = 48 ∧ y0.length = 48 ∧ y1.length = 48 ∧
      bs = (pad x0 ++ pad x1) ++ (pad y0 ++ pad y1) ∧
      Jac.fromAffineBytes 96 (Fp2.fromBytesBE (FpV.fromBytesBE adx true)) Fp2.B check ((x1 ++ x0) ++ (y1 ++ y0)) = some a := by
  unfold decodeG2
  constructor
  · intro h
    by_cases hl : bs.length = 256
    · rw [if_neg (not_not.2 hl)] at h
      simp only [Option.bind_eq_bind, Option.bind_eq_some_iff, pure, Option.bind_some, unpad_iff] at h
      obtain ⟨x0, ⟨hx0, ex0⟩, x1, ⟨hx1, ex1⟩, y0, ⟨hy0, ey0⟩, y1, ⟨hy1, ey1⟩, h⟩ := h
      refine ⟨x0, x1, y0, y1, hx0, hx1, hy0, hy1, ?_, h⟩
      rw [← ex0, ← ex1, ← ey0, ← ey1]
      exact four hl
    · rw [if_pos hl] at h
      cases h
  · rintro ⟨x0, x1, y0, y1, hx0, hx1, hy0, hy1, rfl, h⟩
    have hl : ((pad x0 ++ pad x1) ++ (pad y0 ++ pad y1)).length = 256 := by
      rw [List.length_append, List.length_append, List.length_append, pad_length hx0, pad_length hx1, pad_length hy0, pad_length hy1]
    obtain ⟨e0, e1, e2, e3⟩ := span_four (pad_length hx0) (pad_length hx1) (pad_length hy0) (pad_length hy1)
    rw [if_neg (not_not.2 hl), e0, e1, e2, e3, unpad_iff.2 ⟨hx0, rfl⟩, unpad_iff.2 ⟨hx1, rfl⟩, unpad_iff.2 ⟨hy0, rfl⟩,
      unpad_iff.2 ⟨hy1, rfl⟩]
    exact h

theorem cast_zero {n : ℕ} (h : n < p) (e : (n : FpV adx) = 0) : n = 0 := by
  have := IsFp.natCast_eq_zero_iff.1 e
  rwa [Nat.mod_eq_of_lt h] at this

theorem pad_zeros : pad (List.replicate 48 0) = List.replicate 64 0 := by
  rw [pad, List.replicate_append_replicate]

theorem zeros48 {x : List UInt8} (hl : x.length = 48) (hv : beVal x < p) (e : (beVal x : FpV adx) = 0) : x = List.replicate 48 0 := by
  have := zeros_of_beVal (cast_zero hv e)
  rwa [hl] at this

theorem decodeG1_iff (bs : List UInt8) (P : E1 (FpV adx)) : (∃ a : G1 (FpV adx), decodeG1 true bs = some a ∧ a.Rep P) ↔ IsPoint1 bs P := by
  have hcodec := (Props.C26_affine_g1 (adx := adx) true).1
  have hb := (goodCurve1 (FpV adx)).const
  simp only [decodeG1_some]
  constructor
  · rintro ⟨a, ⟨x, y, hx, hy, rfl, h⟩, hr⟩
    obtain ⟨c1, c2⟩ := chunk_two hx hy
    obtain ⟨ho, hc⟩ := (raw hcodec hb (by rw [List.length_append, hx, hy]) P).1 ⟨a, h, hr⟩
    have o1 := ho 0 (by decide)
    have o2 := ho 1 (by decide)
    rw [c1, c2, coord_true, coord_true] at hc
    rw [c1] at o1
    rw [c2] at o2
    match P with
    | .zero =>
      obtain ⟨e1, e2⟩ := hc
      show _ = _
      rw [zeros48 hx o1 e1, zeros48 hy o2 e2, pad_zeros, List.replicate_append_replicate]
    | .some x' y' hn =>
      obtain ⟨rfl, rfl⟩ := hc
      obtain ⟨p1, p2⟩ := span_two (pad_length hx) (pad_length hy)
      refine ⟨by rw [List.length_append, pad_length hx, pad_length hy], ?_, ?_⟩
      · exact isField_iff.2 ⟨x, hx, p1, o1, rfl⟩
      · exact isField_iff.2 ⟨y, hy, p2, o2, rfl⟩
  · intro h
    have fin : ∀ x y : List UInt8, x.length = 48 → y.length = 48 → beVal x < p → beVal y < p →
        Coords (b := 4) ((beVal x : ℕ) : FpV adx) ((beVal y : ℕ) : FpV adx) P → ∃ a : G1 (FpV adx),
          (∃ x' y', x'.length = 48 ∧ y'.length = 48 ∧ pad x ++ pad y = pad x' ++ pad y' ∧
            Jac.fromAffineBytes 48 (FpV.fromBytesBE adx true) FpC.B true (x' ++ y') = some a) ∧ a.Rep P := by
      intro x y hx hy vx vy hc
      obtain ⟨c1, c2⟩ := chunk_two hx hy
      obtain ⟨a, h1, h2⟩ := (raw hcodec hb (rs := x ++ y) (by rw [List.length_append, hx, hy]) P).2 (by
        refine ⟨fun i hi => ?_, ?_⟩
        · obtain rfl | rfl : i = 0 ∨ i = 1 := by omega
          · rw [c1]; exact vx
          · rw [c2]; exact vy
        · rw [c1, c2, coord_true, coord_true]
          exact hc)
      exact ⟨a, ⟨x, y, hx, hy, rfl, h1⟩, h2⟩
    match P, h, fin with
    | .zero, h, fin =>
      have h : bs = List.replicate 128 0 := h
      have v0 : beVal (List.replicate 48 (0 : UInt8)) = 0 := beVal_replicate 48
      have hp : 0 < p := p_prime.pos
      have := fin (List.replicate 48 0) (List.replicate 48 0) (List.length_replicate ..) (List.length_replicate ..)
        (by rw [v0]; exact hp) (by rw [v0]; exact hp) (by rw [v0, Nat.cast_zero]; exact ⟨rfl, rfl⟩)
      rwa [pad_zeros, List.replicate_append_replicate, ← h] at this
    | .some x y hn, h, fin =>
      obtain ⟨hl, h1, h2⟩ := h
      obtain ⟨rx, lx, ex, vx, rfl⟩ := isField_iff.1 h1
      obtain ⟨ry, ly, ey, vy, rfl⟩ := isField_iff.1 h2
      have := fin rx ry lx ly vx vy ⟨rfl, rfl⟩
      rwa [← ex, ← ey, ← halves (n := 64) hl] at this

theorem decodeG1_point {bs : List UInt8} {a : G1 (FpV adx)} (h : decodeG1 true bs = some a) : ∃ P : E1 (FpV adx), a.Rep P ∧ IsPoint1 bs P := by
  have h0 := h
  obtain ⟨x, y, hx, hy, rfl, hd⟩ := decodeG1_some.1 h
  obtain ⟨P, hP, -⟩ := (Props.C26_affine_g1 (adx := adx) true).1.meaning _ a (by rw [List.length_append, hx, hy]) hd
  exact ⟨P, hP, (decodeG1_iff _ P).1 ⟨a, h0, hP⟩⟩

theorem encodeG1_point {a : G1 (FpV adx)} {P : E1 (FpV adx)} (h : a.Rep P) : IsPoint1 (encodeG1 a) P := by
  obtain ⟨hl, a', h1, h2⟩ := (Props.C26_affine_g1 (adx := adx) true).1.dec_enc a P h
  refine (decodeG1_iff _ P).1 ⟨a', decodeG1_some.2 ⟨_, _, span_length (by omega), span_length (by omega), rfl, ?_⟩, h2⟩
  rw [← h1]
  congr 1
  exact (halves (n := 48) hl).symm

theorem decodeG2_iff (bs : List UInt8) (P : E2 (FpV adx)) : (∃ a : G2 (FpV adx), decodeG2 true bs = some a ∧ a.Rep P) ↔ IsPoint2 bs P := by
  have hcodec := (Props.C26_affine_g2 (adx := adx) true).1
  have hb := (goodCurve2 (FpV adx)).const
  simp only [decodeG2_some]
  have len : ∀ {a b c d : List UInt8} {n : ℕ}, a.length = n → b.length = n → c.length = n → d.length = n →
      ((a ++ b) ++ (c ++ d)).length = 4 * n := by
    intro a b c d n ha hb hc hd
    rw [List.length_append, List.length_append, List.length_append, ha, hb, hc, hd]
    omega
  constructor
  · rintro ⟨a, ⟨x0, x1, y0, y1, hx0, hx1, hy0, hy1, rfl, h⟩, hr⟩
    obtain ⟨c0, c1, c2, c3⟩ := chunk_four hx1 hx0 hy1 hy0
    obtain ⟨ho, hc⟩ := (raw hcodec hb (len hx1 hx0 hy1 hy0) P).1 ⟨a, h, hr⟩
    have o0 := ho 0 (by decide)
    have o1 := ho 1 (by decide)
    have o2 := ho 2 (by decide)
    have o3 := ho 3 (by decide)
    rw [c0, c1, c2, c3, coord_true, coord_true, coord_true, coord_true] at hc
    rw [c0] at o0
    rw [c1] at o1
    rw [c2] at o2
    rw [c3] at o3
    match P with
    | .zero =>
      obtain ⟨e1, e2⟩ := hc
      show _ = _
      rw [zeros48 hx0 o1 (congrArg Fp2.c0 e1), zeros48 hx1 o0 (congrArg Fp2.c1 e1), zeros48 hy0 o3 (congrArg Fp2.c0 e2),
        zeros48 hy1 o2 (congrArg Fp2.c1 e2), pad_zeros, List.replicate_append_replicate, List.replicate_append_replicate]
    | .some x' y' hn =>
      obtain ⟨rfl, rfl⟩ := hc
      have l1 : (pad x0 ++ pad x1).length = 128 := by rw [List.length_append, pad_length hx0, pad_length hx1]
      have l2 : (pad y0 ++ pad y1).length = 128 := by rw [List.length_append, pad_length hy0, pad_length hy1]
      obtain ⟨p1, p2⟩ := span_two l1 l2
      obtain ⟨q1, q2⟩ := span_two (pad_length hx0) (pad_length hx1)
      obtain ⟨r1, r2⟩ := span_two (pad_length hy0) (pad_length hy1)
      have f1 : IsField2 (pad x0 ++ pad x1) (⟨(beVal x0 : FpV adx), (beVal x1 : FpV adx)⟩ : Fp2 (FpV adx)) :=
        ⟨l1, isField_iff.2 ⟨x0, hx0, q1, o1, rfl⟩, isField_iff.2 ⟨x1, hx1, q2, o0, rfl⟩⟩
      have f2 : IsField2 (pad y0 ++ pad y1) (⟨(beVal y0 : FpV adx), (beVal y1 : FpV adx)⟩ : Fp2 (FpV adx)) :=
        ⟨l2, isField_iff.2 ⟨y0, hy0, r1, o3, rfl⟩, isField_iff.2 ⟨y1, hy1, r2, o2, rfl⟩⟩
      refine ⟨by rw [List.length_append, l1, l2], ?_, ?_⟩
      · rw [show part (pad x0 ++ pad x1 ++ (pad y0 ++ pad y1)) 0 128 = _ from p1]
        exact f1
      · rw [show part (pad x0 ++ pad x1 ++ (pad y0 ++ pad y1)) 128 128 = _ from p2]
        exact f2
  · intro h
    have fin : ∀ x0 x1 y0 y1 : List UInt8, x0.length = 48 → x1.length = 48 → y0.length = 48 → y1.length = 48 →
        beVal x0 < p → beVal x1 < p → beVal y0 < p → beVal y1 < p →
        Coords (b := 4 * Fp2.xi) (⟨(beVal x0 : FpV adx), (beVal x1 : FpV adx)⟩ : Fp2 (FpV adx))
          ⟨(beVal y0 : FpV adx), (beVal y1 : FpV adx)⟩ P → ∃ a : G2 (FpV adx),
          (∃ x0' x1' y0' y1', x0'.length = 48 ∧ x1'.length = 48 ∧ y0'.length = 48 ∧ y1'.length = 48 ∧
            (pad x0 ++ pad x1) ++ (pad y0 ++ pad y1) = (pad x0' ++ pad x1') ++ (pad y0' ++ pad y1') ∧
            Jac.fromAffineBytes 96 (Fp2.fromBytesBE (FpV.fromBytesBE adx true)) Fp2.B true ((x1' ++ x0') ++ (y1' ++ y0')) = some a) ∧
          a.Rep P := by
      intro x0 x1 y0 y1 hx0 hx1 hy0 hy1 vx0 vx1 vy0 vy1 hc
      obtain ⟨c0, c1, c2, c3⟩ := chunk_four hx1 hx0 hy1 hy0
      obtain ⟨a, h1, h2⟩ := (raw hcodec hb (rs := (x1 ++ x0) ++ (y1 ++ y0)) (len hx1 hx0 hy1 hy0) P).2 (by
        refine ⟨fun i hi => ?_, ?_⟩
        · obtain rfl | rfl | rfl | rfl : i = 0 ∨ i = 1 ∨ i = 2 ∨ i = 3 := by omega
          · rw [c0]; exact vx1
          · rw [c1]; exact vx0
          · rw [c2]; exact vy1
          · rw [c3]; exact vy0
        · rw [c0, c1, c2, c3, coord_true, coord_true, coord_true, coord_true]
          exact hc)
      exact ⟨a, ⟨x0, x1, y0, y1, hx0, hx1, hy0, hy1, rfl, h1⟩, h2⟩
    match P, h, fin with
    | .zero, h, fin =>
      have h : bs = List.replicate 256 0 := h
      have v0 : beVal (List.replicate 48 (0 : UInt8)) = 0 := beVal_replicate 48
      have hp : 0 < p := p_prime.pos
      have hl : (List.replicate 48 (0 : UInt8)).length = 48 := List.length_replicate ..
      have hv : beVal (List.replicate 48 (0 : UInt8)) < p := by rw [v0]; exact hp
      have := fin _ _ _ _ hl hl hl hl hv hv hv hv (by rw [v0, Nat.cast_zero]; exact ⟨rfl, rfl⟩)
      rwa [pad_zeros, List.replicate_append_replicate, List.replicate_append_replicate, ← h] at this
    | .some x y hn, h, fin =>
      obtain ⟨hl, ⟨hlx, h1, h2⟩, ⟨hly, h3, h4⟩⟩ := h
      obtain ⟨x0, lx0, ex0, vx0, ux0⟩ := isField_iff.1 h1
      obtain ⟨x1, lx1, ex1, vx1, ux1⟩ := isField_iff.1 h2
      obtain ⟨y0, ly0, ey0, vy0, uy0⟩ := isField_iff.1 h3
      obtain ⟨y1, ly1, ey1, vy1, uy1⟩ := isField_iff.1 h4
      have := fin x0 x1 y0 y1 lx0 lx1 ly0 ly1 vx0 vx1 vy0 vy1 ⟨Fp2.ext ux0 ux1, Fp2.ext uy0 uy1⟩
      rwa [← ex0, ← ex1, ← ey0, ← ey1, ← halves (n := 64) hlx, ← halves (n := 64) hly, ← halves (n := 128) hl] at this

theorem decodeG2_point {bs : List UInt8} {a : G2 (FpV adx)} (h : decodeG2 true bs = some a) : ∃ P : E2 (FpV adx), a.Rep P ∧ IsPoint2 bs P := by
  have h0 := h
  obtain ⟨x0, x1, y0, y1, hx0, hx1, hy0, hy1, rfl, hd⟩ := decodeG2_some.1 h
  obtain ⟨P, hP, -⟩ := (Props.C26_affine_g2 (adx := adx) true).1.meaning _ a (by
    rw [List.length_append, List.length_append, List.length_append, hx0, hx1, hy0, hy1]) hd
  exact ⟨P, hP, (decodeG2_iff _ P).1 ⟨a, h0, hP⟩⟩

theorem encodeG2_point {a : G2 (FpV adx)} {P : E2 (FpV adx)} (h : a.Rep P) : IsPoint2 (encodeG2 a) P := by
  obtain ⟨hl, a', h1, h2⟩ := (Props.C26_affine_g2 (adx := adx) true).1.dec_enc a P h
  refine (decodeG2_iff _ P).1 ⟨a', decodeG2_some.2 ⟨_, _, _, _, span_length (by omega), span_length (by omega), span_length (by omega),
    span_length (by omega), rfl, ?_⟩, h2⟩
  rw [← h1]
  congr 1
  generalize Jac.toAffineBytes 96 _ a = r at hl
  have e1 := halves (n := 96) hl
  have e2 := halves (bs := part r 0 96) (n := 48) (by rw [part, List.length_take, List.length_drop, hl]; rfl)
  have e3 := halves (bs := part r 96 96) (n := 48) (by rw [part, List.length_take, List.length_drop, hl]; rfl)
  conv_rhs => rw [e1, e2, e3]
  simp only [part, span, List.drop_take, List.take_take, List.drop_drop]
  rfl

theorem decodeFp_iff (bs : List UInt8) (x : FpV adx) : decodeFp bs = some x ↔ IsField bs x := by
  have hc := coord1BE (adx := adx) true
  rw [isField_iff]
  unfold decodeFp
  simp only [Option.bind_eq_bind, Option.bind_eq_some_iff, unpad_iff]
  constructor
  · rintro ⟨r, ⟨hl, e⟩, h⟩
    refine ⟨r, hl, e, (hc.codec.accept r hl).1 (by rw [h]; rfl), ?_⟩
    have := hc.meaning r x hl h
    rwa [coord_true] at this
  · rintro ⟨r, hl, e, hv, hx⟩
    obtain ⟨x', h⟩ := Option.isSome_iff_exists.1 ((hc.codec.accept r hl).2 hv)
    have := hc.meaning r x' hl h
    rw [coord_true, ← hx] at this
    exact ⟨r, ⟨hl, e⟩, this ▸ h⟩

theorem decodeFp2_iff (bs : List UInt8) (x : Fp2 (FpV adx)) : decodeFp2 bs = some x ↔ IsField2 bs x := by
  have hc := coord2BE (adx := adx) true
  unfold decodeFp2
  constructor
  · intro h
    by_cases hl : bs.length = 128
    · rw [if_neg (not_not.2 hl)] at h
      simp only [Option.bind_eq_bind, Option.bind_eq_some_iff, pure, Option.bind_some, unpad_iff] at h
      obtain ⟨c0, ⟨h0, e0⟩, c1, ⟨h1, e1⟩, h⟩ := h
      have hlen : (c1 ++ c0).length = 96 := by rw [List.length_append, h0, h1]
      have ho := (hc.codec.accept _ hlen).1 (by rw [h]; rfl)
      have hm := hc.meaning _ x hlen h
      obtain ⟨k0, k1⟩ := chunk_two h1 h0
      have o0 := ho 0 (by decide)
      have o1 := ho 1 (by decide)
      rw [k0] at o0
      rw [k1] at o1
      rw [k0, k1, coord_true, coord_true] at hm
      exact ⟨hl, isField_iff.2 ⟨c0, h0, e0, o1, congrArg Fp2.c0 hm⟩, isField_iff.2 ⟨c1, h1, e1, o0, congrArg Fp2.c1 hm⟩⟩
    · rw [if_pos hl] at h
      cases h
  · rintro ⟨hl, f0, f1⟩
    obtain ⟨c0, h0, e0, v0, u0⟩ := isField_iff.1 f0
    obtain ⟨c1, h1, e1, v1, u1⟩ := isField_iff.1 f1
    rw [if_neg (not_not.2 hl), show unpad (span bs 0 64) = _ from unpad_iff.2 ⟨h0, e0⟩, show unpad (span bs 64 64) = _ from unpad_iff.2 ⟨h1, e1⟩]
    have hlen : (c1 ++ c0).length = 96 := by rw [List.length_append, h0, h1]
    obtain ⟨k0, k1⟩ := chunk_two h1 h0
    obtain ⟨x', h⟩ := Option.isSome_iff_exists.1 ((hc.codec.accept _ hlen).2 (by
      intro i hi
      obtain rfl | rfl : i = 0 ∨ i = 1 := by omega
      · rw [k0]; exact v1
      · rw [k1]; exact v0))
    have hm := hc.meaning _ x' hlen h
    rw [k0, k1, coord_true, coord_true, ← u0, ← u1] at hm
    have : x' = x := hm
    exact this ▸ h

/-- The triple returned for the exceptions of C31 is written like the point at infinity. -/
theorem encodeG1_bad : encodeG1 (⟨0, 0, 1⟩ : G1 (FpV adx)) = List.replicate 128 0 := by
  have hz : (⟨0, 0, 1⟩ : G1 (FpV adx)).isZero = false := by
    rw [Jac.isZero, Bool.eq_false_iff]
    intro h
    exact one_ne_zero ((LawfulOps.isZero_iff (F := FpV adx) _).1 h)
  have ha : (⟨0, 0, 1⟩ : G1 (FpV adx)).affine = ⟨0, 0, 1⟩ := by
    rw [Jac.affine, hz, Jac.isAffine, (LawfulOps.isOne_iff (F := FpV adx) 1).2 rfl]
    rfl
  have : Jac.toAffineBytes 48 (FpV.toBytesBE adx true) (⟨0, 0, 1⟩ : G1 (FpV adx)) = List.replicate 96 0 := by
    rw [Jac.toAffineBytes, hz, ha]
    simp only [enc1BE, Bool.false_eq_true, if_false, List.replicate_append_replicate]
  unfold encodeG1
  rw [this]
  decide +kernel

theorem mapM_iff {α β : Type} (f : α → Option β) : ∀ (xs : List α) (l : List β),
    xs.mapM f = some l ↔ List.Forall₂ (fun x y => f x = some y) xs l
  | [], l => by simp [eq_comm]
  | x :: xs, l => by
    rw [List.mapM_cons]
    simp only [Option.bind_eq_bind, Option.bind_eq_some_iff, pure, Option.some.injEq, mapM_iff f xs, List.forall₂_cons_left_iff]
    constructor
    · rintro ⟨y, h1, ys, h2, rfl⟩; exact ⟨y, ys, h1, h2, rfl⟩
    · rintro ⟨y, ys, h1, h2, rfl⟩; exact ⟨y, h1, ys, h2, rfl⟩

/-- Reading `k` pieces, each of which has a meaning. -/
theorem mapM_range {β γ : Type} {f : ℕ → Option β} {R : ℕ → β → γ → Prop} {S : ℕ → γ → Prop} [Inhabited γ]
    (h : ∀ i y, f i = some y → ∃ c, R i y c) (hs : ∀ i c, (∃ y, f i = some y ∧ R i y c) ↔ S i c) (k : ℕ) :
    (∀ l, (List.range k).mapM f = some l → ∃ c : ℕ → γ, (∀ i < k, S i (c i)) ∧ List.Forall₂ (fun i y => R i y (c i)) (List.range k) l) ∧
    ∀ c : ℕ → γ, (∀ i < k, S i (c i)) → ∃ l, (List.range k).mapM f = some l ∧ List.Forall₂ (fun i y => R i y (c i)) (List.range k) l := by
  constructor
  · intro l hl
    rw [mapM_iff] at hl
    have hc : ∀ i, ∃ c, ∀ y, f i = some y → R i y c := by
      intro i
      cases e : f i with
      | none => exact ⟨default, fun y hy => by cases hy⟩
      | some y =>
        obtain ⟨c, hc⟩ := h i y e
        exact ⟨c, fun y' hy' => by cases hy'; exact hc⟩
    choose c hc using hc
    refine ⟨c, fun i hi => ?_, hl.imp fun i y hy => hc i y hy⟩
    obtain ⟨y, -, hy⟩ : ∃ y ∈ l, f i = some y := by
      obtain ⟨n, hn, e⟩ := List.mem_iff_getElem.1 (List.mem_range.2 hi)
      refine ⟨l[n]'(hl.length_eq ▸ hn), List.getElem_mem _, ?_⟩
      have := (List.forall₂_iff_get.1 hl).2 n hn (hl.length_eq ▸ hn)
      simpa [e] using this
    exact (hs i (c i)).1 ⟨y, hy, hc i y hy⟩
  · intro c hc
    have : ∀ xs : List ℕ, (∀ i ∈ xs, S i (c i)) → ∃ l, List.Forall₂ (fun i y => f i = some y ∧ R i y (c i)) xs l := by
      intro xs
      induction xs with
      | nil => exact fun _ => ⟨[], .nil⟩
      | cons i xs ih =>
        intro hx
        obtain ⟨l, hl⟩ := ih fun j hj => hx j (List.mem_cons_of_mem _ hj)
        obtain ⟨y, hy⟩ := (hs i (c i)).2 (hx i (List.mem_cons_self ..))
        exact ⟨y :: l, .cons hy hl⟩
    obtain ⟨l, hl⟩ := this (List.range k) fun i hi => hc i (List.mem_range.1 hi)
    exact ⟨l, (mapM_iff f _ l).2 (hl.imp fun _ _ h => h.1), hl.imp fun _ _ h => h.2⟩

end

end Bls.Eip2537
