import Verif.Proof.Compressed
import Verif.Spec.Lenient

/-! Exactly what the compressed decoders accept, and what the encoders make of infinity. -/

namespace Bls

open WeierstrassCurve.Affine

set_option exponentiation.threshold 1000

variable {K : Type} [Field K] [FpOps K] [LawfulFp K]

theorem G1.decode_lenient_mp {bs : List UInt8} (hl : bs.length = 48) {a : G1 K}
    (h : G1.fromCompressedBytesBE bs = some a) : ∃ P : E1 K, a.Rep P ∧ Lenient1 P bs := by
  have hlt := beVal_lt bs
  rw [hl] at hlt
  obtain ⟨h1, ⟨hi, rfl⟩ | ⟨hi, y, ha, hy, hlex⟩⟩ := (G1.decode_iff hl a).1 h
  · refine ⟨0, rfl, hl, ?_⟩
    change 2 ^ 383 + 2 ^ 382 ≤ beVal bs
    generalize beVal bs = v at *
    norm_num at *
    omega
  · have hon := (goodCurve1 K).nonsingular (x := a.x) (y := y) (by linear_combination hy)
    refine ⟨.some a.x y hon, ?_, ⟨hl, ?_⟩⟩
    · have ez : a.z = 1 := by rw [ha]
      have ey : a.y = y := by rw [ha]
      refine ⟨by rw [ez]; exact one_ne_zero, by rw [ez]; simp, by rw [ez, ey]; simp⟩
    · obtain ⟨n, hn, rfl⟩ := FpC.exists_nat y
      refine ⟨_, n, Nat.mod_lt _ (by decide +kernel), hn, by rw [ha], rfl, ?_⟩
      rw [FpC.lexLargest_natCast hn] at hlex
      change _ = 2 ^ 383 + (if decide ((p - 1) / 2 < n) = true then 2 ^ 381 else 0) + _
      rw [hlex]
      generalize beVal bs = v at *
      clear hlex ha hy h hl
      simp only [decide_eq_true_eq]
      norm_num at *
      split_ifs <;> omega

theorem G1.decode_lenient {P : E1 K} {bs : List UInt8} (h : Lenient1 P bs) :
    ∃ a : G1 K, G1.fromCompressedBytesBE bs = some a ∧ a.Rep P := by
  obtain ⟨hl, h⟩ := h
  have hlt := beVal_lt bs
  rw [hl] at hlt
  match P, h with
  | .zero, h =>
    refine ⟨⟨0, 1, 0⟩, (G1.decode_iff hl _).2 ?_, rfl⟩
    change _ ≤ beVal bs at h
    generalize beVal bs = v at *
    norm_num at *
    omega
  | .some x y hn, h =>
    obtain ⟨nx, ny, hx, hy, rfl, rfl, hv⟩ := h
    have e := point_equation hn
    have key : 2 ^ 383 ≤ beVal bs ∧ beVal bs % 2 ^ 383 < 2 ^ 382 ∧ beVal bs % 2 ^ 381 = nx ∧
        (2 ^ 381 ≤ beVal bs % 2 ^ 382 ↔ larger ny = true) := by
      rw [hv]
      clear hv hn e hy hlt
      generalize larger ny = s at *
      norm_num at *
      cases s <;> simp <;> omega
    refine ⟨⟨nx, ny, 1⟩, (G1.decode_iff hl _).2 ⟨key.1, Or.inr ⟨key.2.1, ny, ?_, ?_, ?_⟩⟩,
      one_ne_zero, by simp, by simp⟩
    · rw [key.2.2.1]
    · change (ny : K) * ny = nx * nx * nx + 4
      linear_combination e
    · rw [FpC.lexLargest_natCast hy, Bool.eq_iff_iff, decide_eq_true_iff (p := 2 ^ 381 ≤ _), key.2.2.2, larger]

theorem G2.decode_lenient_mp {bs : List UInt8} (hl : bs.length = 96) {a : G2 K}
    (h : G2.fromCompressedBytesBE bs = some a) : ∃ P : E2 K, a.Rep P ∧ Lenient2 P bs := by
  obtain ⟨hv0, hlt1, hlt0⟩ := span_val hl
  obtain ⟨h1, ⟨hi, rfl⟩ | ⟨hi, hc, y, ha, hy, hlex⟩⟩ := (G2.decode_iff hl a).1 h
  · refine ⟨0, rfl, hl, ?_⟩
    change (2 ^ 383 + 2 ^ 382) * 2 ^ 384 ≤ beVal bs
    rw [hv0]
    generalize beVal (span bs 0 48) = v at *
    generalize beVal (span bs 48 48) = w at *
    norm_num at *
    omega
  · have hon := (goodCurve2 K).nonsingular (x := a.x) (y := y) (by linear_combination hy)
    refine ⟨.some a.x y hon, ?_, ⟨hl, ?_⟩⟩
    · have ez : a.z = 1 := by rw [ha]
      have ey : a.y = y := by rw [ha]
      refine ⟨by rw [ez]; exact one_ne_zero, by rw [ez]; simp, by rw [ez, ey]; simp⟩
    · obtain ⟨y0, y1⟩ := y
      obtain ⟨y0, hy0, rfl⟩ := FpC.exists_nat y0
      obtain ⟨y1, hy1, rfl⟩ := FpC.exists_nat y1
      refine ⟨_, _, y0, y1, hc, Nat.mod_lt _ (by decide +kernel), hy0, hy1, by rw [ha], rfl, ?_⟩
      rw [Fp2.lexLargest_natCast hy0 hy1] at hlex
      rw [hlex, hv0]
      generalize beVal (span bs 0 48) = v at *
      generalize beVal (span bs 48 48) = w at *
      clear hlex ha hy h hl
      simp only [decide_eq_true_eq]
      norm_num at *
      split_ifs <;> omega

theorem G2.decode_lenient {P : E2 K} {bs : List UInt8} (h : Lenient2 P bs) :
    ∃ a : G2 K, G2.fromCompressedBytesBE bs = some a ∧ a.Rep P := by
  obtain ⟨hl, h⟩ := h
  obtain ⟨hv0, hlt1, hlt0⟩ := span_val hl
  match P, h with
  | .zero, h =>
    refine ⟨⟨0, 1, 0⟩, (G2.decode_iff hl _).2 ?_, rfl⟩
    change _ ≤ beVal bs at h
    rw [hv0] at h
    generalize beVal (span bs 0 48) = v at *
    generalize beVal (span bs 48 48) = w at *
    norm_num at *
    omega
  | .some x y hn, h =>
    obtain ⟨x0, x1, y0, y1, hx0, hx1, hy0, hy1, rfl, rfl, hv⟩ := h
    have hp := p_lt_381
    have e := point_equation hn
    have hv1 : beVal (span bs 0 48) = 2 ^ 383 + (if larger2 y0 y1 then 2 ^ 381 else 0) + x1 ∧
        beVal (span bs 48 48) = x0 := by
      rw [hv0] at hv
      clear hn e
      generalize larger2 y0 y1 = s at *
      generalize p = P at *
      norm_num at *
      cases s <;> simp at * <;> omega
    have key : 2 ^ 383 ≤ beVal (span bs 0 48) ∧ beVal (span bs 0 48) % 2 ^ 383 < 2 ^ 382 ∧
        beVal (span bs 0 48) % 2 ^ 381 = x1 ∧
        (2 ^ 381 ≤ beVal (span bs 0 48) % 2 ^ 382 ↔ larger2 y0 y1 = true) := by
      rw [hv1.1]
      clear hv0 hv hv1 hn e
      generalize larger2 y0 y1 = s at *
      generalize p = P at *
      norm_num at *
      cases s <;> simp <;> omega
    refine ⟨⟨⟨x0, x1⟩, ⟨y0, y1⟩, 1⟩, (G2.decode_iff hl _).2 ⟨key.1, Or.inr ⟨key.2.1, ?_, ⟨y0, y1⟩, ?_, ?_, ?_⟩⟩,
      one_ne_zero, by simp, by simp⟩
    · rw [hv1.2]; exact hx0
    · rw [key.2.2.1, hv1.2]
    · linear_combination e
    · rw [Fp2.lexLargest_natCast hy0 hy1, Bool.eq_iff_iff, decide_eq_true_iff (p := 2 ^ 381 ≤ _), key.2.2.2]

theorem Jac.affine_inf {F : Type} [Field F] [Ops F] [LawfulOps F] {a : Jac F} (h : a.z = 0) : a.affine = a := by
  rw [Jac.affine, Jac.isZero_iff.2 h, Bool.true_or, if_pos rfl]

/-- The encoder writes the stored coordinates of infinity as if they were those of a finite point. -/
theorem G1.encode_inf {a : G1 K} (hz : a.z = 0) (h : ¬ (a.x = 0 ∧ a.y = 0)) {nx ny : ℕ} (hx : nx < p) (hy : ny < p)
    (ex : a.x = nx) (ey : a.y = ny) : (G1.toCompressedBytesBE a).length = 48 ∧
      beVal (G1.toCompressedBytesBE a) = 2 ^ 383 + (if larger ny then 2 ^ 381 else 0) + nx := by
  rw [G1.toCompressedBytesBE, Jac.affine_inf hz]
  have hne : ¬ (Ops.isZero a.x && Ops.isZero a.y) = true := by
    rwa [Bool.and_eq_true, LawfulOps.isZero_iff, LawfulOps.isZero_iff]
  simp only [if_neg hne]
  rw [ex, ey, FpC.lexLargest_natCast hy]
  change (List.modify (if larger ny = true then _ else _) 0 _).length = 48 ∧
    beVal (List.modify (if larger ny = true then _ else _) 0 _) = _
  obtain ⟨el, ev⟩ := FpC.toBytesBE_spec (K := K) hx
  generalize FpC.toBytesBE (nx : K) = bs at *
  have hp := p_lt_381
  have hb : beVal (if larger ny = true then bs.modify 0 (· ||| 0x20) else bs) =
      nx + (if larger ny = true then 2 ^ 381 else 0) := by
    split_ifs
    · rw [head_or20 (n := 47) el (by rw [ev]; norm_num at *; omega), ev,
        show 32 * 256 ^ 47 = 2 ^ 381 by decide +kernel]
    · rw [ev]; rfl
  have hl' : (if larger ny = true then bs.modify 0 (· ||| 0x20) else bs).length = 48 := by
    split_ifs
    · rw [List.length_modify, el]
    · exact el
  refine ⟨by rw [List.length_modify, hl'], ?_⟩
  rw [head_or80 (n := 47) hl', hb]
  · norm_num
    omega
  · rw [hb]
    clear hb hl'
    norm_num at *
    split_ifs <;> omega

theorem G2.encode_inf {a : G2 K} (hz : a.z = 0) (h : ¬ (a.x = 0 ∧ a.y = 0)) {x0 x1 y0 y1 : ℕ} (hx0 : x0 < p) (hx1 : x1 < p)
    (hy0 : y0 < p) (hy1 : y1 < p) (ex : a.x = ⟨(x0 : K), (x1 : K)⟩) (ey : a.y = ⟨(y0 : K), (y1 : K)⟩) :
    (G2.toCompressedBytesBE a).length = 96 ∧ beVal (G2.toCompressedBytesBE a) =
      (2 ^ 383 + (if larger2 y0 y1 then 2 ^ 381 else 0) + x1) * 2 ^ 384 + x0 := by
  rw [G2.toCompressedBytesBE, Jac.affine_inf hz]
  have hne : ¬ (Ops.isZero a.x && Ops.isZero a.y) = true := by
    rwa [Bool.and_eq_true, LawfulOps.isZero_iff, LawfulOps.isZero_iff]
  simp only [if_neg hne]
  rw [ex, ey]
  obtain ⟨el0, ev0⟩ := FpC.toBytesBE_spec (K := K) hx0
  obtain ⟨el1, ev1⟩ := FpC.toBytesBE_spec (K := K) hx1
  rw [Fp2.lexLargest_natCast hy0 hy1]
  have el : (FpC.toBytesBE (x1 : K) ++ FpC.toBytesBE (x0 : K)).length = 95 + 1 := by
    rw [List.length_append, el0, el1]
  have ev : beVal (FpC.toBytesBE (x1 : K) ++ FpC.toBytesBE (x0 : K)) = x1 * 2 ^ 384 + x0 := by
    rw [beVal_append, ev0, ev1, el0]; rfl
  change (List.modify (if larger2 y0 y1 = true then List.modify (FpC.toBytesBE (x1 : K) ++ FpC.toBytesBE (x0 : K)) _ _ else
    FpC.toBytesBE (x1 : K) ++ FpC.toBytesBE (x0 : K)) 0 _).length = 96 ∧
    beVal (List.modify (if larger2 y0 y1 = true then List.modify (FpC.toBytesBE (x1 : K) ++ FpC.toBytesBE (x0 : K)) _ _ else
    FpC.toBytesBE (x1 : K) ++ FpC.toBytesBE (x0 : K)) 0 _) = _
  generalize FpC.toBytesBE (x1 : K) ++ FpC.toBytesBE (x0 : K) = bs at *
  have hp := p_lt_381
  have hb : beVal (if larger2 y0 y1 = true then bs.modify 0 (· ||| 0x20) else bs) =
      (x1 + (if larger2 y0 y1 = true then 2 ^ 381 else 0)) * 2 ^ 384 + x0 := by
    split_ifs
    · rw [head_or20 (n := 95) el (by rw [ev]; norm_num at *; omega), ev]
      norm_num; omega
    · rw [ev]; rfl
  have hl' : (if larger2 y0 y1 = true then bs.modify 0 (· ||| 0x20) else bs).length = 95 + 1 := by
    split_ifs
    · rw [List.length_modify, el]
    · exact el
  refine ⟨by rw [List.length_modify, hl'], ?_⟩
  rw [head_or80 (n := 95) hl', hb]
  · clear hb hl'
    norm_num
    split_ifs <;> omega
  · rw [hb]
    clear hb hl'
    norm_num at *
    split_ifs <;> omega

/-- Infinity survives the compressed form of `g1` exactly if its stored coordinates are zeros. -/
theorem G1.inf_iff {a : G1 K} (hz : a.z = 0) :
    (Lenient1 (0 : E1 K) (G1.toCompressedBytesBE a) ↔ a.x = 0 ∧ a.y = 0) ∧
    (IsCompressed1 (0 : E1 K) (G1.toCompressedBytesBE a) ↔ a.x = 0 ∧ a.y = 0) := by
  have hp := p_lt_381
  by_cases h : a.x = 0 ∧ a.y = 0
  · have e : (0xC0 :: List.replicate 47 0 : List UInt8).length = 48 ∧ beVal (0xC0 :: List.replicate 47 0) = 2 ^ 383 + 2 ^ 382 := by
      decide +kernel
    have : G1.toCompressedBytesBE a = 0xC0 :: List.replicate 47 0 := by
      have h0 : (Ops.isZero a.x && Ops.isZero a.y) = true := by
        rwa [Bool.and_eq_true, LawfulOps.isZero_iff, LawfulOps.isZero_iff]
      rw [G1.toCompressedBytesBE, Jac.affine_inf hz]
      simp only [if_pos h0]
      decide +kernel
    rw [this]
    exact ⟨iff_of_true ⟨e.1, e.2.ge⟩ h, iff_of_true ⟨e.1, e.2⟩ h⟩
  · obtain ⟨nx, hx, ex⟩ := FpC.exists_nat a.x
    obtain ⟨ny, hy, ey⟩ := FpC.exists_nat a.y
    obtain ⟨hl, hv⟩ := G1.encode_inf hz h hx hy ex ey
    constructor <;> refine iff_of_false (fun hc => ?_) h
    · have h1 : 2 ^ 383 + 2 ^ 382 ≤ beVal _ := hc.2
      rw [hv] at h1
      clear hv hc ex ey
      generalize p = P at *
      norm_num at *
      split_ifs at h1 <;> omega
    · have h1 : beVal _ = 2 ^ 383 + 2 ^ 382 := hc.2
      rw [hv] at h1
      clear hv hc ex ey
      generalize p = P at *
      norm_num at *
      split_ifs at h1 <;> omega

theorem G2.inf_iff {a : G2 K} (hz : a.z = 0) :
    (Lenient2 (0 : E2 K) (G2.toCompressedBytesBE a) ↔ a.x = 0 ∧ a.y = 0) ∧
    (IsCompressed2 (0 : E2 K) (G2.toCompressedBytesBE a) ↔ a.x = 0 ∧ a.y = 0) := by
  have hp := p_lt_381
  by_cases h : a.x = 0 ∧ a.y = 0
  · have e : (0xC0 :: List.replicate 95 0 : List UInt8).length = 96 ∧
        beVal (0xC0 :: List.replicate 95 0) = (2 ^ 383 + 2 ^ 382) * 2 ^ 384 := by
      decide +kernel
    have : G2.toCompressedBytesBE a = 0xC0 :: List.replicate 95 0 := by
      have h0 : (Ops.isZero a.x && Ops.isZero a.y) = true := by
        rwa [Bool.and_eq_true, LawfulOps.isZero_iff, LawfulOps.isZero_iff]
      rw [G2.toCompressedBytesBE, Jac.affine_inf hz]
      simp only [if_pos h0]
      decide +kernel
    rw [this]
    exact ⟨iff_of_true ⟨e.1, e.2.ge⟩ h, iff_of_true ⟨e.1, e.2⟩ h⟩
  · obtain ⟨x0, hx0, e0⟩ := FpC.exists_nat a.x.c0
    obtain ⟨x1, hx1, e1⟩ := FpC.exists_nat a.x.c1
    obtain ⟨y0, hy0, e2⟩ := FpC.exists_nat a.y.c0
    obtain ⟨y1, hy1, e3⟩ := FpC.exists_nat a.y.c1
    obtain ⟨hl, hv⟩ := G2.encode_inf hz h hx0 hx1 hy0 hy1 (Fp2.ext e0 e1) (Fp2.ext e2 e3)
    constructor <;> refine iff_of_false (fun hc => ?_) h
    · have h1 : (2 ^ 383 + 2 ^ 382) * 2 ^ 384 ≤ beVal _ := hc.2
      rw [hv] at h1
      clear hv hc e0 e1 e2 e3
      generalize p = P at *
      norm_num at *
      split_ifs at h1 <;> omega
    · have h1 : beVal _ = (2 ^ 383 + 2 ^ 382) * 2 ^ 384 := hc.2
      rw [hv] at h1
      clear hv hc e0 e1 e2 e3
      generalize p = P at *
      norm_num at *
      split_ifs at h1 <;> omega

/-- The decoder of `g1` accepts for `P` exactly the lenient forms of `P`. -/
theorem G1.decode_exact (bs : List UInt8) (hl : bs.length = 48) (P : E1 K) :
    (∃ a : G1 K, G1.fromCompressedBytesBE bs = some a ∧ a.Rep P) ↔ Lenient1 P bs := by
  refine ⟨fun ⟨a, h, hr⟩ => ?_, G1.decode_lenient⟩
  obtain ⟨Q, hQ, hL⟩ := G1.decode_lenient_mp hl h
  rwa [Jac.Rep.unique hr hQ]

theorem G2.decode_exact (bs : List UInt8) (hl : bs.length = 96) (P : E2 K) :
    (∃ a : G2 K, G2.fromCompressedBytesBE bs = some a ∧ a.Rep P) ↔ Lenient2 P bs := by
  refine ⟨fun ⟨a, h, hr⟩ => ?_, G2.decode_lenient⟩
  obtain ⟨Q, hQ, hL⟩ := G2.decode_lenient_mp hl h
  rwa [Jac.Rep.unique hr hQ]

theorem IsCompressed1.lenient {P : E1 K} {bs : List UInt8} (h : IsCompressed1 P bs) : Lenient1 P bs := by
  obtain ⟨hl, h⟩ := h
  refine ⟨hl, ?_⟩
  match P, h with
  | .zero, h => exact Eq.ge (a := beVal bs) h
  | .some x y hn, ⟨nx, ny, hx, h⟩ => exact ⟨nx, ny, hx.trans p_lt_381, h⟩

theorem IsCompressed2.lenient {P : E2 K} {bs : List UInt8} (h : IsCompressed2 P bs) : Lenient2 P bs := by
  obtain ⟨hl, h⟩ := h
  refine ⟨hl, ?_⟩
  match P, h with
  | .zero, h => exact Eq.ge (a := beVal bs) h
  | .some x y hn, ⟨x0, x1, y0, y1, hx0, hx1, h⟩ => exact ⟨x0, x1, y0, y1, hx0, hx1.trans p_lt_381, h⟩

theorem two_p : 2 ^ 381 < 2 * p := by decide +kernel

theorem G1.rep_affine {x y : K} (hn : (curve (4 : K)).Nonsingular x y) :
    Jac.Rep (⟨x, y, 1⟩ : G1 K) (.some x y hn : E1 K) := ⟨one_ne_zero, by simp, by simp⟩

theorem G2.rep_affine {x y : Fp2 K} (hn : (curve (4 * Fp2.xi : Fp2 K)).Nonsingular x y) :
    Jac.Rep (⟨x, y, 1⟩ : G2 K) (.some x y hn : E2 K) := ⟨one_ne_zero, by simp, by simp⟩

theorem cast_sub_p {n : ℕ} (h : p ≤ n) : ((n - p : ℕ) : K) = n := by
  rw [Nat.cast_sub h, IsFp.cast_p, sub_zero]

/-- The lenient forms of a finite point: the standard one and at most one other, larger by `p`. -/
theorem Lenient1.finite {P : E1 K} (h0 : P ≠ 0) {bs : List UInt8} : Lenient1 P bs ↔
    IsCompressed1 P bs ∨ ∃ bs', IsCompressed1 P bs' ∧ bs.length = 48 ∧ beVal bs' % 2 ^ 381 + p < 2 ^ 381 ∧
      beVal bs = beVal bs' + p := by
  have hp := p_lt_381
  have h2p := two_p
  match P with
  | .zero => exact absurd rfl h0
  | .some x y hn =>
    constructor
    · rintro ⟨hl, nx, ny, hx, hy, ex, ey, hv⟩
      by_cases h : nx < p
      · exact .inl ⟨hl, nx, ny, h, hy, ex, ey, hv⟩
      · right
        have hc := G1.encode (G1.rep_affine hn) h0
        refine ⟨_, hc, hl, ?_⟩
        obtain ⟨-, nx', ny', hx', hy', ex', ey', hv'⟩ := hc
        rw [ex, ← cast_sub_p (by omega : p ≤ nx), IsFp.natCast_eq_iff, Nat.mod_eq_of_lt (by omega), Nat.mod_eq_of_lt hx'] at ex'
        rw [ey, IsFp.natCast_eq_iff, Nat.mod_eq_of_lt hy, Nat.mod_eq_of_lt hy'] at ey'
        rw [hv', hv, ← ex', ← ey']
        clear hv hv' ex ey h0 hn
        generalize larger ny = s at *
        generalize p = P at *
        norm_num at *
        cases s <;> simp <;> omega
    · rintro (h | ⟨bs', ⟨-, nx, ny, hx, hy, ex, ey, hv⟩, hl, h1, h2⟩)
      · exact h.lenient
      · refine ⟨hl, nx + p, ny, ?_, hy, ?_, ey, ?_⟩
        · rw [hv] at h1
          clear hv h2 h0 hn ex ey
          generalize larger ny = s at *
          generalize p = P at *
          norm_num at *
          cases s <;> simp at h1 <;> omega
        · rw [ex, Nat.cast_add, IsFp.cast_p, add_zero]
        · rw [h2, hv, add_assoc]

theorem Lenient2.finite {P : E2 K} (h0 : P ≠ 0) {bs : List UInt8} : Lenient2 P bs ↔
    IsCompressed2 P bs ∨ ∃ bs', IsCompressed2 P bs' ∧ bs.length = 96 ∧ beVal bs' / 2 ^ 384 % 2 ^ 381 + p < 2 ^ 381 ∧
      beVal bs = beVal bs' + p * 2 ^ 384 := by
  have hp := p_lt_381
  have h2p := two_p
  match P with
  | .zero => exact absurd rfl h0
  | .some x y hn =>
    constructor
    · rintro ⟨hl, x0, x1, y0, y1, hx0, hx1, hy0, hy1, ex, ey, hv⟩
      by_cases h : x1 < p
      · exact .inl ⟨hl, x0, x1, y0, y1, hx0, h, hy0, hy1, ex, ey, hv⟩
      · right
        have hc := G2.encode (G2.rep_affine hn) h0
        refine ⟨_, hc, hl, ?_⟩
        obtain ⟨-, x0', x1', y0', y1', hx0', hx1', hy0', hy1', ex', ey', hv'⟩ := hc
        rw [ex] at ex'
        rw [ey] at ey'
        have a1 := congrArg Fp2.c0 ex'
        have a2 := congrArg Fp2.c1 ex'
        have a3 := congrArg Fp2.c0 ey'
        have a4 := congrArg Fp2.c1 ey'
        simp only at a1 a2 a3 a4
        rw [IsFp.natCast_eq_iff, Nat.mod_eq_of_lt hx0, Nat.mod_eq_of_lt hx0'] at a1
        rw [← cast_sub_p (by omega : p ≤ x1), IsFp.natCast_eq_iff, Nat.mod_eq_of_lt (by omega), Nat.mod_eq_of_lt hx1'] at a2
        rw [IsFp.natCast_eq_iff, Nat.mod_eq_of_lt hy0, Nat.mod_eq_of_lt hy0'] at a3
        rw [IsFp.natCast_eq_iff, Nat.mod_eq_of_lt hy1, Nat.mod_eq_of_lt hy1'] at a4
        rw [hv', hv, ← a1, ← a2, ← a3, ← a4]
        clear hv hv' ex ey ex' ey' h0 hn
        generalize larger2 y0 y1 = s at *
        generalize p = P at *
        norm_num at *
        cases s <;> simp <;> omega
    · rintro (h | ⟨bs', ⟨-, x0, x1, y0, y1, hx0, hx1, hy0, hy1, ex, ey, hv⟩, hl, h1, h2⟩)
      · exact h.lenient
      · refine ⟨hl, x0, x1 + p, y0, y1, hx0, ?_, hy0, hy1, ?_, ey, ?_⟩
        · rw [hv] at h1
          clear hv h2 h0 hn ex ey
          generalize larger2 y0 y1 = s at *
          generalize p = P at *
          norm_num at *
          cases s <;> simp at h1 <;> omega
        · rw [ex, Nat.cast_add, IsFp.cast_p, add_zero]
        · rw [h2, hv]; ring

theorem G1.roundtrip_iff {a : G1 K} {P : E1 K} (h : a.Rep P) :
    (IsCompressed1 P (G1.toCompressedBytesBE a) ↔ P ≠ 0 ∨ (a.x = 0 ∧ a.y = 0)) ∧
    ((∃ a' : G1 K, G1.fromCompressedBytesBE (G1.toCompressedBytesBE a) = some a' ∧ a'.Rep P) ↔
      P ≠ 0 ∨ (a.x = 0 ∧ a.y = 0)) := by
  by_cases h0 : P = 0
  · subst h0
    obtain ⟨h1, h2⟩ := G1.inf_iff (a := a) h
    have e : ((0 : E1 K) ≠ 0 ∨ (a.x = 0 ∧ a.y = 0)) ↔ (a.x = 0 ∧ a.y = 0) := or_iff_right (fun h => h rfl)
    rw [e]
    refine ⟨h2, ⟨fun h3 => h1.1 ?_, fun h3 => G1.decode_compressed (h2.2 h3)⟩⟩
    refine (G1.decode_exact _ ?_ _).1 h3
    by_cases hc : a.x = 0 ∧ a.y = 0
    · exact (h2.2 hc).1
    · obtain ⟨nx, hx, ex⟩ := FpC.exists_nat a.x
      obtain ⟨ny, hy, ey⟩ := FpC.exists_nat a.y
      exact (G1.encode_inf h hc hx hy ex ey).1
  · exact ⟨iff_of_true (G1.encode h h0) (.inl h0), iff_of_true (G1.decode_compressed (G1.encode h h0)) (.inl h0)⟩

theorem G2.roundtrip_iff {a : G2 K} {P : E2 K} (h : a.Rep P) :
    (IsCompressed2 P (G2.toCompressedBytesBE a) ↔ P ≠ 0 ∨ (a.x = 0 ∧ a.y = 0)) ∧
    ((∃ a' : G2 K, G2.fromCompressedBytesBE (G2.toCompressedBytesBE a) = some a' ∧ a'.Rep P) ↔
      P ≠ 0 ∨ (a.x = 0 ∧ a.y = 0)) := by
  by_cases h0 : P = 0
  · subst h0
    obtain ⟨h1, h2⟩ := G2.inf_iff (a := a) h
    have e : ((0 : E2 K) ≠ 0 ∨ (a.x = 0 ∧ a.y = 0)) ↔ (a.x = 0 ∧ a.y = 0) := or_iff_right (fun h => h rfl)
    rw [e]
    refine ⟨h2, ⟨fun h3 => h1.1 ?_, fun h3 => G2.decode_compressed (h2.2 h3)⟩⟩
    refine (G2.decode_exact _ ?_ _).1 h3
    by_cases hc : a.x = 0 ∧ a.y = 0
    · exact (h2.2 hc).1
    · obtain ⟨x0, hx0, e0⟩ := FpC.exists_nat a.x.c0
      obtain ⟨x1, hx1, e1⟩ := FpC.exists_nat a.x.c1
      obtain ⟨y0, hy0, e2⟩ := FpC.exists_nat a.y.c0
      obtain ⟨y1, hy1, e3⟩ := FpC.exists_nat a.y.c1
      exact (G2.encode_inf h hc hx0 hx1 hy0 hy1 (Fp2.ext e0 e1) (Fp2.ext e2 e3)).1
  · exact ⟨iff_of_true (G2.encode h h0) (.inl h0), iff_of_true (G2.decode_compressed (G2.encode h h0)) (.inl h0)⟩

theorem G1.reencode_iff {bs : List UInt8} (hl : bs.length = 48) {a : G1 K} (h : G1.fromCompressedBytesBE bs = some a) :
    G1.toCompressedBytesBE a = bs ↔ beVal bs % 2 ^ 383 < 2 ^ 382 ∧ beVal bs % 2 ^ 381 < p := by
  refine ⟨fun he => ?_, fun ⟨h1, h2⟩ => ?_⟩
  · obtain ⟨h1, ⟨hi, rfl⟩ | ⟨hi, y, ha, hy, hlex⟩⟩ := (G1.decode_iff hl a).1 h
    · have hz := (G1.encode_zero (K := K)).1
      have e0 : (Jac.zero : G1 K) = ⟨0, 1, 0⟩ := by rw [Jac.zero, LawfulOps.zero_eq, LawfulOps.one_eq]
      rw [e0, he] at hz
      rw [hz] at hi
      exact absurd hi (by decide +kernel)
    · refine ⟨hi, ?_⟩
      obtain ⟨P, hP, -⟩ := G1.decode_point hl h
      have h0 : P ≠ 0 := by
        rintro rfl
        have hz : a.z = 0 := hP
        rw [ha] at hz
        exact one_ne_zero hz
      have hc := G1.encode hP h0
      rw [he] at hc
      match P, hc with
      | .some x y hn, ⟨_, nx, ny, hx, hy, ex, ey, hv⟩ =>
        have hp := p_lt_381
        rw [hv]
        clear hv hlex hi h1 h0 ha hP ex ey hn
        generalize larger ny = s at *
        generalize p = P at *
        norm_num at *
        cases s <;> simp <;> omega
  · obtain ⟨P, -, -, h3⟩ := G1.decode_canonical hl h h1 h2
    exact h3

theorem G2.reencode_iff {bs : List UInt8} (hl : bs.length = 96) {a : G2 K} (h : G2.fromCompressedBytesBE bs = some a) :
    G2.toCompressedBytesBE a = bs ↔ beVal (chunk bs 0) % 2 ^ 383 < 2 ^ 382 ∧ beVal (chunk bs 0) % 2 ^ 381 < p := by
  refine ⟨fun he => ?_, fun ⟨h1, h2⟩ => ?_⟩
  · have hs := span_val hl
    obtain ⟨h1, ⟨hi, rfl⟩ | ⟨hi, hc, y, ha, hy, hlex⟩⟩ := (G2.decode_iff hl a).1 h
    · have hz := (G2.encode_zero (K := K)).1
      have e0 : (Jac.zero : G2 K) = ⟨0, 1, 0⟩ := by rw [Jac.zero, LawfulOps.zero_eq, LawfulOps.one_eq]
      rw [e0, he] at hz
      rw [hz] at hs
      have e : 2 ^ 767 = 2 ^ 383 * 2 ^ 384 := by decide +kernel
      generalize beVal (span bs 0 48) = v1 at *
      generalize beVal (span bs 48 48) = v0 at *
      have : v1 = 2 ^ 383 := by rw [e] at hs; norm_num at *; omega
      rw [this] at hi
      exact absurd hi (by decide +kernel)
    · refine ⟨hi, ?_⟩
      obtain ⟨P, hP, -⟩ := G2.decode_point hl h
      have h0 : P ≠ 0 := by
        rintro rfl
        have hz : a.z = 0 := hP
        rw [ha] at hz
        exact one_ne_zero hz
      have hc' := G2.encode hP h0
      rw [he] at hc'
      match P, hc' with
      | .some x y hn, ⟨_, x0, x1, y0, y1, hx0, hx1, hy0, hy1, ex, ey, hv⟩ =>
        have hp := p_lt_381
        change beVal (span bs 0 48) % 2 ^ 381 < p
        rw [hv] at hs
        clear hv hlex ha h0 hP ex ey hn
        generalize larger2 y0 y1 = s at *
        generalize beVal (span bs 0 48) = v1 at *
        generalize beVal (span bs 48 48) = v0 at *
        generalize p = P at *
        norm_num at *
        cases s <;> simp at hs <;> omega
  · obtain ⟨P, -, -, h3⟩ := G2.decode_canonical hl h h1 h2
    exact h3

end Bls
