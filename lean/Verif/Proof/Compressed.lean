import Verif.Spec.GroupCodec
import Verif.Proof.GroupCodec
import Verif.Proof.Roots

/-! Compressed point codecs. -/

namespace Bls

open WeierstrassCurve.Affine

/-! ### Numbers and bytes -/

theorem beVal_append (a b : List UInt8) : beVal (a ++ b) = beVal a * 256 ^ b.length + beVal b := by
  rw [beVal_eq, List.reverse_append, leVal_append, List.length_reverse, ← beVal_eq, ← beVal_eq]
  ring

theorem beVal_cons (b : UInt8) (bs : List UInt8) : beVal (b :: bs) = b.toNat * 256 ^ bs.length + beVal bs := by
  have := beVal_append [b] bs
  rw [List.singleton_append] at this
  rw [this]
  congr 2
  simp [beVal]

theorem u8_bit (b : UInt8) : ((b >>> 7) &&& 1 != 1) = decide (b.toNat < 128) ∧
    ((b >>> 6) &&& 1 == 1) = decide (64 ≤ b.toNat % 128) ∧ ((b >>> 5) &&& 1 == 1) = decide (32 ≤ b.toNat % 64) := by
  have h : ∀ n : Fin 256, ((UInt8.ofNat n.1 >>> 7) &&& 1 != 1) = decide (n.1 < 128) ∧
    ((UInt8.ofNat n.1 >>> 6) &&& 1 == 1) = decide (64 ≤ n.1 % 128) ∧
    ((UInt8.ofNat n.1 >>> 5) &&& 1 == 1) = decide (32 ≤ n.1 % 64) := by decide +kernel
  have := h ⟨b.toNat, b.toNat_lt⟩
  rwa [UInt8.ofNat_toNat] at this

theorem u8_or (b : UInt8) : (b.toNat < 32 → (b ||| 0x20).toNat = b.toNat + 32) ∧
    (b.toNat < 128 → (b ||| 0x80).toNat = b.toNat + 128) := by
  have h : ∀ n : Fin 256, (n.1 < 32 → (UInt8.ofNat n.1 ||| 0x20).toNat = n.1 + 32) ∧
    (n.1 < 128 → (UInt8.ofNat n.1 ||| 0x80).toNat = n.1 + 128) := by decide +kernel
  have := h ⟨b.toNat, b.toNat_lt⟩
  rwa [UInt8.ofNat_toNat] at this

/-- The flags read from the first byte of 48. -/
theorem flags {bs : List UInt8} (h : bs.length = 48) :
    ((bs.getD 0 0 >>> 7) &&& 1 != 1) = decide (beVal bs < 2 ^ 383) ∧
    ((bs.getD 0 0 >>> 6) &&& 1 == 1) = decide (2 ^ 382 ≤ beVal bs % 2 ^ 383) ∧
    ((bs.getD 0 0 >>> 5) &&& 1 == 1) = decide (2 ^ 381 ≤ beVal bs % 2 ^ 382) := by
  match bs, h with
  | b :: r, h =>
    have hr : r.length = 47 := by simpa using h
    have h1 := beVal_lt r
    have h2 := beVal_cons b r
    rw [hr] at h1 h2
    have := u8_bit b
    rw [List.getD_cons_zero, this.1, this.2.1, this.2.2, h2]
    have hb := b.toNat_lt
    generalize b.toNat = n at *
    generalize beVal r = m at *
    norm_num at h1 hb ⊢
    omega

theorem head_or20 {bs : List UInt8} {n : ℕ} (hl : bs.length = n + 1) (h : beVal bs < 32 * 256 ^ n) :
    beVal (bs.modify 0 (· ||| 0x20)) = beVal bs + 32 * 256 ^ n := by
  match bs, hl with
  | b :: r, hl =>
    have hr : r.length = n := by simpa using hl
    have h2 := beVal_cons b r
    rw [hr] at h2
    rw [List.modify_zero_cons, beVal_cons, hr, h2]
    have hb : b.toNat < 32 := by
      by_contra hc
      have : 32 * 256 ^ n ≤ b.toNat * 256 ^ n := Nat.mul_le_mul_right _ (by omega)
      omega
    rw [(u8_or b).1 hb]
    ring

theorem head_or80 {bs : List UInt8} {n : ℕ} (hl : bs.length = n + 1) (h : beVal bs < 128 * 256 ^ n) :
    beVal (bs.modify 0 (· ||| 0x80)) = beVal bs + 128 * 256 ^ n := by
  match bs, hl with
  | b :: r, hl =>
    have hr : r.length = n := by simpa using hl
    have h2 := beVal_cons b r
    rw [hr] at h2
    rw [List.modify_zero_cons, beVal_cons, hr, h2]
    have hb : b.toNat < 128 := by
      by_contra hc
      have : 128 * 256 ^ n ≤ b.toNat * 256 ^ n := Nat.mul_le_mul_right _ (by omega)
      omega
    rw [(u8_or b).2 hb]
    ring

theorem p_lt_381 : p < 2 ^ 381 := by decide +kernel

section

variable {K : Type} [Field K] [FpOps K] [LawfulFp K]

theorem and_mask61 (x : UInt64) : (x &&& 0x1FFFFFFFFFFFFFFF).toNat = x.toNat % 2 ^ 61 := by
  rw [UInt64.toNat_and]
  exact Nat.and_two_pow_sub_one_eq_mod _ 61

theorem FpC.fromMasked_eq {bs : List UInt8} (h : bs.length = 48) :
    (FpC.fromMasked bs : K) = ((beVal bs % 2 ^ 381 : ℕ) : K) := by
  have hb : (Fp.ofWords (Scalar.fromBytesBE 6 bs)).val = beVal bs := by
    rw [Fp.ofWords_val (Scalar.fromBytesBE_length 6 bs), Scalar.fromBytesBE_val 6 bs (by omega)]
  rw [FpC.fromMasked, LawfulFp.toMont_eq, ← hb]
  congr 1
  generalize Fp.ofWords (Scalar.fromBytesBE 6 bs) = e
  have h0 := u64_lt e.d0; have h1 := u64_lt e.d1; have h2 := u64_lt e.d2
  have h3 := u64_lt e.d3; have h4 := u64_lt e.d4; have h5 := u64_lt e.d5
  simp only [Fp.val, and_mask61]
  set_option exponentiation.threshold 1000 in omega

theorem FpC.fromBytesBE_eq {bs : List UInt8} (h : bs.length = 48) :
    (FpC.fromBytesBE bs : Option K) = if beVal bs < p then some ((beVal bs : ℕ) : K) else none := by
  have hb : (Fp.ofWords (Scalar.fromBytesBE 6 bs)).val = beVal bs := by
    rw [Fp.ofWords_val (Scalar.fromBytesBE_length 6 bs), Scalar.fromBytesBE_val 6 bs (by omega)]
  rw [FpC.fromBytesBE]
  by_cases hv : beVal bs < p
  · rw [if_pos hv, if_neg, LawfulFp.toMont_eq, hb]
    rw [(Fp.isValid_iff _).2 (by rw [hb]; exact hv)]
    decide
  · rw [if_neg hv, if_pos]
    rw [Bool.not_eq_true', ← Bool.not_eq_true, Fp.isValid_iff, hb]
    exact hv

theorem FpC.toBytesBE_spec {n : ℕ} (h : n < p) : (FpC.toBytesBE (n : K)).length = 48 ∧
    beVal (FpC.toBytesBE (n : K)) = n := by
  rw [FpC.toBytesBE, Scalar.toBytesBE_length, Scalar.toBytesBE_val, Fp.words_val, FpC.fromMont_natCast h]
  exact ⟨rfl, rfl⟩

theorem FpC.lexLargest_neg {x : K} (h : x ≠ 0) : FpC.lexLargest (-x) = !FpC.lexLargest x := by
  obtain ⟨n, hn, rfl⟩ := FpC.exists_nat x
  have h0 : n ≠ 0 := by rintro rfl; exact h Nat.cast_zero
  have e : -(n : K) = ((p - n : ℕ) : K) := by
    rw [Nat.cast_sub hn.le, IsFp.cast_p, zero_sub]
  rw [e, FpC.lexLargest_natCast hn, FpC.lexLargest_natCast (by omega), Bool.eq_iff_iff]
  have hp : p = 2 * ((p - 1) / 2) + 1 := by decide +kernel
  generalize (p - 1) / 2 = m at *
  simp only [decide_eq_true_iff, Bool.not_eq_true', decide_eq_false_iff_not]
  omega

theorem FpC.lexLargest_zero : FpC.lexLargest (0 : K) = false := by
  have := FpC.lexLargest_natCast (K := K) (n := 0) (by decide +kernel)
  rw [Nat.cast_zero] at this
  rw [this]
  decide +kernel

theorem Fp2.lexLargest_neg {x : Fp2 K} (h : x ≠ 0) : Fp2.lexLargest (-x) = !Fp2.lexLargest x := by
  rw [Fp2.lexLargest, Fp2.lexLargest]
  have e0 : (-x).c0 = -x.c0 := rfl
  have e1 : (-x).c1 = -x.c1 := rfl
  rw [e0, e1]
  by_cases h1 : x.c1 = 0
  · have h0 : x.c0 ≠ 0 := fun h0 => h (Fp2.ext h0 h1)
    have hz : Ops.isZero (0 : K) = true := (LawfulOps.isZero_iff _).2 rfl
    rw [h1, neg_zero, FpC.lexLargest_zero, hz, FpC.lexLargest_neg h0]
    cases FpC.lexLargest x.c0 <;> rfl
  · have hz : Ops.isZero x.c1 = false := Ops.isZero_false.2 h1
    have hz' : Ops.isZero (-x.c1) = false := Ops.isZero_false.2 (neg_ne_zero.2 h1)
    rw [hz, hz', FpC.lexLargest_neg h1]
    cases FpC.lexLargest x.c1 <;> rfl

theorem Fp2.lexLargest_natCast {y0 y1 : ℕ} (h0 : y0 < p) (h1 : y1 < p) :
    Fp2.lexLargest (⟨(y0 : K), (y1 : K)⟩ : Fp2 K) = larger2 y0 y1 := by
  rw [Fp2.lexLargest, larger2]
  change (FpC.lexLargest (y1 : K) || (Ops.isZero (y1 : K) && FpC.lexLargest (y0 : K))) = _
  rw [FpC.lexLargest_natCast h0, FpC.lexLargest_natCast h1]
  by_cases h : y1 = 0
  · subst h
    have hz : Ops.isZero ((0 : ℕ) : K) = true := (LawfulOps.isZero_iff _).2 Nat.cast_zero
    rw [hz, if_pos rfl, larger]
    simp
  · have hz : Ops.isZero (y1 : K) = false := by
      apply Ops.isZero_false.2
      intro hc
      rw [IsFp.natCast_eq_zero_iff, Nat.mod_eq_of_lt h1] at hc
      exact h hc
    rw [hz, if_neg h, larger]
    simp

end

/-! ### The two constants are not cubes, so the root is never zero -/

section

variable {K : Type} [Field K] [IsFp K]

theorem cube1_ne (x : K) : x * x * x + 4 ≠ 0 := by
  intro h
  have h2 := IsFp.two_ne_zero (K := K)
  apply IsFp.two_not_cube (x * x / 2 : K)
  have h3 : (x * x * x) * (x * x * x) = 16 := by linear_combination (x * x * x - 4) * h
  rw [div_pow, div_eq_iff (pow_ne_zero _ h2)]
  linear_combination h3

theorem cube2_ne (x : Fp2 K) : x * x * x + 4 * Fp2.xi ≠ 0 := by
  intro h
  have h1 : x * x * x = -(4 * Fp2.xi) := eq_neg_of_add_eq_zero_left h
  have hn : x.norm * x.norm * x.norm = 32 := by
    rw [← Fp2.norm_mul, ← Fp2.norm_mul, h1]
    simp only [Fp2.norm, Fp2.xi, Fp2.neg_c0, Fp2.neg_c1, Fp2.mul_c0, Fp2.mul_c1]
    have h4 : (4 : Fp2 K) = ⟨4, 0⟩ := by
      rw [show (4 : Fp2 K) = 1 + 1 + 1 + 1 by norm_num]
      ext <;> simp <;> norm_num
    rw [h4]
    ring
  have h2 := IsFp.two_ne_zero (K := K)
  apply IsFp.two_not_cube (x.norm * x.norm / 8 : K)
  have h8 : (8 : K) ≠ 0 := by
    have : (8 : K) = 2 ^ 3 := by norm_num
    rw [this]; exact pow_ne_zero _ h2
  rw [div_pow, div_eq_iff (pow_ne_zero _ h8)]
  linear_combination (x.norm * x.norm * x.norm + 32) * hn

end

/-! ### Choice of the root -/

theorem finish_iff {F : Type} [Field F] {sq : F → F × Bool} (h1 : ∀ x, (sq x).2 = true ↔ IsSquare x)
    (h2 : ∀ x, (sq x).2 = true → (sq x).1 * (sq x).1 = x) {lex : F → Bool}
    (hlex : ∀ y, y ≠ 0 → lex (-y) = !lex y) (x : F) {c : F} (hc : c ≠ 0) (s : Bool) (a : Jac F) :
    (if (!(sq c).2) = true then none
      else some (⟨x, if (lex (sq c).1 ^^ s) = true then -(sq c).1 else (sq c).1, 1⟩ : Jac F)) = some a ↔
    ∃ y, y * y = c ∧ lex y = s ∧ a = ⟨x, y, 1⟩ := by
  cases hs : (sq c).2 with
  | false =>
    refine ⟨fun h => by simp at h, fun ⟨y, hy, _⟩ => ?_⟩
    have := (h1 c).2 ⟨y, hy.symm⟩
    rw [hs] at this
    cases this
  | true =>
    have hr := h2 c hs
    generalize (sq c).1 = r at *
    have hr0 : r ≠ 0 := fun h => hc (by rw [← hr, h, zero_mul])
    rw [if_neg (by simp)]
    have key : ∀ y, y * y = c → y = r ∨ y = -r := fun y hy => mul_self_eq_mul_self_iff.1 (hy.trans hr.symm)
    have hn := hlex r hr0
    constructor
    · intro h
      refine ⟨_, ?_, ?_, (Option.some.inj h).symm⟩
      · split_ifs
        · rw [neg_mul_neg, hr]
        · exact hr
      · split_ifs with h
        · rw [hn]; revert h; cases lex r <;> cases s <;> simp
        · revert h; cases lex r <;> cases s <;> simp
    · rintro ⟨y, hy, hl, rfl⟩
      congr 2
      rcases key y hy with rfl | rfl
      · rw [if_neg]; rw [hl]; simp
      · rw [if_pos]; rw [hn] at hl; rw [← hl]; cases lex r <;> rfl

section

variable {K : Type} [Field K] [FpOps K] [LawfulFp K]

theorem G1.decode_iff {bs : List UInt8} (hl : bs.length = 48) (a : G1 K) :
    G1.fromCompressedBytesBE bs = some a ↔ 2 ^ 383 ≤ beVal bs ∧
      ((2 ^ 382 ≤ beVal bs % 2 ^ 383 ∧ a = ⟨0, 1, 0⟩) ∨
       (beVal bs % 2 ^ 383 < 2 ^ 382 ∧ ∃ y : K, a = ⟨((beVal bs % 2 ^ 381 : ℕ) : K), y, 1⟩ ∧
          y * y = a.x * a.x * a.x + 4 ∧ FpC.lexLargest y = decide (2 ^ 381 ≤ beVal bs % 2 ^ 382))) := by
  obtain ⟨f1, f2, f3⟩ := flags hl
  rw [G1.fromCompressedBytesBE]
  simp only [f1, f2, f3, decide_eq_true_eq, FpC.fromMasked_eq hl, ops_eq]
  by_cases h1 : beVal bs < 2 ^ 383
  · rw [if_pos h1]
    refine ⟨fun h => (by cases h), fun h => absurd h.1 (Nat.not_le.2 h1)⟩
  · rw [if_neg h1]
    have h1' := Nat.not_lt.1 h1
    by_cases h2 : 2 ^ 382 ≤ beVal bs % 2 ^ 383
    · rw [if_pos h2, Jac.zero, LawfulOps.zero_eq, LawfulOps.one_eq]
      constructor
      · intro h; exact ⟨h1', Or.inl ⟨h2, (Option.some.inj h).symm⟩⟩
      · rintro ⟨_, ⟨_, rfl⟩ | ⟨h, _⟩⟩
        · rfl
        · exact absurd h2 (Nat.not_le.2 h)
    · rw [if_neg h2]
      generalize ((beVal bs % 2 ^ 381 : ℕ) : K) = x
      rw [finish_iff FpC.sqrt_iff FpC.sqrt_correct (fun y => FpC.lexLargest_neg) x (cube1_ne x)]
      constructor
      · rintro ⟨y, hy, hly, rfl⟩
        exact ⟨h1', Or.inr ⟨Nat.not_le.1 h2, y, rfl, hy, hly⟩⟩
      · rintro ⟨_, ⟨h, _⟩ | ⟨_, y, rfl, hy, hly⟩⟩
        · exact absurd h h2
        · exact ⟨y, hy, hly, rfl⟩

theorem G2.decode_iff {bs : List UInt8} (hl : bs.length = 96) (a : G2 K) :
    G2.fromCompressedBytesBE bs = some a ↔ 2 ^ 383 ≤ beVal (span bs 0 48) ∧
      ((2 ^ 382 ≤ beVal (span bs 0 48) % 2 ^ 383 ∧ a = ⟨0, 1, 0⟩) ∨
       (beVal (span bs 0 48) % 2 ^ 383 < 2 ^ 382 ∧ beVal (span bs 48 48) < p ∧
        ∃ y : Fp2 K, a = ⟨⟨((beVal (span bs 48 48) : ℕ) : K), ((beVal (span bs 0 48) % 2 ^ 381 : ℕ) : K)⟩, y, 1⟩ ∧
          y * y = a.x * a.x * a.x + 4 * Fp2.xi ∧
          Fp2.lexLargest y = decide (2 ^ 381 ≤ beVal (span bs 0 48) % 2 ^ 382))) := by
  have l1 : (span bs 0 48).length = 48 := span_length (by omega)
  have l2 : (span bs 48 48).length = 48 := span_length (by omega)
  have hh : bs.getD 0 0 = (span bs 0 48).getD 0 0 := by
    match bs, hl with
    | b :: r, _ => rfl
  obtain ⟨f1, f2, f3⟩ := flags l1
  rw [G2.fromCompressedBytesBE, hh]
  simp only [f1, f2, f3, decide_eq_true_eq, FpC.fromMasked_eq l1, FpC.fromBytesBE_eq l2]
  generalize beVal (span bs 0 48) = v1
  generalize beVal (span bs 48 48) = v0
  by_cases h1 : v1 < 2 ^ 383
  · rw [if_pos h1]
    refine ⟨fun h => (by cases h), fun h => absurd h.1 (Nat.not_le.2 h1)⟩
  · rw [if_neg h1]
    have h1' := Nat.not_lt.1 h1
    by_cases h2 : 2 ^ 382 ≤ v1 % 2 ^ 383
    · rw [if_pos h2, Jac.zero, LawfulOps.zero_eq, LawfulOps.one_eq]
      constructor
      · intro h; exact ⟨h1', Or.inl ⟨h2, (Option.some.inj h).symm⟩⟩
      · rintro ⟨_, ⟨_, rfl⟩ | ⟨h, _⟩⟩
        · rfl
        · exact absurd h2 (Nat.not_le.2 h)
    · rw [if_neg h2]
      by_cases h3 : v0 < p
      · rw [if_pos h3]
        simp only [ops_eq]
        generalize (⟨(v0 : K), ((v1 % 2 ^ 381 : ℕ) : K)⟩ : Fp2 K) = x
        rw [finish_iff Fp2.sqrt_iff Fp2.sqrt_correct (fun y => Fp2.lexLargest_neg) x (cube2_ne x)]
        constructor
        · rintro ⟨y, hy, hly, rfl⟩
          exact ⟨h1', Or.inr ⟨Nat.not_le.1 h2, h3, y, rfl, hy, hly⟩⟩
        · rintro ⟨_, ⟨h, _⟩ | ⟨_, _, y, rfl, hy, hly⟩⟩
          · exact absurd h h2
          · exact ⟨y, hy, hly, rfl⟩
      · rw [if_neg h3]
        refine ⟨fun h => (by cases h), ?_⟩
        rintro ⟨_, ⟨h, _⟩ | ⟨_, h, _⟩⟩
        · exact absurd h h2
        · exact absurd h h3

/-! ### Points -/

/-- Every decoded triple stands for a point, and the point tells the fields of the string. -/
theorem G1.decode_point {bs : List UInt8} (hl : bs.length = 48) {a : G1 K}
    (h : G1.fromCompressedBytesBE bs = some a) : ∃ P : E1 K, a.Rep P ∧
      (beVal bs % 2 ^ 383 < 2 ^ 382 → beVal bs % 2 ^ 381 < p → IsCompressed1 P bs) := by
  obtain ⟨h1, ⟨hi, rfl⟩ | ⟨hi, y, ha, hy, hlex⟩⟩ := (G1.decode_iff hl a).1 h
  · exact ⟨0, rfl, fun h => absurd hi (Nat.not_le.2 h)⟩
  · have hon := (goodCurve1 K).nonsingular (x := a.x) (y := y) (by linear_combination hy)
    refine ⟨.some a.x y hon, ?_, fun _ hx => ⟨hl, ?_⟩⟩
    · have ez : a.z = 1 := by rw [ha]
      have ey : a.y = y := by rw [ha]
      refine ⟨by rw [ez]; exact one_ne_zero, by rw [ez]; simp, by rw [ez, ey]; simp⟩
    · obtain ⟨n, hn, rfl⟩ := FpC.exists_nat y
      refine ⟨_, n, hx, hn, by rw [ha], rfl, ?_⟩
      rw [FpC.lexLargest_natCast hn] at hlex
      change _ = 2 ^ 383 + (if decide ((p - 1) / 2 < n) = true then 2 ^ 381 else 0) + _
      rw [hlex]
      have := beVal_lt bs
      rw [hl] at this
      generalize beVal bs = v at *
      clear hlex ha hy h hl hx
      simp only [decide_eq_true_eq]
      norm_num at *
      split_ifs <;> omega

theorem G1.decode_compressed {P : E1 K} {bs : List UInt8} (h : IsCompressed1 P bs) :
    ∃ a : G1 K, G1.fromCompressedBytesBE bs = some a ∧ a.Rep P := by
  obtain ⟨hl, h⟩ := h
  match P, h with
  | .zero, h =>
    refine ⟨⟨0, 1, 0⟩, (G1.decode_iff hl _).2 ?_, rfl⟩
    change beVal bs = _ at h
    rw [h]
    exact ⟨by decide +kernel, Or.inl ⟨by decide +kernel, rfl⟩⟩
  | .some x y hn, h =>
    obtain ⟨nx, ny, hx, hy, rfl, rfl, hv⟩ := h
    have hp := p_lt_381
    have e := point_equation hn
    have key : 2 ^ 383 ≤ beVal bs ∧ beVal bs % 2 ^ 383 < 2 ^ 382 ∧ beVal bs % 2 ^ 381 = nx ∧
        (2 ^ 381 ≤ beVal bs % 2 ^ 382 ↔ larger ny = true) := by
      rw [hv]
      clear hv hn e
      generalize larger ny = s at *
      generalize p = P at *
      norm_num at *
      cases s <;> simp <;> omega
    refine ⟨⟨nx, ny, 1⟩, (G1.decode_iff hl _).2 ⟨key.1, Or.inr ⟨key.2.1, ny, ?_, ?_, ?_⟩⟩,
      one_ne_zero, by simp, by simp⟩
    · rw [key.2.2.1]
    · change (ny : K) * ny = nx * nx * nx + 4
      linear_combination e
    · rw [FpC.lexLargest_natCast hy, Bool.eq_iff_iff, decide_eq_true_iff (p := 2 ^ 381 ≤ _), key.2.2.2, larger]

theorem G1.encode {a : G1 K} {P : E1 K} (h : a.Rep P) (h0 : P ≠ 0) : IsCompressed1 P (G1.toCompressedBytesBE a) := by
  match P, h with
  | .zero, _ => exact absurd rfl h0
  | .some x y hn, h =>
    have e := point_equation hn
    rw [G1.toCompressedBytesBE, Jac.affine_some h]
    have hne : ¬ (Ops.isZero x && Ops.isZero y) = true := by
      rw [Bool.and_eq_true, LawfulOps.isZero_iff, LawfulOps.isZero_iff]
      rintro ⟨rfl, rfl⟩
      exact (goodCurve1 K).const (by linear_combination -e)
    simp only [if_neg hne]
    obtain ⟨nx, hx, rfl⟩ := FpC.exists_nat x
    obtain ⟨ny, hy, rfl⟩ := FpC.exists_nat y
    obtain ⟨el, ev⟩ := FpC.toBytesBE_spec (K := K) hx
    rw [FpC.lexLargest_natCast hy]
    change IsCompressed1 _ (List.modify (if larger ny = true then _ else _) 0 _)
    generalize FpC.toBytesBE (nx : K) = bs at *
    have hp := p_lt_381
    have hb : beVal (if larger ny = true then bs.modify 0 (· ||| 0x20) else bs) =
        nx + (if larger ny = true then 2 ^ 381 else 0) := by
      split_ifs
      · rw [head_or20 (n := 47) el (by rw [ev]; norm_num at *; omega), ev,
          show 32 * 256 ^ 47 = 2 ^ 381 by decide +kernel]
      · rw [ev]; rfl
    have hl' : (if larger ny = true then bs.modify 0 (· ||| 0x20) else bs).length = 48 := by
      split_ifs
      · rw [List.length_modify, el]
      · exact el
    refine ⟨by rw [List.length_modify, hl'], nx, ny, hx, hy, rfl, rfl, ?_⟩
    rw [head_or80 (n := 47) hl', hb]
    · norm_num
      omega
    · rw [hb]
      clear hb hl'
      norm_num at *
      split_ifs <;> omega

theorem IsCompressed1.unique {P : E1 K} {bs bs' : List UInt8} (h : IsCompressed1 P bs) (h' : IsCompressed1 P bs') :
    bs = bs' := by
  obtain ⟨hl, h⟩ := h
  obtain ⟨hl', h'⟩ := h'
  apply beVal_inj (hl.trans hl'.symm)
  match P, h, h' with
  | .zero, h, h' => exact Eq.trans h (Eq.symm h')
  | .some x y hn, h, h' =>
    obtain ⟨nx, ny, hx, hy, ex, ey, hv⟩ := h
    obtain ⟨nx', ny', hx', hy', ex', ey', hv'⟩ := h'
    rw [ex, IsFp.natCast_eq_iff, Nat.mod_eq_of_lt hx, Nat.mod_eq_of_lt hx'] at ex'
    rw [ey, IsFp.natCast_eq_iff, Nat.mod_eq_of_lt hy, Nat.mod_eq_of_lt hy'] at ey'
    rw [hv, hv', ex', ey']

theorem span_val {bs : List UInt8} (hl : bs.length = 96) :
    beVal bs = beVal (span bs 0 48) * 2 ^ 384 + beVal (span bs 48 48) ∧ beVal (span bs 0 48) < 2 ^ 384 ∧
    beVal (span bs 48 48) < 2 ^ 384 := by
  have l1 : (span bs 0 48).length = 48 := span_length (by omega)
  have l2 : (span bs 48 48).length = 48 := span_length (by omega)
  have h := beVal_append (span bs 0 48) (span bs 48 48)
  rw [span_append (by omega), l2] at h
  have h1 := beVal_lt (span bs 0 48)
  have h2 := beVal_lt (span bs 48 48)
  rw [l1] at h1
  rw [l2] at h2
  refine ⟨h, h1, h2⟩

theorem G2.decode_point {bs : List UInt8} (hl : bs.length = 96) {a : G2 K}
    (h : G2.fromCompressedBytesBE bs = some a) : ∃ P : E2 K, a.Rep P ∧
      (beVal (span bs 0 48) % 2 ^ 383 < 2 ^ 382 → beVal (span bs 0 48) % 2 ^ 381 < p → IsCompressed2 P bs) := by
  obtain ⟨h1, ⟨hi, rfl⟩ | ⟨hi, hc, y, ha, hy, hlex⟩⟩ := (G2.decode_iff hl a).1 h
  · exact ⟨0, rfl, fun h => absurd hi (Nat.not_le.2 h)⟩
  · have hon := (goodCurve2 K).nonsingular (x := a.x) (y := y) (by linear_combination hy)
    refine ⟨.some a.x y hon, ?_, fun _ hx => ⟨hl, ?_⟩⟩
    · have ez : a.z = 1 := by rw [ha]
      have ey : a.y = y := by rw [ha]
      refine ⟨by rw [ez]; exact one_ne_zero, by rw [ez]; simp, by rw [ez, ey]; simp⟩
    · obtain ⟨y0, y1⟩ := y
      obtain ⟨n0, hn0, rfl⟩ := FpC.exists_nat y0
      obtain ⟨n1, hn1, rfl⟩ := FpC.exists_nat y1
      refine ⟨_, _, n0, n1, hc, hx, hn0, hn1, by rw [ha], rfl, ?_⟩
      rw [Fp2.lexLargest_natCast hn0 hn1] at hlex
      rw [hlex, (span_val hl).1]
      have := (span_val hl).2.1
      generalize beVal (span bs 0 48) = v at *
      clear hlex ha hy h hl hx
      congr 2
      simp only [decide_eq_true_eq]
      norm_num at *
      split_ifs <;> omega

theorem G2.decode_compressed {P : E2 K} {bs : List UInt8} (h : IsCompressed2 P bs) :
    ∃ a : G2 K, G2.fromCompressedBytesBE bs = some a ∧ a.Rep P := by
  obtain ⟨hl, h⟩ := h
  obtain ⟨hv0, hlt1, hlt0⟩ := span_val hl
  match P, h with
  | .zero, h =>
    refine ⟨⟨0, 1, 0⟩, (G2.decode_iff hl _).2 ?_, rfl⟩
    change beVal bs = _ at h
    rw [hv0] at h
    have h' : beVal (span bs 0 48) = 2 ^ 383 + 2 ^ 382 := by norm_num at *; omega
    rw [h']
    exact ⟨by decide +kernel, Or.inl ⟨by decide +kernel, rfl⟩⟩
  | .some x y hn, h =>
    obtain ⟨x0, x1, y0, y1, hx0, hx1, hy0, hy1, rfl, rfl, hv⟩ := h
    have hp := p_lt_381
    have e := point_equation hn
    have hv1 : beVal (span bs 0 48) = 2 ^ 383 + (if larger2 y0 y1 then 2 ^ 381 else 0) + x1 ∧
        beVal (span bs 48 48) = x0 := by
      rw [hv0] at hv
      clear hn e
      generalize larger2 y0 y1 = s at *
      generalize p = P at *
      norm_num at *
      cases s <;> simp at * <;> omega
    have key : 2 ^ 383 ≤ beVal (span bs 0 48) ∧ beVal (span bs 0 48) % 2 ^ 383 < 2 ^ 382 ∧
        beVal (span bs 0 48) % 2 ^ 381 = x1 ∧
        (2 ^ 381 ≤ beVal (span bs 0 48) % 2 ^ 382 ↔ larger2 y0 y1 = true) := by
      rw [hv1.1]
      clear hv0 hv hv1 hn e
      generalize larger2 y0 y1 = s at *
      generalize p = P at *
      norm_num at *
      cases s <;> simp <;> omega
    refine ⟨⟨⟨x0, x1⟩, ⟨y0, y1⟩, 1⟩, (G2.decode_iff hl _).2 ⟨key.1, Or.inr ⟨key.2.1, ?_, ⟨y0, y1⟩, ?_, ?_, ?_⟩⟩,
      one_ne_zero, by simp, by simp⟩
    · rw [hv1.2]; exact hx0
    · rw [key.2.2.1, hv1.2]
    · linear_combination e
    · rw [Fp2.lexLargest_natCast hy0 hy1, Bool.eq_iff_iff, decide_eq_true_iff (p := 2 ^ 381 ≤ _), key.2.2.2]

theorem G2.encode {a : G2 K} {P : E2 K} (h : a.Rep P) (h0 : P ≠ 0) : IsCompressed2 P (G2.toCompressedBytesBE a) := by
  match P, h with
  | .zero, _ => exact absurd rfl h0
  | .some x y hn, h =>
    have e := point_equation hn
    rw [G2.toCompressedBytesBE, Jac.affine_some h]
    have hne : ¬ (Ops.isZero x && Ops.isZero y) = true := by
      rw [Bool.and_eq_true, LawfulOps.isZero_iff, LawfulOps.isZero_iff]
      rintro ⟨rfl, rfl⟩
      exact (goodCurve2 K).const (by linear_combination -e)
    simp only [if_neg hne]
    obtain ⟨x0, x1⟩ := x
    obtain ⟨y0, y1⟩ := y
    obtain ⟨x0, hx0, rfl⟩ := FpC.exists_nat x0
    obtain ⟨x1, hx1, rfl⟩ := FpC.exists_nat x1
    obtain ⟨y0, hy0, rfl⟩ := FpC.exists_nat y0
    obtain ⟨y1, hy1, rfl⟩ := FpC.exists_nat y1
    obtain ⟨el0, ev0⟩ := FpC.toBytesBE_spec (K := K) hx0
    obtain ⟨el1, ev1⟩ := FpC.toBytesBE_spec (K := K) hx1
    rw [Fp2.lexLargest_natCast hy0 hy1]
    have el : (FpC.toBytesBE (x1 : K) ++ FpC.toBytesBE (x0 : K)).length = 95 + 1 := by
      rw [List.length_append, el0, el1]
    have ev : beVal (FpC.toBytesBE (x1 : K) ++ FpC.toBytesBE (x0 : K)) = x1 * 2 ^ 384 + x0 := by
      rw [beVal_append, ev0, ev1, el0]; rfl
    generalize FpC.toBytesBE (x1 : K) ++ FpC.toBytesBE (x0 : K) = bs at *
    have hp := p_lt_381
    have hb : beVal (if larger2 y0 y1 = true then bs.modify 0 (· ||| 0x20) else bs) =
        (x1 + (if larger2 y0 y1 = true then 2 ^ 381 else 0)) * 2 ^ 384 + x0 := by
      split_ifs
      · rw [head_or20 (n := 95) el (by rw [ev]; norm_num at *; omega), ev]
        norm_num; omega
      · rw [ev]; rfl
    have hl' : (if larger2 y0 y1 = true then bs.modify 0 (· ||| 0x20) else bs).length = 95 + 1 := by
      split_ifs
      · rw [List.length_modify, el]
      · exact el
    refine ⟨by rw [List.length_modify, hl'], x0, x1, y0, y1, hx0, hx1, hy0, hy1, rfl, rfl, ?_⟩
    rw [head_or80 (n := 95) hl', hb]
    · clear hb hl'
      norm_num
      split_ifs <;> omega
    · rw [hb]
      clear hb hl'
      norm_num at *
      split_ifs <;> omega

theorem IsCompressed2.unique {P : E2 K} {bs bs' : List UInt8} (h : IsCompressed2 P bs) (h' : IsCompressed2 P bs') :
    bs = bs' := by
  obtain ⟨hl, h⟩ := h
  obtain ⟨hl', h'⟩ := h'
  apply beVal_inj (hl.trans hl'.symm)
  match P, h, h' with
  | .zero, h, h' => exact Eq.trans h (Eq.symm h')
  | .some x y hn, h, h' =>
    obtain ⟨x0, x1, y0, y1, hx0, hx1, hy0, hy1, ex, ey, hv⟩ := h
    obtain ⟨x0', x1', y0', y1', hx0', hx1', hy0', hy1', ex', ey', hv'⟩ := h'
    rw [ex] at ex'
    rw [ey] at ey'
    have a1 := congrArg Fp2.c0 ex'
    have a2 := congrArg Fp2.c1 ex'
    have a3 := congrArg Fp2.c0 ey'
    have a4 := congrArg Fp2.c1 ey'
    simp only at a1 a2 a3 a4
    rw [IsFp.natCast_eq_iff, Nat.mod_eq_of_lt hx0, Nat.mod_eq_of_lt hx0'] at a1
    rw [IsFp.natCast_eq_iff, Nat.mod_eq_of_lt hx1, Nat.mod_eq_of_lt hx1'] at a2
    rw [IsFp.natCast_eq_iff, Nat.mod_eq_of_lt hy0, Nat.mod_eq_of_lt hy0'] at a3
    rw [IsFp.natCast_eq_iff, Nat.mod_eq_of_lt hy1, Nat.mod_eq_of_lt hy1'] at a4
    rw [hv, hv', a1, a2, a3, a4]

/-! ### Infinity and strings outside the format -/

theorem G1.encode_zero : beVal (G1.toCompressedBytesBE (Jac.zero : G1 K)) = 2 ^ 383 ∧
    (G1.toCompressedBytesBE (Jac.zero : G1 K)).length = 48 := by
  have ha : (Jac.zero : G1 K).affine = ⟨0, 1, 0⟩ := by
    rw [Jac.affine, Jac.isZero_iff.2 LawfulOps.zero_eq, Bool.true_or, if_pos rfl, Jac.zero, LawfulOps.zero_eq,
      LawfulOps.one_eq]
  rw [G1.toCompressedBytesBE, ha]
  have hne : ¬ (Ops.isZero (0 : K) && Ops.isZero (1 : K)) = true := by
    rw [Bool.and_eq_true, LawfulOps.isZero_iff, LawfulOps.isZero_iff]
    exact fun h => one_ne_zero h.2
  simp only [if_neg hne]
  have h1 : FpC.lexLargest (1 : K) = false := by
    have := FpC.lexLargest_natCast (K := K) (n := 1) (by decide +kernel)
    rw [Nat.cast_one] at this
    rw [this]
    decide +kernel
  obtain ⟨el, ev⟩ := FpC.toBytesBE_spec (K := K) (n := 0) (by decide +kernel)
  rw [Nat.cast_zero] at el ev
  rw [h1, if_neg (by decide), head_or80 (n := 47) el (by rw [ev]; norm_num), ev, List.length_modify]
  exact ⟨by decide +kernel, el⟩

theorem G2.encode_zero : beVal (G2.toCompressedBytesBE (Jac.zero : G2 K)) = 2 ^ 767 ∧
    (G2.toCompressedBytesBE (Jac.zero : G2 K)).length = 96 := by
  have ha : (Jac.zero : G2 K).affine = ⟨0, 1, 0⟩ := by
    rw [Jac.affine, Jac.isZero_iff.2 LawfulOps.zero_eq, Bool.true_or, if_pos rfl, Jac.zero, LawfulOps.zero_eq,
      LawfulOps.one_eq]
  rw [G2.toCompressedBytesBE, ha]
  have hne : ¬ (Ops.isZero (0 : Fp2 K) && Ops.isZero (1 : Fp2 K)) = true := by
    rw [Bool.and_eq_true, LawfulOps.isZero_iff, LawfulOps.isZero_iff]
    exact fun h => one_ne_zero h.2
  simp only [if_neg hne]
  have h1 : Fp2.lexLargest (1 : Fp2 K) = false := by
    have := Fp2.lexLargest_natCast (K := K) (y0 := 1) (y1 := 0) (by decide +kernel) (by decide +kernel)
    rw [Nat.cast_one, Nat.cast_zero] at this
    exact this.trans (by decide +kernel)
  obtain ⟨el, ev⟩ := FpC.toBytesBE_spec (K := K) (n := 0) (by decide +kernel)
  rw [Nat.cast_zero] at el ev
  rw [Fp2.zero_c0, Fp2.zero_c1]
  have el2 : (FpC.toBytesBE (0 : K) ++ FpC.toBytesBE (0 : K)).length = 95 + 1 := by
    rw [List.length_append, el]
  have ev2 : beVal (FpC.toBytesBE (0 : K) ++ FpC.toBytesBE (0 : K)) = 0 := by
    rw [beVal_append, ev, zero_mul]
  rw [h1, if_neg (by decide), head_or80 (n := 95) el2 (by rw [ev2]; norm_num), ev2, List.length_modify]
  exact ⟨by decide +kernel, el2⟩

/-- `0x80 00 … 00` is the compressed form of a point `(0, ±2)`. -/
theorem G1.zero_decodes : ∃ (a : G1 K) (P : E1 K),
    G1.fromCompressedBytesBE (G1.toCompressedBytesBE (Jac.zero : G1 K)) = some a ∧ a.Rep P ∧ P ≠ 0 := by
  have h2 : FpC.lexLargest (2 : K) = false := by
    have := FpC.lexLargest_natCast (K := K) (n := 2) (by decide +kernel)
    rw [Nat.cast_ofNat] at this
    rw [this]
    decide +kernel
  have hn : (curve (4 : K)).Nonsingular 0 2 := (goodCurve1 K).nonsingular (by norm_num)
  refine ⟨⟨0, 2, 1⟩, .some 0 2 hn, (G1.decode_iff G1.encode_zero.2 _).2 ?_, ⟨one_ne_zero, by simp, by simp⟩,
    Point.some_ne_zero _⟩
  rw [G1.encode_zero.1]
  refine ⟨le_refl _, Or.inr ⟨by decide +kernel, 2, ?_, by norm_num, ?_⟩⟩
  · rw [show 2 ^ 383 % 2 ^ 381 = 0 by decide +kernel, Nat.cast_zero]
  · rw [h2]; decide +kernel

theorem G2.zero_not_decodes : ¬ ∃ a : G2 K,
    G2.fromCompressedBytesBE (G2.toCompressedBytesBE (Jac.zero : G2 K)) = some a ∧ a.Rep (0 : E2 K) := by
  rintro ⟨a, h, ha⟩
  obtain ⟨h1, ⟨hi, _⟩ | ⟨_, _, y, rfl, _⟩⟩ := (G2.decode_iff G2.encode_zero.2 a).1 h
  · have hv := span_val (G2.encode_zero (K := K)).2
    rw [G2.encode_zero.1] at hv
    generalize beVal (span (toCompressedBytesBE (Jac.zero : G2 K)) 0 48) = v1 at *
    generalize beVal (span (toCompressedBytesBE (Jac.zero : G2 K)) 48 48) = v0 at *
    have e : 2 ^ 767 = 2 ^ 383 * 2 ^ 384 := by decide +kernel
    have : v1 = 2 ^ 383 := by rw [e] at hv; norm_num at *; omega
    rw [this] at hi
    revert hi
    decide +kernel
  · exact one_ne_zero (α := Fp2 K) ha

theorem G1.decode_canonical {bs : List UInt8} (hl : bs.length = 48) {a : G1 K}
    (h : G1.fromCompressedBytesBE bs = some a) (h1 : beVal bs % 2 ^ 383 < 2 ^ 382) (h2 : beVal bs % 2 ^ 381 < p) :
    ∃ P : E1 K, a.Rep P ∧ IsCompressed1 P bs ∧ G1.toCompressedBytesBE a = bs := by
  obtain ⟨P, hP, hc⟩ := G1.decode_point hl h
  refine ⟨P, hP, hc h1 h2, (G1.encode hP ?_).unique (hc h1 h2)⟩
  rintro rfl
  have hv : beVal bs = 2 ^ 383 + 2 ^ 382 := (hc h1 h2).2
  rw [hv] at h1
  revert h1
  decide +kernel

theorem G2.decode_canonical {bs : List UInt8} (hl : bs.length = 96) {a : G2 K}
    (h : G2.fromCompressedBytesBE bs = some a) (h1 : beVal (chunk bs 0) % 2 ^ 383 < 2 ^ 382)
    (h2 : beVal (chunk bs 0) % 2 ^ 381 < p) :
    ∃ P : E2 K, a.Rep P ∧ IsCompressed2 P bs ∧ G2.toCompressedBytesBE a = bs := by
  obtain ⟨P, hP, hc⟩ := G2.decode_point hl h
  refine ⟨P, hP, hc h1 h2, (G2.encode hP ?_).unique (hc h1 h2)⟩
  rintro rfl
  have hv : beVal bs = (2 ^ 383 + 2 ^ 382) * 2 ^ 384 := (hc h1 h2).2
  have hs := span_val hl
  change beVal (span bs 0 48) % _ < _ at h1
  have : beVal (span bs 0 48) = 2 ^ 383 + 2 ^ 382 := by
    rw [hv] at hs
    generalize beVal (span bs 0 48) = v1 at *
    generalize beVal (span bs 48 48) = v0 at *
    clear hv h h2 hP hc
    norm_num at *
    omega
  rw [this] at h1
  revert h1
  decide +kernel

theorem G1.infinity_bits {bs : List UInt8} (hl : bs.length = 48) (h : 2 ^ 383 + 2 ^ 382 ≤ beVal bs) :
    G1.fromCompressedBytesBE bs = some (⟨0, 1, 0⟩ : G1 K) := by
  have hlt := beVal_lt bs
  rw [hl] at hlt
  refine (G1.decode_iff hl _).2 ⟨?_, Or.inl ⟨?_, rfl⟩⟩
  · exact le_trans (Nat.le_add_right _ _) h
  · generalize beVal bs = v at *
    norm_num at *
    omega

theorem G2.infinity_bits {bs : List UInt8} (hl : bs.length = 96) (h : (2 ^ 383 + 2 ^ 382) * 2 ^ 384 ≤ beVal bs) :
    G2.fromCompressedBytesBE bs = some (⟨0, 1, 0⟩ : G2 K) := by
  have hs := span_val hl
  rw [hs.1] at h
  have key : 2 ^ 383 ≤ beVal (span bs 0 48) ∧ 2 ^ 382 ≤ beVal (span bs 0 48) % 2 ^ 383 := by
    generalize beVal (span bs 0 48) = v1 at *
    generalize beVal (span bs 48 48) = v0 at *
    clear hl
    norm_num at *
    omega
  exact (G2.decode_iff hl _).2 ⟨key.1, Or.inl ⟨key.2, rfl⟩⟩

/-- The big-endian bytes of `n < 2^384`. -/
def bytes48 (n : ℕ) : List UInt8 := Scalar.toBytesBE (Fp.ofNat n).words

theorem bytes48_spec {n : ℕ} (h : n < 2 ^ 384) : (bytes48 n).length = 48 ∧ beVal (bytes48 n) = n := by
  rw [bytes48, Scalar.toBytesBE_length, Scalar.toBytesBE_val, Fp.words_val, Fp.ofNat_val n h]
  exact ⟨rfl, rfl⟩

theorem G1.not_canonical : ∃ (bs bs' : List UInt8) (a : G1 K), bs.length = 48 ∧ bs'.length = 48 ∧ bs ≠ bs' ∧
    beVal bs = 2 ^ 383 ∧ beVal bs' = 2 ^ 383 + p ∧
    G1.fromCompressedBytesBE bs = some a ∧ G1.fromCompressedBytesBE bs' = some a := by
  have h2 : FpC.lexLargest (2 : K) = false := by
    have := FpC.lexLargest_natCast (K := K) (n := 2) (by decide +kernel)
    rw [Nat.cast_ofNat] at this
    rw [this]
    decide +kernel
  obtain ⟨l1, v1⟩ := bytes48_spec (n := 2 ^ 383) (by decide +kernel)
  obtain ⟨l2, v2⟩ := bytes48_spec (n := 2 ^ 383 + p) (by decide +kernel)
  refine ⟨_, _, ⟨0, 2, 1⟩, l1, l2, ?_, v1, v2, (G1.decode_iff l1 _).2 ?_, (G1.decode_iff l2 _).2 ?_⟩
  · intro e
    rw [e, v2] at v1
    revert v1
    decide +kernel
  · rw [v1]
    refine ⟨le_refl _, Or.inr ⟨by decide +kernel, 2, ?_, by norm_num, ?_⟩⟩
    · rw [show 2 ^ 383 % 2 ^ 381 = 0 by decide +kernel, Nat.cast_zero]
    · rw [h2]; decide +kernel
  · rw [v2]
    refine ⟨by decide +kernel, Or.inr ⟨by decide +kernel, 2, ?_, by norm_num, ?_⟩⟩
    · rw [show (2 ^ 383 + p) % 2 ^ 381 = p by decide +kernel, IsFp.cast_p]
    · rw [h2]; decide +kernel

end

end Bls
