import Verif.Spec.Unreduced
import Verif.Props.Field
import Verif.Props.Codec

/-!
# C63: field elements that are not reduced

The words of an `fp` are public and `fromBytes` without check and conversion stores any six words. These theorems say
which functions still answer for the residue (`Fp.Means`) and exactly when the others stop doing so.
-/

namespace Bls.Props
open Bls

set_option exponentiation.threshold 1000

theorem means_iff_mod {x : Fp} {a : ZMod p} : x.Means a ↔ x.val % p = (a * 2 ^ 384).val := by
  unfold Fp.Means
  constructor
  · intro h; rw [← h, ZMod.val_natCast]
  · intro h; rw [← ZMod.natCast_mod, h, ZMod.natCast_zmod_val]

/-- `2^384` is not a multiple of `p`. -/
theorem R_ne_zero : (2 ^ 384 : ZMod p) ≠ 0 := fun h => by
  have := R_Rinv
  rw [h, zero_mul] at this
  exact zero_ne_one this

theorem R_ne_zero' : ((2 ^ 384 : ℕ) : ZMod p) ≠ 0 := by
  rw [Nat.cast_pow]; exact R_ne_zero

theorem csub_cast (t : ℕ) : ((X86.csub t : ℕ) : ZMod p) = t := by
  unfold X86.csub
  split_ifs with h
  · rfl
  · rw [Nat.cast_sub (by omega)]; simp

theorem csub_lt_iff (t : ℕ) : X86.csub t < p ↔ t < 2 * p := by
  unfold X86.csub
  have := X86.p_pos
  split_ifs with h <;> omega

theorem wrap_cast {t : ℕ} (h : t < 2 * 2 ^ 384) : ((t % 2 ^ 384 : ℕ) : ZMod p) = t ↔ t < 2 ^ 384 := by
  constructor
  · intro e
    by_contra h'
    have e2 : t = t % 2 ^ 384 + 2 ^ 384 := by omega
    rw [e2, Nat.cast_add] at e
    rw [Nat.add_mod_right, Nat.mod_mod] at e
    exact R_ne_zero' (by linear_combination -e)
  · intro h; rw [Nat.mod_eq_of_lt h]

theorem sum_exact {x y z : Fp} {a b : ZMod p} (hx : x.Means a) (hy : y.Means b)
    (hz : z.val = X86.csub ((x.val + y.val) % 2 ^ 384)) :
    (z.Means (a + b) ↔ x.val + y.val < 2 ^ 384) ∧ (z.Rep (a + b) ↔ x.val + y.val < 2 * p) := by
  have h1 := Fp.val_lt x; have h2 := Fp.val_lt y
  have hp := X86.p_lt
  have hab : ((x.val + y.val : ℕ) : ZMod p) = (a + b) * 2 ^ 384 := by
    rw [Nat.cast_add, hx, hy]; ring
  have hm : z.Means (a + b) ↔ x.val + y.val < 2 ^ 384 := by
    unfold Fp.Means
    rw [hz, csub_cast, ← hab]
    exact wrap_cast (by omega)
  refine ⟨hm, ?_⟩
  have e : z.Rep (a + b) ↔ z.val < p ∧ z.Means (a + b) := Iff.rfl
  rw [e, hm, hz, csub_lt_iff]
  constructor
  · rintro ⟨g1, g2⟩
    rwa [Nat.mod_eq_of_lt g2] at g1
  · intro g
    have g2 : x.val + y.val < 2 ^ 384 := by omega
    rw [Nat.mod_eq_of_lt g2]
    exact ⟨g, g2⟩

/-- The modulus stands for zero without being reduced. -/
theorem modulus_case : MODULUS.Means 0 ∧ ¬ MODULUS.Rep 0 := by
  refine ⟨?_, fun h => ?_⟩
  · unfold Fp.Means
    rw [ MODULUS_val, ZMod.natCast_self, zero_mul]
  · have := h.1
    rw [ MODULUS_val] at this
    exact lt_irrefl _ this

/-- C63: a sum stands for the right residue iff the words do not overflow 384 bits, and is canonical iff the words add
up to less than `2p`; the same for doubling. -/
theorem C63_add (x y : Fp) (a b : ZMod p) (hx : x.Means a) (hy : y.Means b) :
    ((X86.add x y).Means (a + b) ↔ x.val + y.val < 2 ^ 384) ∧
    ((X86.add x y).Rep (a + b) ↔ x.val + y.val < 2 * p) ∧
    ((X86.dbl x).Means (a + a) ↔ 2 * x.val < 2 ^ 384) ∧ ((X86.dbl x).Rep (a + a) ↔ x.val < p) := by
  obtain ⟨h1, h2⟩ := sum_exact hx hy (X86.add_val x y)
  obtain ⟨h3, h4⟩ := sum_exact hx hx (X86.dbl_val x)
  refine ⟨h1, h2, h3.trans (by omega), h4.trans (by omega)⟩

/-- `p + p` stands for zero and is not reduced. -/
example : (X86.add MODULUS MODULUS).Means (0 + 0) ∧ ¬ (X86.add MODULUS MODULUS).Rep (0 + 0) := by
  obtain ⟨h1, h2, -⟩ := C63_add _ _ 0 0 modulus_case.1 modulus_case.1
  rw [h1, h2]
  exact ⟨by decide +kernel, by decide +kernel⟩

/-- C63: a difference stands for the right residue iff the subtrahend exceeds the minuend by at most `p`, and is
canonical iff the words differ by at most `p`, with equality only upwards. -/
theorem C63_sub (x y : Fp) (a b : ZMod p) (hx : x.Means a) (hy : y.Means b) :
    ((X86.sub x y).Means (a - b) ↔ y.val ≤ x.val + p) ∧
    ((X86.sub x y).Rep (a - b) ↔ y.val ≤ x.val + p ∧ x.val < y.val + p) := by
  have h1 := Fp.val_lt x; have h2 := Fp.val_lt y
  have hp := X86.p_lt
  have hp0 := X86.p_pos
  have hR := R_ne_zero'
  have hv := X86.sub_val x y
  have hab : (x.val : ZMod p) - (y.val : ZMod p) = (a - b) * 2 ^ 384 := by rw [hx, hy]; ring
  have key : ∀ w : ℕ, (∃ k : ℕ, w + y.val = x.val + k * p) → (w : ZMod p) = (a - b) * 2 ^ 384 := by
    rintro w ⟨k, hk⟩
    have := congrArg (Nat.cast (R := ZMod p)) hk
    rw [Nat.cast_add, Nat.cast_add, Nat.cast_mul, ZMod.natCast_self, mul_zero, add_zero] at this
    rw [← hab, ← this]; ring
  have hm : (X86.sub x y).Means (a - b) ↔ y.val ≤ x.val + p := by
    unfold Fp.Means
    rw [hv]
    split_ifs with h
    · exact ⟨fun _ => by omega, fun _ => key _ ⟨0, by omega⟩⟩
    · by_cases h' : y.val ≤ x.val + p
      · refine ⟨fun _ => h', fun _ => key _ ⟨1, by omega⟩⟩
      · refine ⟨fun e => ?_, fun e => absurd e h'⟩
        exfalso
        have e1 : (x.val + 2 ^ 384 - y.val + p) % 2 ^ 384 + y.val = x.val + p + 2 ^ 384 := by omega
        have e2 := congrArg (Nat.cast (R := ZMod p)) e1
        rw [Nat.cast_add, Nat.cast_add, Nat.cast_add, ZMod.natCast_self, e, ← hab] at e2
        clear e1 e hv hab key
        generalize (2 ^ 384 : ℕ) = R at e2 hR
        exact hR (by linear_combination -e2)
  refine ⟨hm, ?_⟩
  have e : (X86.sub x y).Rep (a - b) ↔ (X86.sub x y).val < p ∧ (X86.sub x y).Means (a - b) := Iff.rfl
  rw [e, hm, hv]
  split_ifs with h <;> constructor <;> rintro ⟨g1, g2⟩ <;> constructor <;> omega

/-- `p - 0` and `0 - p`. -/
example : (X86.sub MODULUS Fp.zero).Means (0 - 0) ∧ ¬ (X86.sub MODULUS Fp.zero).Rep (0 - 0) ∧ (X86.sub Fp.zero MODULUS).Rep (0 - 0) := by
  obtain ⟨h1, h2⟩ := C63_sub _ _ 0 0 modulus_case.1 Fp.zero_rep.2
  rw [h1, h2, (C63_sub _ _ 0 0 Fp.zero_rep.2 modulus_case.1).2]
  exact ⟨by decide +kernel, by decide +kernel, by decide +kernel⟩

/-- C63: the opposite is right, and then canonical, iff the words are at most `p`. -/
theorem C63_neg (x : Fp) (a : ZMod p) (hx : x.Means a) :
    ((X86.neg x).Means (-a) ↔ x.val ≤ p) ∧ ((X86.neg x).Rep (-a) ↔ x.val ≤ p) := by
  have h1 := Fp.val_lt x
  have hp := X86.p_lt
  have hp0 := X86.p_pos
  have hR := R_ne_zero'
  have hv := X86.neg_val x
  have hab : -(x.val : ZMod p) = -a * 2 ^ 384 := by rw [hx]; ring
  have hm : (X86.neg x).Means (-a) ↔ x.val ≤ p := by
    unfold Fp.Means
    rw [hv, ← hab]
    split_ifs with h
    · rw [h]; simp
    · by_cases h' : x.val ≤ p
      · refine ⟨fun _ => h', fun _ => ?_⟩
        have e : (p + 2 ^ 384 - x.val) % 2 ^ 384 = p - x.val := by omega
        rw [e, Nat.cast_sub h']; simp
      · refine ⟨fun e => ?_, fun e => absurd e h'⟩
        exfalso
        have e1 : (p + 2 ^ 384 - x.val) % 2 ^ 384 + x.val = p + 2 ^ 384 := by omega
        have e2 := congrArg (Nat.cast (R := ZMod p)) e1
        rw [Nat.cast_add, Nat.cast_add, ZMod.natCast_self, e] at e2
        clear e1 e hv hab
        generalize (2 ^ 384 : ℕ) = R at e2 hR
        exact hR (by linear_combination -e2)
  refine ⟨hm, ?_⟩
  have e : (X86.neg x).Rep (-a) ↔ (X86.neg x).val < p ∧ (X86.neg x).Means (-a) := Iff.rfl
  rw [e, hm, hv]
  refine ⟨fun h => h.2, fun h => ⟨?_, h⟩⟩
  split_ifs <;> omega

example : (X86.neg MODULUS).Rep (-0) := (C63_neg _ 0 modulus_case.1).2.2 (by decide +kernel)

/-- C63: one reduced operand is enough for an exact, reduced product, on both dispatch paths. -/
theorem C63_mul (adx : Bool) (x y : Fp) (a b : ZMod p) (hx : x.Means a) (hy : y.Rep b) :
    (X86.mul adx x y).Rep (a * b) ∧ (X86.mul adx y x).Rep (a * b) := by
  have h := X86.rep_mul_of (X86.mul_val adx x y) hx hy.2 (Fp.mul_bound x hy.1)
  refine ⟨h, ?_⟩
  have e : X86.mul adx y x = X86.mul adx x y := Fp.val_inj (by rw [X86.mul_val, X86.mul_val, mul_comm])
  rwa [e]

example (adx : Bool) : (X86.mul adx MODULUS Fp.R1).Rep (0 * 1) := (C63_mul adx _ _ 0 1 modulus_case.1 Fp.R1_rep).1

theorem invLoop_multiple : ∀ (fuel : ℕ) (u v s r : Fp) (k m : ℕ), u.val = p → v.val = m * p → s.val = 1 → r.val = 0 →
    m < 2 ^ fuel → ∃ r' k', Fp.invLoop (fuel + 1) u v s r k = some (r', k') ∧ r'.val = 0 ∧ k' ≤ k + fuel := by
  have hp0 := X86.p_pos
  have hp1 : p % 2 = 1 := by decide +kernel
  have hpl := X86.p_lt
  intro fuel
  induction fuel with
  | zero =>
    intro u v s r k m hu hv hs hr hm
    have hz : v.isZero = true := (Fp.isZero_iff v).2 (by rw [hv, (by omega : m = 0), Nat.zero_mul])
    exact ⟨r, k, by rw [Fp.invLoop, if_pos hz], hr, by omega⟩
  | succ fuel ih =>
    intro u v s r k m hu hv hs hr hm
    rw [Fp.invLoop]
    by_cases hz : v.isZero = true
    · exact ⟨r, k, by rw [if_pos hz], hr, by omega⟩
    · rw [if_neg hz]
      have hm0 : 1 ≤ m := by
        rw [Fp.isZero_iff, hv] at hz
        exact Nat.one_le_iff_ne_zero.2 fun h => hz (by rw [h, Nat.zero_mul])
      have hue : ¬ u.isEven = true := by rw [Fp.isEven_iff, hu]; omega
      rw [if_neg hue]
      have hr2 : r.mul2.val = 0 := by rw [Fp.mul2_val, hr, Nat.mul_zero, Nat.zero_mod]
      have hmp : p ≤ m * p := Nat.le_mul_of_pos_left p hm0
      have hvl := Fp.val_lt v
      by_cases hve : v.isEven = true
      · rw [if_pos hve]
        rw [Fp.isEven_iff, hv] at hve
        have hme : m % 2 = 0 := by
          rcases Nat.mod_two_eq_zero_or_one m with h | h
          · exact h
          · rw [Nat.mul_mod, h, hp1] at hve; omega
        obtain ⟨r', k', h1, h2, h3⟩ := ih u (v.div2 0) s r.mul2 (k + 1) (m / 2) hu
          (by
            rw [Fp.div2_val, hv]
            conv_lhs => rw [← Nat.div_add_mod m 2, hme, Nat.add_zero, Nat.mul_assoc]
            rw [Nat.mul_div_cancel_left _ (by norm_num)]) hs hr2 (by omega)
        exact ⟨r', k', h1, h2, by omega⟩
      · rw [if_neg hve]
        have hlt : ¬ v.lt u = true := by rw [Fp.lt_iff, hv, hu]; omega
        rw [if_neg hlt]
        rw [Fp.isEven_iff, hv] at hve
        have hmo : m % 2 = 1 := by
          rcases Nat.mod_two_eq_zero_or_one m with h | h
          · exact absurd (by rw [Nat.mul_mod, h, Nat.zero_mul]) hve
          · exact h
        have hd : (X86.lsub v u).val = 2 * (m / 2) * p := by
          have e : m = 2 * (m / 2) + 1 := by omega
          have e2 : m * p = 2 * (m / 2) * p + p := by
            conv_lhs => rw [e]
            ring
          rw [X86.lsub_val, hv, hu]
          rw [hv] at hvl
          omega
        obtain ⟨r', k', h1, h2, h3⟩ := ih u ((X86.lsub v u).div2 0) (X86.ladd s r) r.mul2 (k + 1) (m / 2) hu
          (by rw [Fp.div2_val, hd, Nat.mul_assoc, Nat.mul_div_cancel_left _ (by norm_num)])
          (by rw [X86.ladd_val, hs, hr]; rfl) hr2 (by omega)
        exact ⟨r', k', h1, h2, by omega⟩

theorem inverse_multiple (adx : Bool) (x : Fp) (h : p ∣ x.val) : x.inverse adx = Fp.zero := by
  obtain ⟨m, hm⟩ := h
  by_cases h0 : x.val = 0
  · exact Fp.inverse_zero adx h0
  have hp0 := X86.p_pos
  have hpl := X86.p_lt
  have hml : m < 2 ^ 767 := by
    have h1 := Fp.val_lt x
    have : m ≤ x.val := by rw [hm]; exact Nat.le_mul_of_pos_left m hp0
    exact lt_of_le_of_lt this (h1.trans (by norm_num))
  obtain ⟨r, k, h1, h2, -⟩ := invLoop_multiple 767 MODULUS x ⟨1, 0, 0, 0, 0, 0⟩ ⟨0, 0, 0, 0, 0, 0⟩ 0 m
    (by rw [ MODULUS_val]) (by rw [hm, Nat.mul_comm]) Fp.one_val Fp.zero_val hml
  have hr : r = Fp.zero := Fp.val_inj (h2.trans Fp.zero_val.symm)
  subst hr
  unfold Fp.inverse
  rw [if_neg (by rw [Fp.isZero_iff]; exact h0), h1]
  dsimp only
  have hlt : Fp.zero.lt MODULUS = true := by decide +kernel
  rw [if_pos hlt]
  have hu : X86.lsub MODULUS Fp.zero = MODULUS := by
    apply Fp.val_inj
    rw [X86.lsub_val, Fp.zero_val, Nat.sub_zero, Nat.add_mod_right, Nat.mod_eq_of_lt (Fp.val_lt _)]
  rw [hu]
  have hz : ∀ w : Fp, w.val = 0 ∨ w.val = p → X86.mul adx w Fp.R2 = Fp.zero := by
    intro w hw
    have h3 := Fp.toMont_rep adx w
    have h4 : (w.val : ZMod p) = 0 := by
      rcases hw with e | e <;> rw [e]
      · exact Nat.cast_zero
      · exact ZMod.natCast_self p
    rw [h4] at h3
    exact h3.inj Fp.zero_rep
  have hm1 := hz MODULUS (Or.inr (by rw [ MODULUS_val]))
  have hm0 := hz Fp.zero (Or.inl Fp.zero_val)
  have hf : X86.mul adx (if k ≤ 384 then X86.mul adx MODULUS Fp.R2 else MODULUS) Fp.R2 = Fp.zero := by
    split_ifs
    · rw [hm1, hm0]
    · exact hm1
  rw [hf]
  have hl : ∀ w : Fp, X86.mul adx Fp.zero w = Fp.zero := by
    intro w
    apply Fp.val_inj
    rw [X86.mul_val, Fp.zero_val, Nat.zero_mul]
    decide +kernel
  rw [hl]
  split_ifs <;> rfl

/-- C63: `inverse` answers for the residue whatever the words are: the inverse is reduced and exact, and `0` for every
multiple of `p`. -/
theorem C63_inverse (adx : Bool) (x : Fp) (a : ZMod p) (hx : x.Means a) : (x.inverse adx).Rep a⁻¹ := by
  by_cases ha : a = 0
  · have hd : p ∣ x.val := by
      unfold Fp.Means at hx
      rwa [ha, zero_mul, ZMod.natCast_eq_zero_iff] at hx
    rw [inverse_multiple adx x hd, ha, inv_zero]
    exact Fp.zero_rep
  · exact Fp.inverse_means adx hx ha

example (adx : Bool) : (MODULUS.inverse adx).Rep 0⁻¹ := C63_inverse adx _ 0 modulus_case.1

theorem fromMont_means (adx : Bool) {x : Fp} {a : ZMod p} (hx : x.Means a) : (x.fromMont adx).val = a.val := by
  have h1' : (⟨1, 0, 0, 0, 0, 0⟩ : Fp).val < p := by decide +kernel
  obtain ⟨h1, h2⟩ := X86.redc_spec (Fp.mul_bound x h1')
  rw [← X86.mul_val adx] at h1 h2
  have h3 : ((x.fromMont adx).val : ZMod p) = a := by
    refine R_cancel ?_
    have := Fp.cast_of_mod h2
    rw [Fp.one_val, mul_one, Nat.cast_mul, Nat.cast_pow, hx] at this
    unfold Fp.fromMont
    rw [mul_comm]
    exact this
  rw [← h3, ZMod.val_natCast]
  exact (Nat.mod_eq_of_lt h1).symm

/-- C63: encoding, `sign` and the lexicographic order answer for the residue whatever the words are. -/
theorem C63_read (adx : Bool) (x : Fp) (a : ZMod p) (hx : x.Means a) :
    beVal (x.toBytesBE adx true) = a.val ∧ leVal (x.toBytesLE adx true) = a.val ∧
    x.sign adx = decide (a.val % 2 = 0) ∧ x.lexLargest adx = decide ((p - 1) / 2 < a.val) := by
  have h := fromMont_means adx hx
  refine ⟨?_, ?_, ?_, ?_⟩
  · rw [Fp.toBytesBE, if_pos rfl, Scalar.toBytesBE_val, Fp.words_val, h]
  · rw [Fp.toBytesLE, if_pos rfl, Scalar.toBytesLE_val, Fp.words_val, h]
  · rw [← h, Bool.eq_iff_iff, decide_eq_true_iff, ← Fp.isEven_iff]
    rfl
  · rw [← h]
    exact FpC.lex_word _

example (adx : Bool) : beVal (MODULUS.toBytesBE adx true) = (0 : ZMod p).val := (C63_read adx _ 0 modulus_case.1).1

/-- C63: comparisons are of the words: `equal` is equality of the words, `isZero` and `isOne` know one array each, and
`isValid` says whether the words are below `p`. The parity functions speak of the words as well. -/
theorem C63_words (x y : Fp) : (x.equal y = true ↔ x.val = y.val) ∧ (x.isZero = true ↔ x.val = 0) ∧
    (x.isOne = true ↔ x.val = 2 ^ 384 % p) ∧ (x.isValid = true ↔ x.val < p) ∧
    (x.isEven = true ↔ x.val % 2 = 0) ∧ (x.isOdd = true ↔ x.val % 2 = 1) := by
  have h1 : Fp.R1.val = 2 ^ 384 % p := by decide +kernel
  refine ⟨?_, Fp.isZero_iff x, ?_, Fp.isValid_iff x, Fp.isEven_iff x, ?_⟩
  · rw [Fp.equal_iff]; exact ⟨fun h => by rw [h], Fp.val_inj⟩
  · rw [Fp.isOne, Fp.equal_iff, ← h1]; exact ⟨fun h => by rw [h], Fp.val_inj⟩
  · have e : x.isOdd = !x.isEven := rfl
    rw [e, Bool.not_eq_true', ← Bool.not_eq_true, Fp.isEven_iff]
    omega

/-- C63: so `equal` does not recognise equal residues, and a sum of unreduced words can be wrong without notice: `9p`
means zero but is not `isZero`, and `9p + 9p` does not mean zero. -/
theorem C63_unreduced_false : ∃ x : Fp, x.Means 0 ∧ x.isZero = false ∧ x.equal Fp.zero = false ∧
    ¬ (X86.add x x).Means (0 + 0) := by
  have hv : (⟨0x89f6fffffffd0003, 0x140bfff43bf3fffd, 0xa0b767a8ac38a745, 0x8831a7ac8fada8ba,
      0xa3f8e5685da91392, 0xea09a13c057f1b6c⟩ : Fp).val = 9 * p := by decide +kernel
  have hm : (⟨0x89f6fffffffd0003, 0x140bfff43bf3fffd, 0xa0b767a8ac38a745, 0x8831a7ac8fada8ba,
      0xa3f8e5685da91392, 0xea09a13c057f1b6c⟩ : Fp).Means 0 := by
    unfold Fp.Means
    rw [hv, Nat.cast_mul, ZMod.natCast_self, mul_zero, zero_mul]
  refine ⟨_, hm, by decide +kernel, by decide +kernel, ?_⟩
  rw [(C63_add _ _ 0 0 hm hm).1, hv]
  decide +kernel

end Bls.Props
