import Verif.Proof.FpConv
import Verif.Proof.PrimeP

/-! The binary Montgomery inverse (`fp::inverse`). -/

namespace Bls.Fp

set_option exponentiation.threshold 1000

theorem shr1_or (a b : UInt64) : (a >>> 1 ||| b <<< 63).toNat = a.toNat / 2 + 2 ^ 63 * (b.toNat % 2) := by
  have ha := u64_lt a
  have h1 : (a >>> 1).toNat = a.toNat / 2 := by
    rw [UInt64.toNat_shiftRight]; simp [Nat.shiftRight_eq_div_pow]
  have h2 : (b <<< 63).toNat = 2 ^ 63 * (b.toNat % 2) := by
    rw [UInt64.toNat_shiftLeft]; simp [Nat.shiftLeft_eq]; omega
  rw [UInt64.toNat_or, h1, h2, Nat.or_comm, ← Nat.two_pow_add_eq_or_of_lt (by omega), Nat.add_comm]

theorem shl1_or (a b : UInt64) : (a <<< 1 ||| b >>> 63).toNat = 2 * a.toNat % 2 ^ 64 + b.toNat / 2 ^ 63 := by
  have hb := u64_lt b
  have h1 : (a <<< 1).toNat = 2 ^ 1 * (a.toNat % 2 ^ 63) := by
    rw [UInt64.toNat_shiftLeft]; simp [Nat.shiftLeft_eq]; omega
  have h2 : (b >>> 63).toNat = b.toNat / 2 ^ 63 := by
    rw [UInt64.toNat_shiftRight]; simp [Nat.shiftRight_eq_div_pow]
  rw [UInt64.toNat_or, h1, h2, ← Nat.two_pow_add_eq_or_of_lt (by omega)]
  omega

theorem div2_val (x : Fp) : (x.div2 0).val = x.val / 2 := by
  have h0 := u64_lt x.d0; have h1 := u64_lt x.d1; have h2 := u64_lt x.d2
  have h3 := u64_lt x.d3; have h4 := u64_lt x.d4; have h5 := u64_lt x.d5
  simp only [div2, Fp.val, shr1_or, UInt64.toNat_zero]
  omega

theorem mul2_val (x : Fp) : x.mul2.val = 2 * x.val % 2 ^ 384 := by
  have h0 := u64_lt x.d0; have h1 := u64_lt x.d1; have h2 := u64_lt x.d2
  have h3 := u64_lt x.d3; have h4 := u64_lt x.d4; have h5 := u64_lt x.d5
  have e : (x.d0 <<< 1).toNat = 2 * x.d0.toNat % 2 ^ 64 := by
    rw [UInt64.toNat_shiftLeft]; simp [Nat.shiftLeft_eq]; omega
  simp only [mul2, Fp.val, shl1_or, e]
  omega

theorem isEven_iff (x : Fp) : x.isEven = true ↔ x.val % 2 = 0 := by
  have h : (x.d0 &&& 1).toNat = x.d0.toNat % 2 := by
    rw [UInt64.toNat_and]; simp [Nat.and_one_is_mod]
  simp only [isEven, beq_iff_eq, ← UInt64.toNat_inj, h, UInt64.toNat_zero, Fp.val]
  omega

/-- Invariant of phase 1 for the input residue `a`. -/
structure InvInv (a : ZMod p) (u v s r : Fp) (k : Nat) : Prop where
  sum : p = u.val * s.val + v.val * r.val
  hr : a * r.val = -(u.val * 2 ^ k : ZMod p)
  hs : a * s.val = (v.val * 2 ^ k : ZMod p)
  cop : Nat.Coprime u.val v.val
  hu : 1 ≤ u.val
  hs1 : 1 ≤ s.val
  rlt : r.val < 2 * p

theorem invLoop_spec (a : ZMod p) : ∀ (fuel : Nat) (u v s r : Fp) (k : Nat), InvInv a u v s r k →
    u.val * v.val < 2 ^ fuel → ∃ r' k', invLoop (fuel + 1) u v s r k = some (r', k') ∧
      k ≤ k' ∧ k' ≤ k + fuel ∧ (v.val ≠ 0 → k < k') ∧ r'.val < 2 * p ∧
      a * r'.val = -(2 ^ k' : ZMod p) := by
  intro fuel
  induction fuel with
  | zero =>
    intro u v s r k I hlt
    have hv : v.val = 0 := by
      rcases Nat.eq_zero_or_pos v.val with h | h
      · exact h
      · have := Nat.mul_le_mul I.hu h
        omega
    have hu : u.val = 1 := by have := I.cop; rw [hv, Nat.coprime_zero_right] at this; exact this
    refine ⟨r, k, ?_, le_rfl, le_rfl, fun h => absurd hv h, I.rlt, ?_⟩
    · rw [invLoop, if_pos ((Fp.isZero_iff v).2 hv)]
    · rw [I.hr, hu]; simp
  | succ fuel ih =>
    intro u v s r k I hlt
    have hp := X86.p_lt
    rw [invLoop]
    by_cases hv : v.isZero = true
    · rw [if_pos hv]
      rw [Fp.isZero_iff] at hv
      have hu : u.val = 1 := by have := I.cop; rw [hv, Nat.coprime_zero_right] at this; exact this
      refine ⟨r, k, rfl, le_rfl, by omega, fun h => absurd hv h, I.rlt, ?_⟩
      rw [I.hr, hu]; simp
    rw [if_neg hv]
    rw [Fp.isZero_iff] at hv
    have hv1 : 1 ≤ v.val := Nat.one_le_iff_ne_zero.2 hv
    have hsum := I.sum
    have hus : s.val ≤ u.val * s.val := Nat.le_mul_of_pos_left _ I.hu
    have hvr : r.val ≤ v.val * r.val := Nat.le_mul_of_pos_left _ hv1
    have hs1 := I.hs1
    have hu1 := I.hu
    have hus1 : 1 ≤ u.val * s.val := Nat.mul_pos hu1 hs1
    have hrp : r.val < p := by omega
    have hrsp : r.val + s.val ≤ p := by omega
    have hcop := I.cop
    have hrr := I.hr
    have hss := I.hs
    -- a step that keeps the invariant and halves the product finishes
    have fin : ∀ u' v' s' r' : Fp, InvInv a u' v' s' r' (k + 1) → u'.val * v'.val < 2 ^ fuel →
        ∃ r2 k2, invLoop (fuel + 1) u' v' s' r' (k + 1) = some (r2, k2) ∧
          k ≤ k2 ∧ k2 ≤ k + (fuel + 1) ∧ (v.val ≠ 0 → k < k2) ∧ r2.val < 2 * p ∧
          a * r2.val = -(2 ^ k2 : ZMod p) := by
      intro u' v' s' r' I' hl
      obtain ⟨r2, k2, e1, e2, e3, _, e5, e6⟩ := ih u' v' s' r' (k + 1) I' hl
      exact ⟨r2, k2, e1, by omega, by omega, fun _ => by omega, e5, e6⟩
    have hpow : (2 : ZMod p) ^ (k + 1) = 2 * 2 ^ k := by rw [pow_succ, mul_comm]
    by_cases hue : u.isEven = true
    · rw [if_pos hue]
      rw [isEven_iff] at hue
      have eu : (u.div2 0).val = u.val / 2 := div2_val u
      have es : s.mul2.val = 2 * s.val := by rw [mul2_val, Nat.mod_eq_of_lt (by omega)]
      obtain ⟨w, hw⟩ : ∃ w, u.val = 2 * w := ⟨u.val / 2, by omega⟩
      have hw2 : u.val / 2 = w := by omega
      rw [hw] at hsum hcop hrr hlt
      refine fin _ _ _ _ ⟨?_, ?_, ?_, ?_, ?_, ?_, ?_⟩ ?_
      · rw [eu, es, hw2]; rw [hsum]; ring
      · rw [eu, hw2, hpow, hrr]; push_cast; ring
      · rw [es, hpow]; push_cast; linear_combination 2 * hss
      · rw [eu, hw2]; exact Nat.Coprime.coprime_dvd_left ⟨2, by ring⟩ hcop
      · rw [eu]; omega
      · rw [es]; omega
      · exact I.rlt
      · rw [eu, hw2]
        have h3 : 2 * w * v.val = 2 * (w * v.val) := by ring
        rw [h3, pow_succ] at hlt
        omega
    rw [if_neg hue]
    rw [isEven_iff] at hue
    by_cases hve : v.isEven = true
    · rw [if_pos hve]
      rw [isEven_iff] at hve
      have ev : (v.div2 0).val = v.val / 2 := div2_val v
      have er : r.mul2.val = 2 * r.val := by rw [mul2_val, Nat.mod_eq_of_lt (by omega)]
      obtain ⟨w, hw⟩ : ∃ w, v.val = 2 * w := ⟨v.val / 2, by omega⟩
      have hw2 : v.val / 2 = w := by omega
      rw [hw] at hsum hcop hss hlt
      refine fin _ _ _ _ ⟨?_, ?_, ?_, ?_, ?_, ?_, ?_⟩ ?_
      · rw [ev, er, hw2]; rw [hsum]; ring
      · rw [er, hpow]; push_cast; linear_combination 2 * hrr
      · rw [ev, hw2, hpow, hss]; push_cast; ring
      · rw [ev, hw2]; exact Nat.Coprime.coprime_dvd_right ⟨2, by ring⟩ hcop
      · exact I.hu
      · exact I.hs1
      · rw [er]; omega
      · rw [ev, hw2]
        have h3 : u.val * (2 * w) = 2 * (u.val * w) := by ring
        rw [h3, pow_succ] at hlt
        omega
    rw [if_neg hve]
    rw [isEven_iff] at hve
    have hul := Fp.val_lt u
    have hvl := Fp.val_lt v
    by_cases hc : v.lt u = true
    · rw [if_pos hc]
      rw [lt_iff] at hc
      have esub : (X86.lsub u v).val = u.val - v.val := by rw [X86.lsub_val]; omega
      have eu : ((X86.lsub u v).div2 0).val = (u.val - v.val) / 2 := by rw [div2_val, esub]
      have es : s.mul2.val = 2 * s.val := by rw [mul2_val, Nat.mod_eq_of_lt (by omega)]
      have er : (X86.ladd r s).val = r.val + s.val := by
        rw [X86.ladd_val, Nat.mod_eq_of_lt (by omega)]
      obtain ⟨w, hw⟩ : ∃ w, u.val = 2 * w + v.val := ⟨(u.val - v.val) / 2, by omega⟩
      have hw2 : (u.val - v.val) / 2 = w := by omega
      rw [hw] at hsum hcop hrr hlt
      refine fin _ _ _ _ ⟨?_, ?_, ?_, ?_, ?_, ?_, ?_⟩ ?_
      · rw [eu, es, er, hw2]; rw [hsum]; ring
      · rw [eu, er, hw2, hpow]; push_cast; push_cast at hrr; linear_combination hrr + hss
      · rw [es, hpow]; push_cast; linear_combination 2 * hss
      · rw [eu, hw2]
        have : Nat.Coprime (2 * w) v.val := by
          rwa [Nat.coprime_add_self_left] at hcop
        exact Nat.Coprime.coprime_dvd_left ⟨2, by ring⟩ this
      · rw [eu]; omega
      · rw [es]; omega
      · rw [er]; omega
      · rw [eu, hw2]
        have h3 : (2 * w + v.val) * v.val = 2 * (w * v.val) + v.val * v.val := by ring
        rw [h3, pow_succ] at hlt
        omega
    · rw [if_neg hc]
      rw [lt_iff] at hc
      have esub : (X86.lsub v u).val = v.val - u.val := by rw [X86.lsub_val]; omega
      have ev : ((X86.lsub v u).div2 0).val = (v.val - u.val) / 2 := by rw [div2_val, esub]
      have er : r.mul2.val = 2 * r.val := by rw [mul2_val, Nat.mod_eq_of_lt (by omega)]
      have es : (X86.ladd s r).val = s.val + r.val := by
        rw [X86.ladd_val, Nat.mod_eq_of_lt (by omega)]
      obtain ⟨w, hw⟩ : ∃ w, v.val = 2 * w + u.val := ⟨(v.val - u.val) / 2, by omega⟩
      have hw2 : (v.val - u.val) / 2 = w := by omega
      rw [hw] at hsum hcop hss hlt
      refine fin _ _ _ _ ⟨?_, ?_, ?_, ?_, ?_, ?_, ?_⟩ ?_
      · rw [ev, es, er, hw2]; rw [hsum]; ring
      · rw [er, hpow]; push_cast; linear_combination 2 * hrr
      · rw [ev, es, hw2, hpow]; push_cast; push_cast at hss; linear_combination hrr + hss
      · rw [ev, hw2]
        have : Nat.Coprime u.val (2 * w) := by
          rwa [Nat.coprime_add_self_right] at hcop
        exact Nat.Coprime.coprime_dvd_right ⟨2, by ring⟩ this
      · exact I.hu
      · rw [es]; omega
      · rw [er]; omega
      · rw [ev, hw2]
        have h3 : u.val * (2 * w + u.val) = 2 * (u.val * w) + u.val * u.val := by ring
        rw [h3, pow_succ] at hlt
        omega

theorem powerOfTwo_val {e : Nat} (h : e < 384) : (powerOfTwo e).val = 2 ^ e := by
  have : ∀ i : Fin 384, (powerOfTwo i).val = 2 ^ (i : Nat) := by decide +kernel
  exact this ⟨e, h⟩

theorem inverse_zero (adx : Bool) {x : Fp} (hx : x.val = 0) : (x.inverse adx) = zero := by
  unfold inverse
  rw [if_pos ((Fp.isZero_iff x).2 hx)]

/-- For any six words that are not a multiple of `p` the loop ends within its bound, the array index is in range and
the result represents the inverse. -/
theorem inverse_means (adx : Bool) {x : Fp} {b : ZMod p} (hx : (x.val : ZMod p) = b * 2 ^ 384) (hb : b ≠ 0) :
    (x.inverse adx).Rep b⁻¹ := by
  have hp := X86.p_lt
  have hnd : ¬ p ∣ x.val := by
    intro h
    apply hb
    rw [(ZMod.natCast_eq_zero_iff _ _).2 h] at hx
    exact R_cancel (by rw [← hx, zero_mul])
  have hx0 : x.val ≠ 0 := by
    intro h
    exact hnd (by rw [h]; exact dvd_zero _)
  have hone : (⟨1, 0, 0, 0, 0, 0⟩ : Fp).val = 1 := one_val
  have hzero : (⟨0, 0, 0, 0, 0, 0⟩ : Fp).val = 0 := zero_val
  have I : InvInv (x.val : ZMod p) MODULUS x ⟨1, 0, 0, 0, 0, 0⟩ ⟨0, 0, 0, 0, 0, 0⟩ 0 := by
    refine ⟨?_, ?_, ?_, ?_, ?_, ?_, ?_⟩
    · rw [hone, hzero, MODULUS_val]; ring
    · rw [hzero, MODULUS_val]; simp
    · rw [hone]; simp
    · rw [ MODULUS_val]
      exact (Nat.Prime.coprime_iff_not_dvd p_prime).2 hnd
    · rw [ MODULUS_val]; exact X86.p_pos
    · rw [hone]
    · rw [hzero]; exact Nat.mul_pos (by norm_num) X86.p_pos
  have hl : MODULUS.val * x.val < 2 ^ 767 := by
    rw [ MODULUS_val]
    calc p * x.val < 2 ^ 381 * 2 ^ 384 := Nat.mul_lt_mul'' hp (Fp.val_lt x)
      _ ≤ 2 ^ 767 := by norm_num
  obtain ⟨r, k, e1, _, e3, e4, e5, e6⟩ := invLoop_spec _ 767 _ _ _ _ _ I hl
  have hk := e4 hx0
  unfold inverse
  rw [if_neg (by rw [Fp.isZero_iff]; exact hx0), e1]
  dsimp only
  have h2 : (2 : ZMod p) ≠ 0 := by
    intro h
    have : ((2 : Nat) : ZMod p) = 0 := by exact_mod_cast h
    rw [ZMod.natCast_eq_zero_iff] at this
    have := Nat.le_of_dvd (by norm_num) this
    have : p > 2 := by decide +kernel
    omega
  have hxv : (x.val : ZMod p) = b * 2 ^ 384 := hx
  -- the reduced r
  obtain ⟨r', hr', hrlt, hrc⟩ : ∃ r' : Fp, (if r.lt MODULUS = true then r else X86.lsub r MODULUS) = r' ∧
      r'.val < p ∧ (r'.val : ZMod p) = r.val := by
    refine ⟨_, rfl, ?_⟩
    by_cases h : r.lt MODULUS = true
    · rw [if_pos h]
      rw [lt_iff, MODULUS_val] at h
      exact ⟨h, rfl⟩
    · rw [if_neg h]
      rw [lt_iff, MODULUS_val] at h
      have : (X86.lsub r MODULUS).val = r.val - p := by
        rw [X86.lsub_val, MODULUS_val]; have := Fp.val_lt r; omega
      rw [this]
      refine ⟨by omega, ?_⟩
      rw [Nat.cast_sub (by omega)]; simp
  rw [hr']
  have hr0 : r'.val ≠ 0 := by
    intro h
    rw [← hrc, h, Nat.cast_zero, mul_zero] at e6
    exact pow_ne_zero k h2 (neg_eq_zero.1 e6.symm)
  have hu : (X86.lsub MODULUS r').val = p - r'.val := by
    rw [X86.lsub_val, MODULUS_val]; omega
  have hult : (X86.lsub MODULUS r').val < p := by rw [hu]; omega
  have huc : (x.val : ZMod p) * (X86.lsub MODULUS r').val = 2 ^ k := by
    rw [hu, Nat.cast_sub hrlt.le, hrc]
    simp only [CharP.cast_eq_zero, zero_sub]
    linear_combination -e6
  generalize X86.lsub MODULUS r' = u at hult huc
  -- multiplication by R2
  have mulR2 : ∀ w : Fp, w.val < p → (X86.mul adx w R2).val < p ∧
      ((X86.mul adx w R2).val : ZMod p) = w.val * 2 ^ 384 := fun w _ => by
    have := toMont_rep adx w
    exact this
  obtain ⟨u', k', hu', hk', hu'lt, hu'c, hk1, hk2⟩ : ∃ (u' : Fp) (k' : Nat),
      (if k ≤ 384 then X86.mul adx u R2 else u) = u' ∧ (if k ≤ 384 then k + 384 else k) = k' ∧
      u'.val < p ∧ (x.val : ZMod p) * u'.val = 2 ^ k' ∧ 384 < k' ∧ k' ≤ 768 := by
    refine ⟨_, _, rfl, rfl, ?_⟩
    by_cases h : k ≤ 384
    · simp only [if_pos h]
      refine ⟨(mulR2 u hult).1, ?_, by omega, by omega⟩
      rw [(mulR2 u hult).2, ← mul_assoc, huc, pow_add]
    · simp only [if_neg h]
      exact ⟨hult, huc, by omega, by omega⟩
  rw [hu', hk']
  obtain ⟨h1, h3⟩ := mulR2 u' hu'lt
  generalize X86.mul adx u' R2 = y at h1 h3
  rw [if_neg (by omega)]
  have hpw := powerOfTwo_val (e := 2 * 384 - k') (by omega)
  have hb2 : y.val * (powerOfTwo (2 * 384 - k')).val < 2 ^ 384 * p := by
    rw [Nat.mul_comm]
    exact mul_bound _ h1
  obtain ⟨g1, g2⟩ := X86.redc_spec hb2
  rw [← X86.mul_val adx] at g1 g2
  refine ⟨g1, ?_⟩
  have g3 := cast_of_mod g2
  rw [Nat.cast_mul, Nat.cast_mul, Nat.cast_pow, hpw, Nat.cast_pow, h3, Nat.cast_ofNat] at g3
  have hk3 : (2 : ZMod p) ^ k' * 2 ^ (2 * 384 - k') = 2 ^ 384 * 2 ^ 384 := by
    have e : k' + (2 * 384 - k') = 384 + 384 := by omega
    rw [← pow_add, e, pow_add]
  have hR : (2 : ZMod p) ^ 384 ≠ 0 := pow_ne_zero _ h2
  have key : b * 2 ^ 384 * (2 ^ 384 * ((X86.mul adx y (powerOfTwo (2 * 384 - k'))).val : ZMod p)) =
      b * 2 ^ 384 * (2 ^ 384 * (b⁻¹ * 2 ^ 384)) := by
    rw [g3, ← hxv]
    have : (x.val : ZMod p) * (u'.val * 2 ^ 384 * 2 ^ (2 * 384 - k')) =
        (x.val * u'.val) * 2 ^ (2 * 384 - k') * 2 ^ 384 := by ring
    rw [this, hu'c, hk3, hxv]
    have hbb : b * b⁻¹ = 1 := mul_inv_cancel₀ hb
    linear_combination (-(2 ^ 384 * 2 ^ 384 * 2 ^ 384) : ZMod p) * hbb
  exact mul_left_cancel₀ hR (mul_left_cancel₀ (mul_ne_zero hb hR) key)

theorem inverse_rep (adx : Bool) {x : Fp} {b : ZMod p} (hx : x.Rep b) (hb : b ≠ 0) :
    (x.inverse adx).Rep b⁻¹ := inverse_means adx hx.2 hb

end Bls.Fp
