import Verif.Spec.Rep
import Verif.Proof.X86Ops

/-! The x86-64 operations on represented residues. -/

namespace Bls

set_option exponentiation.threshold 1000

/-- `2^-384` modulo `p`. -/
def RinvN : Nat := 0x14fec701e8fb0ce9ed5e64273c4f538b1797ab1458a88de9343ea97914956dc87fe11274d898fafbf4d38259380b4820

/-- `2^-384` as a residue. -/
def Rinv : ZMod p := (RinvN : ZMod p)

theorem R_Rinv : (2 ^ 384 : ZMod p) * Rinv = 1 := by
  have h : (2 ^ 384 * RinvN) % p = 1 % p := by decide +kernel
  have h2 : ((2 ^ 384 * RinvN : Nat) : ZMod p) = ((1 : Nat) : ZMod p) :=
    (ZMod.natCast_eq_natCast_iff _ _ _).2 h
  rw [Nat.cast_mul, Nat.cast_pow, Nat.cast_one] at h2
  exact h2

theorem R_cancel {a b : ZMod p} (h : a * 2 ^ 384 = b * 2 ^ 384) : a = b := by
  have := congrArg (· * Rinv) h
  simpa [mul_assoc, R_Rinv] using this

theorem Fp.Rep.valid {x : Fp} {a : ZMod p} (h : x.Rep a) : x.val < p := h.1

/-- A canonical array represents exactly one residue. -/
theorem Fp.Rep.unique {x : Fp} {a b : ZMod p} (h : x.Rep a) (h' : x.Rep b) : a = b :=
  R_cancel (h.2.symm.trans h'.2)

/-- A residue has exactly one canonical array. -/
theorem Fp.Rep.inj {x y : Fp} {a : ZMod p} (h : x.Rep a) (h' : y.Rep a) : x = y := by
  apply Fp.val_inj
  have := h.2.trans h'.2.symm
  rw [ZMod.natCast_eq_natCast_iff, Nat.ModEq, Nat.mod_eq_of_lt h.1, Nat.mod_eq_of_lt h'.1] at this
  exact this

theorem Fp.rep_of_valid {x : Fp} (h : x.val < p) : x.Rep ((x.val : ZMod p) * Rinv) :=
  ⟨h, by rw [mul_assoc, mul_comm Rinv, R_Rinv, mul_one]⟩

namespace X86

theorem p_pos : 0 < p := by decide +kernel

theorem csub_spec {t : Nat} (h : t < 2 * p) : csub (t % 2 ^ 384) = t % p := by
  have hp := p_lt
  rw [Nat.mod_eq_of_lt (by omega), csub]
  split_ifs with h'
  · rw [Nat.mod_eq_of_lt h']
  · rw [Nat.mod_eq_sub_mod (by omega), Nat.mod_eq_of_lt (by omega)]

theorem cast_mod (n : Nat) : ((n % p : Nat) : ZMod p) = n := by simp

theorem cast_eq {a b : Nat} (h : a % p = b % p) : (a : ZMod p) = b := by
  rw [ZMod.natCast_eq_natCast_iff]; exact h

theorem rep_add {x y : Fp} {a b : ZMod p} (hx : x.Rep a) (hy : y.Rep b) : (add x y).Rep (a + b) := by
  have h : (add x y).val = (x.val + y.val) % p := by
    rw [add_val, csub_spec]; have := hx.1; have := hy.1; omega
  refine ⟨by rw [h]; exact Nat.mod_lt _ p_pos, ?_⟩
  rw [h, cast_mod]; push_cast; rw [hx.2, hy.2]; ring

theorem rep_dbl {x : Fp} {a : ZMod p} (hx : x.Rep a) : (dbl x).Rep (a + a) := by
  have h : (dbl x).val = (x.val + x.val) % p := by
    rw [dbl_val, csub_spec]; have := hx.1; omega
  refine ⟨by rw [h]; exact Nat.mod_lt _ p_pos, ?_⟩
  rw [h, cast_mod]; push_cast; rw [hx.2]; ring

theorem rep_sub {x y : Fp} {a b : ZMod p} (hx : x.Rep a) (hy : y.Rep b) : (sub x y).Rep (a - b) := by
  have hx1 := hx.1; have hy1 := hy.1; have hp := p_lt
  have h : (sub x y).val < p ∧ ((sub x y).val + y.val) % p = x.val % p := by
    rw [sub_val]
    split_ifs with h
    · exact ⟨by omega, by rw [Nat.sub_add_cancel h]⟩
    · have e : (x.val + 2 ^ 384 - y.val + p) % 2 ^ 384 = x.val + p - y.val := by omega
      rw [e]
      refine ⟨by omega, ?_⟩
      rw [Nat.sub_add_cancel (by omega), Nat.add_mod_right]
  refine ⟨h.1, ?_⟩
  have := cast_eq h.2
  push_cast at this
  rw [hx.2, hy.2] at this
  linear_combination this

theorem rep_neg {x : Fp} {a : ZMod p} (hx : x.Rep a) : (neg x).Rep (-a) := by
  have hx1 := hx.1; have hp := p_lt
  have h : (neg x).val < p ∧ ((neg x).val + x.val) % p = 0 % p := by
    rw [neg_val]
    split_ifs with h
    · rw [h]; exact ⟨p_pos, rfl⟩
    · have e : (p + 2 ^ 384 - x.val) % 2 ^ 384 = p - x.val := by omega
      rw [e]
      exact ⟨by omega, by rw [Nat.sub_add_cancel hx1.le]; simp⟩
  refine ⟨h.1, ?_⟩
  have := cast_eq h.2
  push_cast at this
  rw [hx.2] at this
  linear_combination this

/-- Montgomery product on any operands in range: the first operand need not be canonical. -/
theorem rep_mul_of {x y z : Fp} {a b : ZMod p} (hz : z.val = redc (x.val * y.val))
    (hx : (x.val : ZMod p) = a * 2 ^ 384) (hy : (y.val : ZMod p) = b * 2 ^ 384)
    (hxy : x.val * y.val < 2 ^ 384 * p) : z.Rep (a * b) := by
  obtain ⟨h1, h2⟩ := redc_spec hxy
  rw [← hz] at h1 h2
  refine ⟨h1, R_cancel ?_⟩
  have := cast_eq h2
  push_cast at this
  rw [hx, hy] at this
  linear_combination this

theorem rep_mul {adx : Bool} {x y : Fp} {a b : ZMod p} (hx : x.Rep a) (hy : y.Rep b) :
    (mul adx x y).Rep (a * b) :=
  rep_mul_of (mul_val ..) hx.2 hy.2
    (lt_of_le_of_lt (Nat.mul_le_mul_right _ (Fp.val_lt x).le)
      (Nat.mul_lt_mul_of_pos_left hy.1 (by norm_num)))

theorem rep_sqr {x : Fp} {a : ZMod p} (hx : x.Rep a) : (sqr x).Rep (a * a) :=
  rep_mul_of (sqr_val _) hx.2 hx.2
    (lt_of_le_of_lt (Nat.mul_le_mul_right _ (Fp.val_lt x).le)
      (Nat.mul_lt_mul_of_pos_left hx.1 (by norm_num)))

end X86
end Bls
